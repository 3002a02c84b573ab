import Verif.Model.Rbf
import Verif.Model.Math
import Mathlib.Data.Real.Archimedean

/-
Model of src/pyinterp/core/lib/geodetic/rtree.cpp and include/pyinterp/geodetic/rtree.hpp (`core.geodetic.RTree`), with the
parts of detail/geometry/rtree.hpp that they use with a strategy of distance.

The index, the geographic distance and the geographic envelope are Boost: they are the fields of `Boost`. The contents of the
trees are in a heap, because the copies of a tree share it (`std::shared_ptr`, detail/geometry/rtree.hpp:596). Numbers are
reals.
-/
namespace Pyinterp.GeoTree
open Pyinterp

/-- `GeographicPoint2D<double>`: longitude and latitude, in degrees (detail/geometry/point.hpp). -/
structure Pos where
  lon : ℝ
  lat : ℝ

/-- `value_t` (detail/geometry/rtree.hpp:44). -/
structure Item where
  pos : Pos
  val : ℝ

/-- What Boost computes: `near all q k` are the values enumerated by `qbegin(nearest(q, k))`, `distance axes` is the distance of
`strategy::andoyer` on the spheroid of these semi-axes, `covered q l` is `covered_by(q, return_envelope<box>(l))`. -/
structure Boost where
  near : List Item → Pos → Nat → List Item
  distance : ℝ × ℝ → Pos → Pos → ℝ
  covered : Pos → List Pos → Bool

/-- The contents of the trees that exist (in the order in which Boost enumerates them). -/
abbrev Heap := List (List Item)

/-- `geodetic::RTree`: the pointer `tree_` and the radii of `strategy_` (geodetic/rtree.hpp:18-105). -/
structure Tree where
  ref : Nat
  axes : ℝ × ℝ

/-- `detail::geodetic::Spheroid()`: semi-major axis and flattening of WGS84 (detail/geodetic/spheroid.hpp:40-44). -/
noncomputable def wgs84 : ℝ × ℝ := (6378137, 1 / 298.257223563)

/-- The constructor (rtree.cpp:26-30, module/geodetic.cpp:1396-1397): `wgs` is (semi-major axis, flattening); the semi-minor
axis is `a * (1 - f)` (detail/geodetic/spheroid.hpp:69-71). -/
noncomputable def new (h : Heap) (wgs : Option (ℝ × ℝ)) : Heap × Tree :=
  let s := wgs.getD wgs84
  (h ++ [[]], { ref := h.length, axes := (s.1, s.1 * (1 - s.2)) })

/-- `__copy__` (module/geodetic.cpp:1398-1401): the copy constructor copies the pointer. -/
def copy (t : Tree) : Tree := t

/-- The content of the tree. -/
def contents (h : Heap) (t : Tree) : List Item := h.getD t.ref []

/-- `normalize_angle(lon, -180.0, 360.0)` (rtree.cpp:58, 80, 118, 182, 243, 300). -/
noncomputable def pos (lon lat : ℝ) : Pos := ⟨Math.normalizeAngleF lon (-180) 360, lat⟩

/-- The items of `packing` and `insert` (rtree.cpp:46-63, 71-85). -/
noncomputable def load (lon lat values : List ℝ) : Out (List Item) :=
  if lon.length ≠ lat.length then .error .exn
  else if lon.length ≠ values.length then .error .exn
  else .ok (((lon.zip lat).zip values).map fun p => ⟨pos p.1.1 p.1.2, p.2⟩)

/-- `packing` (rtree.cpp:43-64): the old content is erased. -/
noncomputable def packing (h : Heap) (t : Tree) (lon lat values : List ℝ) : Out Heap := do
  let items ← load lon lat values
  pure (h.set t.ref items)

/-- `insert` (rtree.cpp:68-85). -/
noncomputable def insert (h : Heap) (t : Tree) (lon lat values : List ℝ) : Out Heap := do
  let items ← load lon lat values
  pure (h.set t.ref (contents h t ++ items))

/-- `clear` (detail/geometry/rtree.hpp:95). -/
def clear (h : Heap) (t : Tree) : Heap := h.set t.ref []

/-- `getstate` (rtree.cpp:315-335): the radii, the coordinates and the values. -/
def getstate (h : Heap) (t : Tree) : (ℝ × ℝ) × List (ℝ × ℝ) × List ℝ :=
  (t.axes, (contents h t).map (fun i => (i.pos.lon, i.pos.lat)), (contents h t).map Item.val)

/-- `setstate` (rtree.cpp:339-368); the number of elements of the tuple and of columns are in the type. The cast of line 366
makes a copy of the tree, which shares its content with `result`. -/
noncomputable def setstate (h : Heap) (s : (ℝ × ℝ) × List (ℝ × ℝ) × List ℝ) : Out (Heap × Tree) :=
  if s.2.1.length ≠ s.2.2.length then .error .exn
  else
    let vector := (s.2.1.zip s.2.2).map fun p => (⟨⟨p.1.1, p.1.2⟩, p.2⟩ : Item)
    let n := new h none
    let result : Tree := { n.2 with axes := s.1 }
    let base := copy result
    .ok (n.1.set base.ref vector, result)

/-- `query` and `query_within` (detail/geometry/rtree.hpp:117-129, 178-201): the distances and the values. -/
def pairs (b : Boost) (h : Heap) (t : Tree) (q : Pos) (k : Nat) (within : Bool) : List (ℝ × ℝ) :=
  let near := b.near (contents h t) q k
  if within && !b.covered q (near.map Item.pos) then []
  else near.map fun i => (b.distance t.axes q i.pos, i.val)

/-- One row of `query` (rtree.cpp:113-135). -/
noncomputable def queryRow (b : Boost) (h : Heap) (t : Tree) (k : Nat) (within : Bool) (lon lat : ℝ) : Out (List (ℝ × ℝ)) :=
  RTree.queryRow k (pairs b h t (pos lon lat) k within)

/-- The loop over the points, after the test of the sizes (rtree.cpp:91-92, 150, 212, 274). The threads are those of C29. -/
def points {α : Type} (f : ℝ → ℝ → Out α) (lon lat : List ℝ) : Out (List α) :=
  if lon.length ≠ lat.length then .error .exn
  else (lon.zip lat).mapM fun p => f p.1 p.2

/-- `query` (rtree.cpp:87-141). -/
noncomputable def query (b : Boost) (h : Heap) (t : Tree) (lon lat : List ℝ) (k : Nat) (within : Bool) :
    Out (List (List (ℝ × ℝ))) :=
  points (queryRow b h t k within) lon lat

/-- `inverse_distance_weighting` at a point (rtree.cpp:181-187; detail/geometry/rtree.hpp:280-322). -/
noncomputable def idw (b : Boost) (h : Heap) (t : Tree) (radius : Option ℝ) (k p : Nat) (within : Bool) (lon lat : ℝ) :
    Option ℝ × Nat :=
  match RTree.idwLoop k p radius (pairs b h t (pos lon lat) k within) ⟨0, 0, 0⟩ with
  | .inl r => r
  | .inr acc => if acc.total ≠ 0 then (some (acc.result / acc.total), acc.neighbors) else (none, 0)

/-- `inverse_distance_weighting` (rtree.cpp:143-201). -/
noncomputable def inverseDistanceWeighting (b : Boost) (h : Heap) (t : Tree) (lon lat : List ℝ) (radius : Option ℝ)
    (k p : Nat) (within : Bool) : Out (List (Option ℝ × Nat)) :=
  points (fun x y => .ok (idw b h t radius k p within x y)) lon lat

/-- `window_function` at a point (rtree.cpp:299-305; detail/geometry/rtree.hpp:541-578). The radius is an argument of type
`double`: there is always one. -/
noncomputable def window (b : Boost) (h : Heap) (t : Tree) (wf : WindowFunctions.Fn) (arg : Option ℝ) (radius : ℝ) (k : Nat)
    (within : Bool) (lon lat : ℝ) : Option ℝ × Nat :=
  match RTree.windowLoop (fun d => WindowFunctions.weight wf d radius (arg.getD 0)) (some radius)
      (pairs b h t (pos lon lat) k within) (some (0, 0)) 0 with
  | (none, n) => (none, n)
  | (some a, n) => if a.2 ≠ 0 then (some (a.1 / a.2), n) else (none, 0)

/-- `window_function` (rtree.cpp:265-313). -/
noncomputable def windowFunction (b : Boost) (h : Heap) (t : Tree) (lon lat : List ℝ) (radius : ℝ) (k : Nat)
    (wf : WindowFunctions.Fn) (arg : Option ℝ) (within : Bool) : Out (List (Option ℝ × Nat)) :=
  points (fun x y => .ok (window b h t wf arg radius k within x y)) lon lat

/-- `nearest` and `nearest_within` (detail/geometry/rtree.hpp:378-405, 427-467). -/
noncomputable def nearest (b : Boost) (h : Heap) (t : Tree) (q : Pos) (radius : Option ℝ) (k : Nat) (within : Bool) :
    List Item :=
  let sel := (b.near (contents h t) q k).filter fun i => RTree.close radius (b.distance t.axes q i.pos)
  if within && !b.covered q (sel.map Item.pos) then [] else sel

/-- `interpolate` of the radial basis functions with the geographic distance (rtree.cpp:9-24;
detail/math/radial_basis_functions.hpp:80-101). -/
noncomputable def rbfInterpolate {n : Nat} (dist : Pos → Pos → ℝ)
    (solve : Matrix (Fin n) (Fin n) ℝ → (Fin n → ℝ) → Fin n → ℝ) (f : RTree.Rbf) (epsilon : Option ℝ) (smooth : ℝ)
    (xk : Fin n → Pos) (yk : Fin n → ℝ) (xi : Pos) : Option ℝ :=
  let r : Matrix (Fin n) (Fin n) ℝ := fun i j => dist (xk i) (xk j)
  let run (e : ℝ) : ℝ :=
    let A : Matrix (Fin n) (Fin n) ℝ := Matrix.of fun i j => f.apply (r i j) e
    let A := if smooth ≠ 0 then A - smooth • (1 : Matrix (Fin n) (Fin n) ℝ) else A
    (fun j => f.apply (dist xi (xk j)) e) ⬝ᵥ solve A yk
  if f.adjustable then (RTree.usedEpsilon epsilon r).map run else some (run 0)

/-- `radial_basis_function` at a point (rtree.cpp:242-248; detail/geometry/rtree.hpp:495-516). -/
noncomputable def rbf (b : Boost) (solve : (n : Nat) → Matrix (Fin n) (Fin n) ℝ → (Fin n → ℝ) → Fin n → ℝ) (h : Heap) (t : Tree)
    (f : RTree.Rbf) (epsilon : Option ℝ) (smooth : ℝ) (radius : Option ℝ) (k : Nat) (within : Bool) (lon lat : ℝ) :
    Option ℝ × Nat :=
  let l := nearest b h t (pos lon lat) radius k within
  if l.length = 0 then (none, 0)
  else (rbfInterpolate (b.distance t.axes) (solve l.length) f epsilon smooth (fun i => (l.get i).pos)
    (fun i => (l.get i).val) (pos lon lat), l.length)

/-- `radial_basis_function` (rtree.cpp:203-263). -/
noncomputable def radialBasisFunction (b : Boost) (solve : (n : Nat) → Matrix (Fin n) (Fin n) ℝ → (Fin n → ℝ) → Fin n → ℝ)
    (h : Heap) (t : Tree) (lon lat : List ℝ) (radius : Option ℝ) (k : Nat) (f : RTree.Rbf) (epsilon : Option ℝ) (smooth : ℝ)
    (within : Bool) : Out (List (Option ℝ × Nat)) :=
  points (fun x y => .ok (rbf b solve h t f epsilon smooth radius k within x y)) lon lat

end Pyinterp.GeoTree
