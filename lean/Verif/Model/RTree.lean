import Mathlib.Analysis.SpecialFunctions.Sqrt
import Verif.Model.Base
import Verif.Model.WindowFunctions

/-
Model of src/pyinterp/core/include/pyinterp/detail/geometry/rtree.hpp (the queries and the
interpolations by inverse distance weighting and by window functions) and of the parts of
src/pyinterp/core/include/pyinterp/rtree.hpp that use them, for one point of the query (each
point is independent of the others; the threads are those of `Model/Thread.lean`).

The spatial index is Boost (not part of the repository): the list of neighbours that
`tree_->qbegin(nearest(point, k))` enumerates is the argument `near` of the functions below; the
theorems hold for every list that satisfies the documented contract of Boost
(`Spec/Neighbours.lean`). Coordinates and values are real numbers; rounding, NaN coordinates and NaN
values are not modelled.
-/
namespace Pyinterp.RTree
open Real

/-- `geometry::Point3D<T>` (detail/geometry/point.hpp): Cartesian coordinates. -/
structure Point where
  x : ℝ
  y : ℝ
  z : ℝ

/-- `value_t` (detail/geometry/rtree.hpp:44): a point with its value. -/
structure Item where
  pt : Point
  val : ℝ

/-- `boost::geometry::distance` with the default strategy of Cartesian points (Boost). -/
noncomputable def distance (p q : Point) : ℝ :=
  √((p.x - q.x) ^ 2 + (p.y - q.y) ^ 2 + (p.z - q.z) ^ 2)

/-- `covered_by(point, return_envelope<box>(points))` (Boost, used in detail/geometry/rtree.hpp:195-197, 248-250,
456-458): the envelope of no point covers nothing. -/
noncomputable def coveredBy (p : Point) (l : List Point) : Bool :=
  match l with
  | [] => false
  | a :: l =>
    let lo (c : Point → ℝ) := l.foldl (fun m q => min m (c q)) (c a)
    let hi (c : Point → ℝ) := l.foldl (fun m q => max m (c q)) (c a)
    decide (lo Point.x ≤ p.x ∧ p.x ≤ hi Point.x ∧ lo Point.y ≤ p.y ∧ p.y ≤ hi Point.y ∧
      lo Point.z ≤ p.z ∧ p.z ≤ hi Point.z)

/-- `query(point, strategy, k)` (detail/geometry/rtree.hpp:117-129). -/
noncomputable def query (p : Point) (near : List Item) : List (ℝ × ℝ) :=
  near.map fun i => (distance p i.pt, i.val)

/-- `query_ball(point, strategy, radius)` (detail/geometry/rtree.hpp:146-160); `all` are the values of the tree in the
order in which Boost enumerates them. -/
noncomputable def queryBall (p : Point) (all : List Item) (radius : ℝ) : List (ℝ × ℝ) :=
  (all.filter fun i => decide (distance i.pt p ≤ radius)).map fun i => (distance p i.pt, i.val)

/-- `query_within(point, strategy, k)` (detail/geometry/rtree.hpp:178-201). -/
noncomputable def queryWithin (p : Point) (near : List Item) : List (ℝ × ℝ) :=
  if !coveredBy p (near.map Item.pt) then [] else near.map fun i => (distance p i.pt, i.val)

/-- "Remove points outside the radius" (detail/geometry/rtree.hpp:229-238). -/
noncomputable def removeFar (p : Point) (near : List Item) (radius : Option ℝ) : List Item :=
  match radius with
  | some r => near.filter fun i => !decide (distance i.pt p > r)
  | none => near

/-- `value(point, strategy, radius, k, within)` (detail/geometry/rtree.hpp:220-255). -/
noncomputable def value (p : Point) (near : List Item) (radius : Option ℝ) (within : Bool) : List Item :=
  let result := removeFar p near radius
  if within && !coveredBy p (result.map Item.pt) then [] else result

/-- `distance <= radius` (detail/geometry/rtree.hpp:303, 388-389, 441-442, 562); `radius` is `none` for the largest number of the
type (no radius: rtree.hpp:247, 254). -/
noncomputable def close (radius : Option ℝ) (d : ℝ) : Bool :=
  match radius with
  | some r => decide (d ≤ r)
  | none => true

/-- The local variables of the loop of `inverse_distance_weighting`. -/
structure Acc where
  result : ℝ
  total : ℝ
  neighbors : Nat

/-- The loop of `inverse_distance_weighting` (detail/geometry/rtree.hpp:296-312): `Sum.inl` is the early return. -/
noncomputable def idwLoop (k p : Nat) (radius : Option ℝ) : List (ℝ × ℝ) → Acc → (Option ℝ × Nat) ⊕ Acc
  | [], acc => .inr acc
  | item :: rest, acc =>
    if item.1 < 1e-6 then .inl (some item.2, k)
    else if close radius item.1 then
      let wk := 1 / item.1 ^ p
      idwLoop k p radius rest ⟨acc.result + item.2 * wk, acc.total + wk, acc.neighbors + 1⟩
    else idwLoop k p radius rest acc

/-- `inverse_distance_weighting` (detail/geometry/rtree.hpp:280-322): the value (`none` is NaN) and the number of
neighbours. -/
noncomputable def idw (point : Point) (near : List Item) (radius : Option ℝ) (k p : Nat) (within : Bool) :
    Option ℝ × Nat :=
  let nearest := if within then queryWithin point near else query point near
  match idwLoop k p radius nearest ⟨0, 0, 0⟩ with
  | .inl r => r
  | .inr acc => if acc.total ≠ 0 then (some (acc.result / acc.total), acc.neighbors) else (none, 0)

/-- The loop of `window_function` (detail/geometry/rtree.hpp:560-570); a weight that is not a finite number makes the
sums NaN: the value is then `none`. The second component is the number of neighbours. -/
noncomputable def windowLoop (w : ℝ → Option ℝ) (radius : Option ℝ) :
    List (ℝ × ℝ) → Option (ℝ × ℝ) → Nat → Option (ℝ × ℝ) × Nat
  | [], acc, n => (acc, n)
  | item :: rest, acc, n =>
    if !close radius item.1 then (acc, n)
    else
      windowLoop w radius rest (do
        let a ← acc
        let wk ← w item.1
        some (a.1 + item.2 * wk, a.2 + wk)) (n + 1)

/-- `furthest_neighbor` (detail/geometry/rtree.hpp:555-558). -/
noncomputable def furthestNeighbor (nearest : List (ℝ × ℝ)) (radius : Option ℝ) : ℝ :=
  match radius with
  | none => (nearest.getLast?.map Prod.fst).getD 0
  | some r => r

/-- `window_function` (detail/geometry/rtree.hpp:541-578); `radius = none` is the largest number of the type (no
radius). `total_weight != 0` holds for NaN. -/
noncomputable def windowFunction (point : Point) (near : List Item) (wf : WindowFunctions.Fn) (arg : ℝ)
    (radius : Option ℝ) (within : Bool) : Option ℝ × Nat :=
  let nearest := if within then queryWithin point near else query point near
  let furthest := furthestNeighbor nearest radius
  match windowLoop (fun d => WindowFunctions.weight wf d furthest arg) radius nearest (some (0, 0)) 0 with
  | (none, n) => (none, n)
  | (some a, n) => if a.2 ≠ 0 then (some (a.1 / a.2), n) else (none, 0)

/-- `nearest` (detail/geometry/rtree.hpp:378-405) and `nearest_within` (427-467): the coordinates and the values of the
selected points, the input of the radial basis functions and of the kriging. -/
noncomputable def nearest (p : Point) (near : List Item) (radius : Option ℝ) (within : Bool) : List Item :=
  let sel := near.filter fun i => close radius (distance p i.pt)
  if within && !coveredBy p (sel.map Item.pt) then [] else sel

/-- One row of the result of `_query` (rtree.hpp:562-575): the neighbours, then -1. -/
noncomputable def queryRow (k : Nat) (nearest : List (ℝ × ℝ)) : Out (List (ℝ × ℝ)) :=
  if nearest.length > k then .error .ub
  else .ok (nearest ++ List.replicate (k - nearest.length) (-1, -1))

/-- One row of the result of `RTree::query` (rtree.hpp:191-208, 523-588). -/
noncomputable def pyQuery (p : Point) (near : List Item) (k : Nat) (within : Bool) : Out (List (ℝ × ℝ)) :=
  queryRow k (if within then queryWithin p near else query p near)

/-- One row of the values of `RTree::value` (rtree.hpp:628-660): the neighbours, then NaN. -/
noncomputable def pyValue (p : Point) (near : List Item) (radius : Option ℝ) (k : Nat) (within : Bool) :
    Out (List (Option Item)) :=
  let l := value p near radius within
  if l.length > k then .error .ub
  else .ok (l.map some ++ List.replicate (k - l.length) none)

/-- The update of the bounds by a point (rtree.hpp:113-122). -/
noncomputable def boundsStep (b : Point × Point) (q : Point) : Point × Point :=
  (⟨min b.1.x q.x, min b.1.y q.y, min b.1.z q.z⟩, ⟨max b.2.x q.x, max b.2.y q.y, max b.2.z q.z⟩)

/-- `equatorial_bounds` (rtree.hpp:101-126): `all` are the longitudes, latitudes and altitudes of the points of the tree;
`big` is `numeric_limits<T>::max()` and `tiny` is `numeric_limits<T>::min()`, the smallest *positive* normal number. -/
noncomputable def bounds (big tiny : ℝ) (all : List Point) : Option (Point × Point) :=
  if all = [] then none
  else some (all.foldl boundsStep (⟨big, big, big⟩, ⟨tiny, tiny, tiny⟩))

/-- The converters of the rows of `coordinates` (rtree.hpp:414-451). -/
inductive Conv where
  | xy | xyz | lonLat | lonLatAlt
  deriving DecidableEq, Repr

/-- The methods that take a matrix of coordinates. -/
inductive Op where
  | packing | insert | query | value | idw | rbf | window | kriging
  deriving DecidableEq, Repr

/-- The choice of the converter from the number of columns of `coordinates` (rtree.hpp:131-158, 162-188, 191-208, 211-230,
233-259, 262-290, 293-318, 320-346); for the kriging with three columns it is `from_lon_lat` (339). -/
def converter (op : Op) (ecef : Bool) (cols : Nat) : Out Conv :=
  if cols = 2 then .ok (if ecef then .xy else .lonLat)
  else if cols = 3 then
    .ok (if ecef then .xyz else (match op with | .kriging => .lonLat | _ => .lonLatAlt))
  else .error .exn

/-- `std::invoke(converter, *this, row)` (rtree.hpp:414-451); `toEcef` is `coordinates_.lla_to_ecef`. A row is the list of its
columns. -/
noncomputable def Conv.apply (toEcef : ℝ → ℝ → ℝ → Point) (c : Conv) (row : List ℝ) : Out Point := do
  let a ← rd row 0
  let b ← rd row 1
  match c with
  | .xy => return ⟨a, b, 0⟩
  | .xyz => return ⟨a, b, ← rd row 2⟩
  | .lonLat => return toEcef a b 0
  | .lonLatAlt => return toEcef a b (← rd row 2)

/-- `RTree` (rtree.hpp:45-464): the spheroid (semi-major axis, flattening) used by `coordinates_`, `ecef_` and the content of the tree (in the
order in which Boost enumerates it). -/
structure Tree where
  spheroid : ℝ × ℝ
  ecef : Bool
  items : List Item

/-- `detail::geodetic::Spheroid()`: WGS84 (detail/geodetic/spheroid.hpp, `semi_major_axis_`, `flattening_`). -/
noncomputable def wgs84 : ℝ × ℝ := (6378137, 1 / 298.257223563)

/-- The constructor (rtree.hpp:83-95). -/
noncomputable def Tree.make (wgs : Option (ℝ × ℝ)) (ecef : Bool) : Out Tree :=
  if wgs.isSome && ecef then .error .exn
  else .ok { spheroid := wgs.getD wgs84, ecef := ecef, items := [] }

/-- The points to store: `_packing` and `_insert` (rtree.hpp:475-519) after the tests of `packing` and `insert`
(rtree.hpp:131-158, 162-188); `cols` is `coordinates.shape(1)`. -/
noncomputable def load (toEcef : ℝ × ℝ → ℝ → ℝ → ℝ → Point) (t : Tree) (op : Op) (cols : Nat) (rows : List (List ℝ))
    (values : List ℝ) : Out (List Item) := do
  if rows.length ≠ values.length then .error .exn
  else
    let c ← converter op t.ecef cols
    (rows.zip values).mapM fun rv => do return ⟨← c.apply (toEcef t.spheroid) rv.1, rv.2⟩

/-- `packing` (rtree.hpp:131-158; detail/geometry/rtree.hpp:101-103): the old content is erased. -/
noncomputable def Tree.packing (toEcef : ℝ × ℝ → ℝ → ℝ → ℝ → Point) (t : Tree) (cols : Nat) (rows : List (List ℝ))
    (values : List ℝ) : Out Tree := do
  return { t with items := ← load toEcef t .packing cols rows values }

/-- `insert` (rtree.hpp:162-188; detail/geometry/rtree.hpp:108). -/
noncomputable def Tree.insert (toEcef : ℝ × ℝ → ℝ → ℝ → ℝ → Point) (t : Tree) (cols : Nat) (rows : List (List ℝ))
    (values : List ℝ) : Out Tree := do
  return { t with items := t.items ++ (← load toEcef t .insert cols rows values) }

/-- `clear` (detail/geometry/rtree.hpp:95). -/
def Tree.clear (t : Tree) : Tree := { t with items := [] }

/-- The state of a pickle (rtree.hpp:349-368): a tuple of four elements. -/
structure State where
  spheroid : ℝ × ℝ
  ecef : Bool
  x : List (ℝ × ℝ × ℝ)
  u : List ℝ

/-- `getstate` (rtree.hpp:349-368). -/
def Tree.getstate (t : Tree) : State :=
  { spheroid := t.spheroid, ecef := t.ecef, x := t.items.map fun i => (i.pt.x, i.pt.y, i.pt.z),
    u := t.items.map Item.val }

/-- `setstate` (rtree.hpp:372-404). Simplification: the tests on the number of elements of the tuple and on the number of
columns are built in the type. -/
noncomputable def Tree.setstate (s : State) : Out Tree := do
  if s.x.length ≠ s.u.length then .error .exn
  else
    let items := (s.x.zip s.u).map fun xu => (⟨⟨xu.1.1, xu.1.2.1, xu.1.2.2⟩, xu.2⟩ : Item)
    let t ← Tree.make (some s.spheroid) s.ecef
    return { t with items := items }

end Pyinterp.RTree
