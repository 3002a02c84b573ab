import Verif.Model.Axis
import Verif.Model.Statistics
import Verif.Model.StreamingHistogram

/-
Model of src/pyinterp/core/include/pyinterp/binning.hpp,
src/pyinterp/core/include/pyinterp/histogram2d.hpp and
src/pyinterp/core/include/pyinterp/detail/math/binning.hpp (Cartesian strategy).
A grid of cells is the list of its cells in row-major order. Coordinates and values
have the same type; coordinates are never NaN, the value `none` is NaN. Not modelled:
the geographic areas (Boost.Geometry, Vincenty).
-/
namespace Pyinterp.Bin2D

section
variable {K : Type} [Field K] [LinearOrder K] [FloorRing K]

/-- `acc_(ix, iy)(...)`: unchecked access to a cell. -/
def updateCell {σ : Type} (nx ny : Int) (acc : List σ) (ix iy : Int) (f : σ → Out σ) :
    Out (List σ) :=
  if 0 ≤ ix ∧ ix < nx ∧ 0 ≤ iy ∧ iy < ny then
    match acc[(ix * ny + iy).toNat]? with
    | none => .error .ub
    | some s => do
      let s' ← f s
      .ok (acc.set (ix * ny + iy).toNat s')
  else .error .ub

/-- The loop of `push_nearest` (binning.hpp:281-307) and of `Histogram2D::push`
(histogram2d.hpp:92-103); `step` updates a cell with a value. -/
def pushNearest {σ : Type} (x y : Axis K) (step : σ → K → Out σ) (acc : List σ) :
    List (K × K × Option K) → Out (List σ)
  | [] => .ok acc
  | (_, _, none) :: samples => pushNearest x y step acc samples
  | (px, py, some value) :: samples => do
    let ix ← x.findIndex px true
    let iy ← y.findIndex py true
    let acc' ← if ix ≠ -1 ∧ iy ≠ -1 then
        updateCell x.size y.size acc ix iy (fun s => step s value)
      else .ok acc
    pushNearest x y step acc' samples

/-- `Binning2D` (binning.hpp:242-261); `wgs` holds the two parameters of the
spheroid. -/
structure Binning (K : Type) where
  x : Axis K
  y : Axis K
  acc : List (Stats.Acc K)
  wgs : Option (K × K)

/-- Constructor (binning.hpp:44-49) and `clear` (binning.hpp:101-103). -/
def make (x y : Axis K) (wgs : Option (K × K)) : Binning K :=
  ⟨x, y, List.replicate (x.size * y.size).toNat Stats.empty, wgs⟩

/-- `push` with `simple = true` (binning.hpp:75-98, 281-307), after the checks of the
shapes. -/
def Binning.pushSimple (b : Binning K) (samples : List (K × K × Option K)) : Out (Binning K) := do
  let acc ← pushNearest b.x b.y (fun s v => .ok (Stats.push s v)) b.acc samples
  .ok { b with acc := acc }

/-- One cell of `operator+=` (binning.hpp:226-236). -/
def mergeCell (lhs rhs : Stats.Acc K) : Out (Stats.Acc K) :=
  if lhs.count = 0 ∧ rhs.count ≠ 0 then .ok rhs
  else if lhs.count ≠ 0 ∧ rhs.count ≠ 0 then Stats.merge lhs rhs
  else .ok lhs

/-- The two loops of `operator+=` (binning.hpp:224-238). -/
def mergeCells : List (Stats.Acc K) → List (Stats.Acc K) → Out (List (Stats.Acc K))
  | [], _ => .ok []
  | _ :: _, [] => .error .ub
  | a :: l, b :: m => do
    let c ← mergeCell a b
    let r ← mergeCells l m
    .ok (c :: r)

/-- `operator+=` (binning.hpp:213-240). -/
def Binning.merge (b o : Binning K) : Out (Binning K) := do
  if !(b.x.beq o.x) || !(b.y.beq o.y) then .error .exn
  else if b.wgs ≠ o.wgs then .error .exn
  else
    let acc ← mergeCells b.acc o.acc
    .ok { b with acc := acc }

/-- Boost.Geometry (not part of the repository): Cartesian area of a closed ring, positive
when the ring is clockwise. -/
def ringArea : List (K × K) → K
  | p :: q :: l => (p.1 + q.1) * (p.2 - q.2) / 2 + ringArea (q :: l)
  | _ => 0

/-- `calculate_area` (detail/math/binning.hpp:15-24); `area` is the strategy: `ringArea`, or the
area of Boost.Geometry on a spheroid (not part of the repository), which is a parameter. -/
def calculateArea (area : List (K × K) → K) (ring : List (K × K)) : K :=
  let result := area ring
  if result < 0 then area ring.reverse else result

/-- `calculate_and_normalize_area` (detail/math/binning.hpp:28-37); `tiny` is 1e-12. -/
def normalizedArea (area : List (K × K) → K) (tiny : K) (ring : List (K × K)) (total : K) : K :=
  let result := calculateArea area ring
  if result > total ∨ |result| < tiny then 0 else result

/-- `binning_2d` (detail/math/binning.hpp:61-107): the weights w00, w01, w11, w10. A cell
without area gives NaN. -/
def binning2d (area : List (K × K) → K) (tiny : K) (pij p00 p11 : K × K) : Out (K × K × K × K) :=
  let p01 := (p00.1, p11.2)
  let p10 := (p11.1, p00.2)
  let p0j := (p00.1, pij.2)
  let pi1 := (pij.1, p11.2)
  let p1j := (p11.1, pij.2)
  let pi0 := (pij.1, p00.2)
  let total := calculateArea area [p00, p01, p11, p10, p00]
  let a := normalizedArea area tiny [pij, p0j, p01, pi1, pij] total
  let b := normalizedArea area tiny [pij, pi1, p11, p1j, pij] total
  let c := normalizedArea area tiny [pij, pi0, p00, p0j, pij] total
  let d := normalizedArea area tiny [pij, p1j, p10, pi0, pij] total
  if total = 0 then .error .nan
  else .ok (b / total, d / total, c / total, a / total)

/-- `update_acc` (binning.hpp:310-316); `eps` is `numeric_limits<T>::epsilon()`. -/
def updateAcc (eps : K) (nx ny : Int) (acc : List (Stats.Acc K)) (ix iy : Int) (value weight : K) :
    Out (List (Stats.Acc K)) :=
  if |weight| < eps then .ok acc
  else updateCell nx ny acc ix iy (fun s => Stats.pushW s value weight)

/-- One sample of `push_linear` (binning.hpp:333-360). -/
def pushLinearOne (area : List (K × K) → K) (tiny eps : K) (x y : Axis K)
    (acc : List (Stats.Acc K)) (px py value : K) : Out (List (Stats.Acc K)) := do
  let xi ← x.findIndexes px
  let yi ← y.findIndexes py
  match xi, yi with
  | some (ix0, ix1), some (iy0, iy1) =>
    let x0 ← x.cont.coord ix0
    let y0 ← y.cont.coord iy0
    let x1 ← x.cont.coord ix1
    let y1 ← y.cont.coord iy1
    let px' := if x.isAngle then Math.normalizeAngleF px x0 360 else px
    let w ← binning2d area tiny (px', py) (x0, y0) (x1, y1)
    let acc ← updateAcc eps x.size y.size acc ix0 iy0 value w.1
    let acc ← updateAcc eps x.size y.size acc ix0 iy1 value w.2.1
    let acc ← updateAcc eps x.size y.size acc ix1 iy1 value w.2.2.1
    updateAcc eps x.size y.size acc ix1 iy0 value w.2.2.2
  | _, _ => .ok acc

/-- `push` with `simple = false` (binning.hpp:75-98, 320-363). -/
def pushLinear (area : List (K × K) → K) (tiny eps : K) (x y : Axis K)
    (acc : List (Stats.Acc K)) : List (K × K × Option K) → Out (List (Stats.Acc K))
  | [] => .ok acc
  | (_, _, none) :: samples => pushLinear area tiny eps x y acc samples
  | (px, py, some value) :: samples => do
    let acc' ← pushLinearOne area tiny eps x y acc px py value
    pushLinear area tiny eps x y acc' samples

/-- `Binning1D::push` (binning.hpp:388-418) for one accumulator per bin, with the range
`[lo, hi]`; a sample is (coordinate, value, weight). -/
def push1D (x : Axis K) (lo hi : K) (acc : List (Stats.Acc K)) :
    List (K × Option K × K) → Out (List (Stats.Acc K))
  | [] => .ok acc
  | (_, none, _) :: samples => push1D x lo hi acc samples
  | (px, some value, weight) :: samples => do
    let acc' ← if lo ≤ px ∧ px ≤ hi then do
        let ix ← x.findIndex px true
        if ix ≠ -1 then updateCell x.size 1 acc ix 0 (fun s => Stats.pushW s value weight)
        else .ok acc
      else .ok acc
    push1D x lo hi acc' samples

/-- The pickled state of `Binning2D` (binning.hpp:169-173); `none` is the empty tuple. -/
structure State (K : Type) where
  x : AxisState K
  y : AxisState K
  wgs : Option (K × K)
  acc : List (Stats.Acc K)

/-- `getstate` (binning.hpp:169-173). -/
def Binning.getstate (b : Binning K) : Out (State K) := do
  let x ← b.x.getstate
  let y ← b.y.getstate
  .ok ⟨x, y, b.wgs, b.acc⟩

/-- `setstate` (binning.hpp:176-210): with a spheroid, `*wgs = ...` assigns through an
empty `std::optional`, which is undefined. -/
def setstate (s : State K) : Out (Binning K) := do
  let x ← Axis.setstate s.x
  let y ← Axis.setstate s.y
  match s.wgs with
  | some _ => .error .ub
  | none =>
    if (s.acc.length : Int) ≠ x.size * y.size then .error .exn
    else .ok ⟨x, y, s.acc, none⟩

/-- `Histogram2D` (histogram2d.hpp:257-263). -/
structure Histogram (K : Type) where
  x : Axis K
  y : Axis K
  cells : List (Streaming.Hist K)

/-- `push` (histogram2d.hpp:77-105), after the checks of the shapes. -/
def Histogram.push (num : Streaming.Numeric K) (h : Histogram K)
    (samples : List (K × K × Option K)) : Out (Histogram K) := do
  let cells ← pushNearest h.x h.y (fun s v => Streaming.push num s v 1) h.cells samples
  .ok { h with cells := cells }

/-- One cell of `operator+=` (histogram2d.hpp:208-218). -/
def Histogram.mergeCell (num : Streaming.Numeric K) (lhs rhs : Streaming.Hist K) :
    Out (Streaming.Hist K) :=
  if lhs.bins.length = 0 ∧ rhs.bins.length ≠ 0 then .ok rhs
  else if lhs.bins.length ≠ 0 ∧ rhs.bins.length ≠ 0 then Streaming.merge num lhs rhs
  else .ok lhs

/-- The loops of `operator+=` (histogram2d.hpp:206-220). -/
def Histogram.mergeCells (num : Streaming.Numeric K) :
    List (Streaming.Hist K) → List (Streaming.Hist K) → Out (List (Streaming.Hist K))
  | [], _ => .ok []
  | _ :: _, [] => .error .ub
  | a :: l, b :: m => do
    let c ← Histogram.mergeCell num a b
    let r ← Histogram.mergeCells num l m
    .ok (c :: r)

/-- `operator+=` (histogram2d.hpp:202-222). -/
def Histogram.merge (num : Streaming.Numeric K) (h o : Histogram K) : Out (Histogram K) := do
  if !(h.x.beq o.x) || !(h.y.beq o.y) then .error .exn
  else
    let cells ← Histogram.mergeCells num h.cells o.cells
    .ok { h with cells := cells }

end

/-! ### The Python operators

`Binning2D.__add__` (binning.py:93-99), `Binning1D.__add__` (binning.py:284-290),
`Histogram2D.__add__` (histogram2d.py:104-110) and `DescriptiveStatistics.__add__`
(statistics/descriptive_descriptive.py:139-154): `copy.copy(self)` copies the
reference to the C++ object, because the Python classes do not define `__copy__`;
then `result._instance += other._instance` modifies that object. -/

/-- The C++ objects alive, by address. -/
abbrev Heap (O : Type) := List O

/-- `a + b` for Python objects holding the C++ objects at the addresses `a` and `b`
(binning.py:93-99): the address held by the result, and the objects afterwards. -/
def pyAdd {O : Type} (iadd : O → O → Out O) (heap : Heap O) (a b : Nat) : Out (Nat × Heap O) :=
  match heap[a]?, heap[b]? with
  | some u, some v => do
    let r ← iadd u v
    .ok (a, heap.set a r)
  | _, _ => .error .ub

end Pyinterp.Bin2D
