import Verif.Model.AxisContainer

/-
Model of src/pyinterp/core/include/pyinterp/detail/axis.hpp and of the pickling
functions of src/pyinterp/core/include/pyinterp/axis.hpp
-/
namespace Pyinterp

/-- detail/axis.hpp:24-29 -/
inductive Boundary where
  | expand | wrap | sym | undef
  deriving DecidableEq, Repr

/-- detail/axis.hpp:471-481. `circle = none` is the fill value (axis which is not
an angle). -/
structure Axis (T : Type) where
  isCircle : Bool
  circle : Option T
  cont : Container T
  deriving DecidableEq, Repr

section
variable {T : Type} [LinearOrder T] [AddCommGroup T] [AxisNum T]

namespace Axis

/-- detail/axis.hpp:172-174 -/
def size (a : Axis T) : Int := a.cont.size

/-- detail/axis.hpp:189-191 -/
def isAngle (a : Axis T) : Bool := a.circle.isSome

/-- `coordinate_value(index)` (134-140): checked access. -/
def coordinateValue (a : Axis T) (index : Int) : Out T :=
  if index < 0 ∨ index ≥ a.size then .error .exn
  else a.cont.coord index

/-- `axis_->slice(start, count)` (container.hpp:284-288, 438-446): consecutive
coordinates. A negative `count` has no defined behaviour (Eigen vector of negative
size). -/
def containerSlice (k : Container T) (start count : Int) : Out (List T) :=
  if count < 0 then .error .ub
  else (List.range count.toNat).mapM (fun (i : Nat) => k.coord (start + (i : Int)))

/-- `slice(start, count)` (147-153). -/
def slice (a : Axis T) (start count : Int) : Out (List T) :=
  if start < 0 ∨ start + count > a.size then .error .exn
  else containerSlice a.cont start count

/-- `normalize_coordinate(coordinate, min)` (251-258),
`normalize_angle` is detail/math.hpp:127-131. -/
def normalizeCoordinate' (a : Axis T) (c mn : T) : T :=
  match a.circle with
  | none => c
  | some circle =>
    if c ≥ mn + circle ∨ c < mn then AxisNum.remainder (c - mn) circle + mn else c

/-- `normalize_coordinate(coordinate)` (263-266). -/
def normalizeCoordinate (a : Axis T) (c : T) : Out T := do
  let mn ← a.cont.minValue
  return a.normalizeCoordinate' c mn

/-- `find_index` (276-279). -/
def findIndex (a : Axis T) (c : T) (bounded : Bool) : Out Int := do
  let c ← a.normalizeCoordinate c
  a.cont.findIndex c bounded

/-- `find_nearest_index` (293-304); this is `Axis.find_index` in Python
(axis.hpp:126-143). -/
def findNearestIndex (a : Axis T) (c : T) (bounded : Bool) : Out Int := do
  let c ← a.normalizeCoordinate c
  let result ← a.cont.findIndex c bounded
  if result = -1 ∧ a.isCircle then
    let mx ← a.cont.maxValue
    let mn ← a.cont.minValue
    return (if c - mx < mn + AxisNum.ofInt 360 - c then a.size - 1 else 0)
  return result

/-- `find_indexes(coordinate)` (315-355). -/
def findIndexes (a : Axis T) (c : T) : Out (Option (Int × Int)) := do
  let c ← a.normalizeCoordinate c
  let length := a.size
  let i0 ← a.findIndex c false
  if i0 = -1 then
    return (if a.isCircle then some (length - 1, 0) else none)
  let v ← a.cont.coord i0
  let (j0, j1) : Int × Int :=
    if c - v = 0 then
      (if i0 = length - 1 then (i0 - 1, i0) else (i0, i0 + 1))
    else if c - v < 0 then
      let k := if a.cont.isAscending then i0 - 1 else i0 + 1
      (if a.isCircle then Math.remainderI k length else k, i0)
    else
      let k := if a.cont.isAscending then i0 + 1 else i0 - 1
      (i0, if a.isCircle then Math.remainderI k length else k)
  return (if 0 ≤ j0 ∧ j0 < length ∧ 0 ≤ j1 ∧ j1 < length then some (j0, j1) else none)

/-- The index `before` of one iteration (detail/axis.hpp:397-416); `none` is
`return {}`. -/
def windowBefore (isCircle : Bool) (len : Int) (b : Boundary) (before : Int) : Option Int :=
  if before < 0 then
    if !isCircle then
      match b with
      | .expand => some 0
      | .wrap => some (Math.remainderI (len + before) len)
      | .sym => some (Math.remainderI (-before) len)
      | .undef => none
    else some (Math.remainderI before len)
  else some before

/-- The index `after` of one iteration (detail/axis.hpp:417-436). -/
def windowAfter (isCircle : Bool) (len : Int) (b : Boundary) (after : Int) : Option Int :=
  if after ≥ len then
    if !isCircle then
      match b with
      | .expand => some (len - 1)
      | .wrap => some (Math.remainderI after len)
      | .sym => some (len - 2 - Math.remainderI (after - len) len)
      | .undef => none
    else some (Math.remainderI after len)
  else some after

/-- The loop `while (shift < size)` (detail/axis.hpp:392-441): iteration number
`shift` writes `result[size - shift - 1]` and `result[size + shift]`, i.e. extends
the window already built by one index on each side. `n` is the number of
iterations left; the empty list is the `return {}` of a refused boundary. -/
def windowLoop (isCircle : Bool) (len : Int) (b : Boundary) (i0 i1 : Int) :
    (n : Nat) → (shift : Int) → (acc : List Int) → List Int
  | 0, _, acc => acc
  | n + 1, shift, acc =>
    match windowBefore isCircle len b (i0 - shift), windowAfter isCircle len b (i1 + shift) with
    | some x, some y => windowLoop isCircle len b i0 i1 n (shift + 1) (x :: (acc ++ [y]))
    | _, _ => []

/-- `find_indexes(coordinate, size, boundary)` (367-442). Simplification: `size`
is a `Nat` (no 32-bit overflow of `size << 1`). -/
def findIndexesWindow (a : Axis T) (c : T) (size : Nat) (b : Boundary) : Out (List Int) := do
  if size = 0 then .error .exn
  else
    match ← a.findIndexes c with
    | none =>
      if size = 1 then
        let v ← a.cont.coord 0
        return (if c = v then List.replicate (2 * size) 0 else [])
      return []
    | some (i0, i1) =>
      return windowLoop a.isCircle a.size b i0 i1 (size - 1) 1 [i0, i1]

/-- `flip()` (211). -/
def flip (a : Axis T) : Axis T := { a with cont := a.cont.flip }

/-- `operator==` (229-231). -/
def beq (a b : Axis T) : Bool := a.cont.beq b.cont && (a.isCircle == b.isCircle)

end Axis

/-- `std::fabs` -/
def fabs (x : T) : T := max x (-x)

/-- `compute_properties(epsilon)` (498-521). For an irregular axis of size 1 the
floating point code divides 0 by 0 and the comparison with NaN is false; the
integer code divides by zero (undefined behaviour): both are given explicitly. -/
def computeProperties (intType : Bool) (circle : Option T) (k : Container T) (eps : T) :
    Out (Axis T) := do
  if k.size = 0 then .error .exn
  else if !k.isMonotonic then .error .exn
  else
    match circle with
    | none => return { isCircle := false, circle := none, cont := k }
    | some ci =>
      match k with
      | .regular r =>
        return { isCircle := AxisNum.isSame (fabs (AxisNum.mulInt r.size r.step)) ci eps
                 circle := some ci, cont := k }
      | _ =>
        if k.size = 1 then
          if intType then .error .ub
          else return { isCircle := false, circle := some ci, cont := k }
        else
          let bk ← k.back
          let fr ← k.front
          let increment := AxisNum.divInt (bk - fr) (k.size - 1)
          let mx ← k.maxValue
          let mn ← k.minValue
          return { isCircle := decide (fabs (mx - mn - ci) ≤ increment)
                   circle := some ci, cont := k }

/-- The test of `normalize_longitude` (526-536): strictly monotonic in the
direction of the first two values. -/
def strictlyMonotonic (asc : Bool) : List T → Bool
  | a :: b :: l => (if asc then decide (a < b) else decide (b < a)) && strictlyMonotonic asc (b :: l)
  | _ => true

/-- Second loop of `normalize_longitude` (542-551): as soon as the direction is
broken, a circle is added (subtracted) to all the following values. `prev` is the
(already modified) previous element. -/
def unwrapFrom (asc : Bool) (circle : T) : (prev : T) → (cross : Bool) → List T → List T
  | _, _, [] => []
  | prev, cross, x :: l =>
    let cross' := if !cross then (if asc then decide (prev > x) else decide (prev < x)) else cross
    let x' := if cross' then x + (if asc then circle else -circle) else x
    x' :: unwrapFrom asc circle x' cross' l

/-- `normalize_longitude(points)` (524-555). -/
def normalizeLongitude (circle : T) (points : List T) : Option (List T) :=
  let asc := isAscendingList points
  if strictlyMonotonic asc points then none
  else match points with
    | [] => none
    | x :: l => some (x :: unwrapFrom asc circle x false l)

/-- The loop of `is_evenly_spaced` (598-602). -/
def evenlyLoop (increment eps : T) : List T → Bool
  | a :: b :: l => AxisNum.isSame (b - a) increment eps && evenlyLoop increment eps (b :: l)
  | _ => true

/-- `is_evenly_spaced(points, epsilon)` (581-604). -/
def isEvenlySpaced (points : List T) (eps : T) : Option T :=
  match points with
  | [] => none
  | [_] => none
  | first :: rest =>
    let increment := AxisNum.divInt (rest.getLastD first - first) (points.length - 1)
    if fabs increment ≤ eps then none
    else if evenlyLoop increment eps points then some increment
    else none

/-- `initialize_from_values(values, epsilon, move)` (558-572). -/
def initializeFromValues (intType : Bool) (circle : Option T) (values : List T) (eps : T) :
    Out (Axis T) := do
  match isEvenlySpaced values eps, values with
  | some _, v :: l => do
    let k ← mkRegular v (l.getLastD v) values.length
    computeProperties intType circle k eps
  | _, _ => do
    let k ← mkIrregular values
    computeProperties intType circle k eps

/-- `Axis(values, epsilon, is_circle)` (68-86). -/
def mkAxis (intType : Bool) (values : List T) (eps : T) (isCircle : Bool) : Out (Axis T) :=
  if isCircle then
    let circle : T := AxisNum.ofInt 360
    match normalizeLongitude circle values with
    | some v => initializeFromValues intType (some circle) v eps
    | none => initializeFromValues intType (some circle) values eps
  else initializeFromValues intType none values eps

/-- `Axis(start, stop, num, epsilon, is_circle)` (54-60). -/
def mkAxisRegular (intType : Bool) (start stop : T) (num : Int) (eps : T) (isCircle : Bool) :
    Out (Axis T) := do
  let k ← mkRegular start stop num
  computeProperties intType (if isCircle then some (AxisNum.ofInt 360) else none) k eps

/-- Pickled state (axis.hpp:198-230). -/
inductive AxisState (T : Type) where
  | undefined
  | irregular (values : List T) (isCircle : Bool)
  | regular (front back : T) (size : Int) (isCircle : Bool)
  deriving DecidableEq, Repr

/-- `getstate()` (axis.hpp:198-230). -/
def Axis.getstate (a : Axis T) : Out (AxisState T) :=
  match a.cont with
  | .regular r => .ok (.regular r.start (r.start + AxisNum.mulInt (r.size - 1) r.step) r.size a.isCircle)
  | .irregular p _ => .ok (.irregular p a.isCircle)
  | .undefined => .ok .undefined

/-- `setstate()` (axis.hpp:234-260) with the protected constructor
detail/axis.hpp:466-469. -/
def Axis.setstate : AxisState T → Out (Axis T)
  | .undefined => .ok { isCircle := false, circle := none, cont := .undefined }
  | .irregular values isCircle => do
    let k ← mkIrregular values
    return { isCircle := isCircle
             circle := if isCircle then some (AxisNum.ofInt 360) else none
             cont := k }
  | .regular front back size isCircle => do
    let k ← mkRegular front back size
    return { isCircle := isCircle
             circle := if isCircle then some (AxisNum.ofInt 360) else none
             cont := k }

end
end Pyinterp

namespace Pyinterp
/-- `is_regular()` (detail/axis.hpp:177-179). -/
def Axis.isRegular {T : Type} (a : Axis T) : Bool :=
  match a.cont with
  | .regular _ => true
  | _ => false

section
variable {T : Type} [LinearOrder T] [AddCommGroup T] [AxisNum T]

/-- Axes a program can hold: built from values or from start/stop/num, then
flipped or pickled and unpickled any number of times. (`epsilon` is the tolerance
used to decide that values are evenly spaced; it is 1e-6 by default and assumed to be
non-negative.) `it` tells whether the coordinate type is integral. -/
inductive Reach (it : Bool) : Axis T → Prop where
  | values (v : List T) (eps : T) (ang : Bool) (a : Axis T) :
      0 ≤ eps → mkAxis it v eps ang = .ok a → Reach it a
  | regular (start stop : T) (num : Int) (eps : T) (ang : Bool) (a : Axis T) :
      mkAxisRegular it start stop num eps ang = .ok a → Reach it a
  | flip (a : Axis T) : Reach it a → Reach it a.flip
  | pickle (a b : Axis T) (s : AxisState T) :
      Reach it a → a.getstate = .ok s → Axis.setstate s = .ok b → Reach it b
end

/-- Integral axes for which the search is right: built from values, ascending when
the container is regular, then flipped any number of times. -/
inductive ReachI : Axis Int → Prop where
  | values (v : List Int) (eps : Int) (ang : Bool) (a : Axis Int) :
      0 ≤ eps → mkAxis true v eps ang = .ok a →
      (a.isRegular = true → a.cont.isAscending = true) → ReachI a
  | flip (a : Axis Int) : ReachI a → ReachI a.flip

end Pyinterp

namespace Pyinterp
/-- CPython's `PySlice_AdjustIndices` (called by `pybind11::slice::compute`, i.e. by
include/pyinterp/axis.hpp:94-102); not part of the repository, transcribed from the
CPython documentation/source. Returns the first index and the number of elements. -/
def pySlice (length start stop step : Int) : Int × Int :=
  let clip (x : Int) : Int :=
    if x < 0 then (if x + length < 0 then (if step < 0 then -1 else 0) else x + length)
    else if x ≥ length then (if step < 0 then length - 1 else length) else x
  let s := clip start
  let e := clip stop
  (s, if step < 0 then (if e < s then (s - e - 1).tdiv (-step) + 1 else 0)
      else if s < e then (e - s - 1).tdiv step + 1 else 0)

section
variable {T : Type} [LinearOrder T] [AddCommGroup T] [AxisNum T]
/-- `coordinate_values(slice)` (include/pyinterp/axis.hpp:94-116), i.e. `axis[start:stop:step]`
with explicit bounds: unchecked reads `(*this)(start); start += step`. The `size_t` arithmetic
(modulo 2^64) gives back the same index for a negative step. `step = 0` raises in
`slice.compute`. -/
def Axis.coordinateValues (a : Axis T) (start stop step : Int) : Out (List T) :=
  if step = 0 then .error .exn
  else
    let (s, n) := pySlice a.size start stop step
    (List.range n.toNat).mapM (fun (k : Nat) => a.cont.coord (s + (k : Int) * step))
end
end Pyinterp
