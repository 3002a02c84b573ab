import Verif.Model.DoubleInterp
import Verif.Model.DoubleCode
import Verif.Model.Axis

/-
The complete axes of doubles (detail/axis.hpp) with the rounding of every operation: regular or irregular, angles or not, the
search of a coordinate, and the bivariate interpolation on grids with such axes.
-/
namespace Pyinterp.Double

open Pyinterp

/-- `container::Irregular<double>` and `container::Regular<double>` (detail/axis/container.hpp:222-366, 371-582). -/
inductive Cont where
  | irregular (points : List ℚ) (asc : Bool)
  | regular (r : Reg)
  deriving DecidableEq

namespace Cont

/-- `size()` (detail/axis/container.hpp:301-303, 454-457). -/
def size : Cont → Int
  | .irregular p _ => p.length
  | .regular r => r.size

/-- `is_ascending()` (detail/axis/container.hpp:118-126, 228-233). -/
def asc : Cont → Bool
  | .irregular _ a => a
  | .regular r => r.asc

/-- `coordinate_value(index)` (detail/axis/container.hpp:278-281, 428-431); reading outside of the points is undefined. -/
def coord : Cont → Int → Out ℚ
  | .irregular p _, i => rd p i
  | .regular r, i => .ok (r.coord i)

/-- `min_value()` (detail/axis/container.hpp:291-293, 448-451). -/
def minValue (k : Cont) : Out ℚ := if k.asc then k.coord 0 else k.coord (k.size - 1)

/-- `max_value()` (detail/axis/container.hpp:296-298, 453-456). -/
def maxValue (k : Cont) : Out ℚ := if k.asc then k.coord (k.size - 1) else k.coord 0

/-- Private `Irregular::find_index` (detail/axis/container.hpp:339-365): the two differences are rounded before they are
compared. -/
def irregularFind (points : List ℚ) (cmp : ℚ → ℚ → Bool) (c : ℚ) (bounded : Bool) : Out Int := do
  let size : Int := points.length
  let it : Int := lowerBound (fun i => match points[i]? with
    | some v => cmp v c
    | none => false) 0 points.length
  if it = 0 then
    let v ← rd points it
    return (if cmp c v then (if bounded then 0 else -1) else 0)
  else if it = size then
    let v ← rd points (it - 1)
    return (if cmp v c then (if bounded then size - 1 else -1) else size - 1)
  else
    let a ← rd points (it - 1)
    let b ← rd points it
    return (if |sub c a| < |sub c b| then it - 1 else it)

/-- `find_index(coordinate, bounded)` (detail/axis/container.hpp:316-323, 514-527). -/
def findIndex (k : Cont) (c : ℚ) (bounded : Bool) : Out Int :=
  match k with
  | .irregular p asc =>
    if asc then irregularFind p (fun a b => decide (a < b)) c bounded
    else irregularFind p (fun a b => decide (b < a)) c bounded
  | .regular r => r.findIndex c bounded

/-- `is_monotonic()` (detail/axis/container.hpp:60, 265-275). -/
def isMonotonic : Cont → Bool
  | .irregular p asc =>
    if adjacentFind p then false
    else if asc then isSortedBy (fun a b => decide (a < b)) p
    else isSortedBy (fun a b => decide (b < a)) p
  | .regular _ => true

end Cont

/-- `Axis<double>` (detail/axis.hpp:471-481): `angle` is `circle_ = 360`, otherwise `circle_` is the fill value. -/
structure Ax where
  isCircle : Bool
  angle : Bool
  cont : Cont
  deriving DecidableEq

namespace Ax

/-- `normalize_coordinate(coordinate, min)` (detail/axis.hpp:251-258). -/
def normalizeCoordinate' (a : Ax) (c mn : ℚ) : ℚ :=
  if a.angle ∧ (add mn 360 ≤ c ∨ c < mn) then normalizeAngle c mn 360 else c

/-- `normalize_coordinate(coordinate)` (detail/axis.hpp:263-266). -/
def normalizeCoordinate (a : Ax) (c : ℚ) : Out ℚ := do
  let mn ← a.cont.minValue
  return a.normalizeCoordinate' c mn

/-- `find_index` (detail/axis.hpp:276-279). -/
def findIndex (a : Ax) (c : ℚ) (bounded : Bool) : Out Int := do
  let c ← a.normalizeCoordinate c
  a.cont.findIndex c bounded

/-- `find_nearest_index` (detail/axis.hpp:293-304). -/
def findNearestIndex (a : Ax) (c : ℚ) (bounded : Bool) : Out Int := do
  let c ← a.normalizeCoordinate c
  let result ← a.cont.findIndex c bounded
  if result = -1 ∧ a.isCircle then
    let mx ← a.cont.maxValue
    let mn ← a.cont.minValue
    return (if sub c mx < sub (add mn 360) c then a.cont.size - 1 else 0)
  else return result

/-- The choice of the second index and the test of the bounds (detail/axis.hpp:327-354). -/
def around (isCircle asc : Bool) (length i0 : Int) (delta : ℚ) : Option (Int × Int) :=
  let (j0, j1) : Int × Int :=
    if delta = 0 then (if i0 = length - 1 then (i0 - 1, i0) else (i0, i0 + 1))
    else if delta < 0 then
      let k := if asc then i0 - 1 else i0 + 1
      (if isCircle then Math.remainderI k length else k, i0)
    else
      let k := if asc then i0 + 1 else i0 - 1
      (i0, if isCircle then Math.remainderI k length else k)
  if 0 ≤ j0 ∧ j0 < length ∧ 0 ≤ j1 ∧ j1 < length then some (j0, j1) else none

/-- `find_indexes(coordinate)` (detail/axis.hpp:315-355): the coordinate is normalised, and normalised again by `find_index`. -/
def findIndexes (a : Ax) (c : ℚ) : Out (Option (Int × Int)) := do
  let c ← a.normalizeCoordinate c
  let length := a.cont.size
  let i0 ← a.findIndex c false
  if i0 = -1 then
    return (if a.isCircle then some (length - 1, 0) else none)
  else
    let v ← a.cont.coord i0
    return around a.isCircle a.cont.asc length i0 (sub c v)

/-- `compute_properties(epsilon)` (detail/axis.hpp:498-521). For an irregular axis of one value the increment is NaN, and the
comparison is false. -/
def computeProperties (angle : Bool) (k : Cont) (eps : ℚ) : Out Ax := do
  if k.size = 0 then .error .exn
  else if !k.isMonotonic then .error .exn
  else if !angle then return { isCircle := false, angle := false, cont := k }
  else
    match k with
    | .regular r => return { isCircle := isSame |mul r.step (r.size : ℚ)| 360 eps, angle := true, cont := k }
    | .irregular _ _ =>
      if k.size = 1 then return { isCircle := false, angle := true, cont := k }
      else
        let bk ← k.coord (k.size - 1)
        let fr ← k.coord 0
        let mx ← k.maxValue
        let mn ← k.minValue
        return { isCircle := decide (|sub (sub mx mn) 360| ≤ div (sub bk fr) (k.size - 1 : ℤ)), angle := true, cont := k }

/-- The second loop of `normalize_longitude` (detail/axis.hpp:542-551). -/
def unwrapFrom (asc : Bool) : (prev : ℚ) → (cross : Bool) → List ℚ → List ℚ
  | _, _, [] => []
  | prev, cross, x :: l =>
    let cross' := if !cross then (if asc then decide (prev > x) else decide (prev < x)) else cross
    let x' := if cross' then add x (if asc then 360 else -360) else x
    x' :: unwrapFrom asc x' cross' l

/-- `normalize_longitude(points)` (detail/axis.hpp:524-555). -/
def normalizeLongitude (points : List ℚ) : Option (List ℚ) :=
  let asc := isAscendingList points
  if strictlyMonotonic asc points then none
  else match points with
    | [] => none
    | x :: l => some (x :: unwrapFrom asc x false l)

/-- `initialize_from_values(values, epsilon, move)` (detail/axis.hpp:558-572). -/
def initializeFromValues (angle : Bool) (values : List ℚ) (eps : ℚ) : Out Ax :=
  match fromValues values eps with
  | some r => do computeProperties angle (.regular (← r)) eps
  | none =>
    if values.length = 0 then .error .exn
    else computeProperties angle (.irregular values (isAscendingList values)) eps

/-- `Axis(values, epsilon, is_circle)` (detail/axis.hpp:68-86). -/
def ofValues (values : List ℚ) (eps : ℚ) (isCircle : Bool) : Out Ax :=
  if isCircle then initializeFromValues true ((normalizeLongitude values).getD values) eps
  else initializeFromValues false values eps

/-- `Axis(start, stop, num, epsilon, is_circle)` (detail/axis.hpp:54-60). -/
def ofRange (start stop : ℚ) (num : Int) (eps : ℚ) (isCircle : Bool) : Out Ax := do
  let r ← Reg.mk' start stop num
  computeProperties isCircle (.regular r) eps

end Ax

/-- A grid (grid.hpp:22-34, 119-123). -/
structure AxGrid where
  x : Ax
  y : Ax
  arr : Variate.Arr ℚ

/-- `_bivariate` (include/pyinterp/bivariate.hpp:72-105) for bilinear interpolation: the longitude is normalised with respect to
the first of the two coordinates. -/
def bivariateAx (g : AxGrid) (x y : ℚ) (boundsError : Bool) : Out (Option ℚ) := do
  let xIndexes ← g.x.findIndexes x
  let yIndexes ← g.y.findIndexes y
  match xIndexes, yIndexes with
  | some (ix0, ix1), some (iy0, iy1) =>
    let x0 ← g.x.cont.coord ix0
    let y0 ← g.y.cont.coord iy0
    let x1 ← g.x.cont.coord ix1
    let y1 ← g.y.cont.coord iy1
    let q00 ← g.arr.value [ix0, iy0]
    let q01 ← g.arr.value [ix0, iy1]
    let q10 ← g.arr.value [ix1, iy0]
    let q11 ← g.arr.value [ix1, iy1]
    match q00, q01, q10, q11 with
    | some q00, some q01, some q10, some q11 =>
      return some (bilinear (g.x.normalizeCoordinate' x x0, y) (x0, y0) (x1, y1) q00 q01 q10 q11)
    | _, _, _, _ => return none
  | _, _ => if boundsError then .error .exn else return none

end Pyinterp.Double
