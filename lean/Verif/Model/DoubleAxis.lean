import Verif.Model.Double
import Verif.Model.Base

/-
The axes of doubles (detail/axis.hpp, detail/axis/container.hpp) with the rounding of every operation: the regular
container, the recognition of evenly spaced values, the search of the indexes that frame a coordinate, and pickling
(axis.hpp). Angles (normalisation of the coordinates, circles) are left out: see `Model/Axis.lean` for them in exact arithmetic.
-/
namespace Pyinterp.Double

open Pyinterp

/-- `container::Regular<double>` (detail/axis/container.hpp:371-582): `size_`, `start_`, `step_`, `inv_step_`, `is_ascending_`. -/
structure Reg where
  size : Int
  start : ℚ
  step : ℚ
  inv : ℚ
  asc : Bool
  deriving DecidableEq

/-- `coordinate_value` (detail/axis/container.hpp:428-431): the index is converted to a double, which is exact below 2^53. -/
def Reg.coord (r : Reg) (i : Int) : ℚ := add r.start (mul (i : ℚ) r.step)

/-- `back` (detail/axis/container.hpp:460-463). -/
def Reg.back (r : Reg) : ℚ := r.coord (r.size - 1)

/-- `AbstractRegular(start, stop, num)` and `Regular<double>` (detail/axis/container.hpp:380-394, 508-511); `num` is an integer
of less than 2^53. -/
def Reg.mk' (start stop : ℚ) (num : Int) : Out Reg :=
  if num = 0 then .error .exn
  else if start = stop then .error .exn
  else
    let step := if num = 1 then sub stop start else div (sub stop start) (num - 1 : ℤ)
    -- calculate_is_ascending
    let asc := if num < 2 then true else decide (add start (mul (0 : ℤ) step) < add start (mul (1 : ℤ) step))
    .ok { size := num, start := start, step := step, inv := div 1 step, asc := asc }

/-- The conversion `static_cast<int64_t>(std::round(y))` and the bounds (detail/axis/container.hpp:514-527). The conversion of a
value outside of the 64-bit integers is undefined. -/
def Reg.findIndex (r : Reg) (c : ℚ) (bounded : Bool) : Out Int :=
  let index := round (mul (sub c r.start) r.inv)
  if index < -2 ^ 63 ∨ 2 ^ 63 ≤ index then .error .ub
  else if index < 0 then .ok (if bounded then 0 else -1)
  else if r.size ≤ index then .ok (if bounded then r.size - 1 else -1)
  else .ok index

/-- `flip` (detail/axis/container.hpp:421-425, 530-533). -/
def Reg.flip (r : Reg) : Reg := { r with start := r.back, step := -r.step, inv := -r.inv, asc := !r.asc }

/-- `operator==` (detail/axis/container.hpp:471-478). -/
def Reg.beq (r s : Reg) : Bool := r.step = s.step && r.start = s.start && r.size = s.size

/-- `Axis::find_indexes` on a regular axis that is not a circle (detail/axis.hpp:315-355). -/
def Reg.findIndexes (r : Reg) (c : ℚ) : Out (Option (Int × Int)) := do
  let i0 ← r.findIndex c false
  if i0 = -1 then return none
  let delta := sub c (r.coord i0)
  let (j0, j1) : Int × Int :=
    if delta = 0 then (if i0 = r.size - 1 then (i0 - 1, i0) else (i0, i0 + 1))
    else if delta < 0 then (if r.asc then i0 - 1 else i0 + 1, i0)
    else (i0, if r.asc then i0 + 1 else i0 - 1)
  return (if 0 ≤ j0 ∧ j0 < r.size ∧ 0 ≤ j1 ∧ j1 < r.size then some (j0, j1) else none)

/-- `getstate` then `setstate` of a regular axis (axis.hpp:198-207, 248-253): the first value, the last one and the size. -/
def Reg.pickle (r : Reg) : Out Reg := Reg.mk' r.start r.back r.size

/-- `math::is_same<double>` (detail/math.hpp:278-290). -/
def isSame (a b eps : ℚ) : Bool :=
  decide (|sub a b| ≤ eps) || decide (|sub a b| < mul (max |a| |b|) eps)

/-- The loop of `is_evenly_spaced` (detail/axis.hpp:598-602). -/
def evenlyLoop (increment eps : ℚ) : List ℚ → Bool
  | a :: b :: l => isSame (sub b a) increment eps && evenlyLoop increment eps (b :: l)
  | _ => true

/-- `is_evenly_spaced` (detail/axis.hpp:581-604). -/
def isEvenlySpaced (points : List ℚ) (eps : ℚ) : Option ℚ :=
  if points.length < 2 then none
  else
    let increment := div (sub (points.getLastD 0) (points.headD 0)) (points.length - 1 : ℤ)
    if |increment| ≤ eps then none
    else if evenlyLoop increment eps points then some increment
    else none

/-- The regular axis made of values that are evenly spaced (detail/axis.hpp:562-567); `none` for the other values, that are kept
as they are. -/
def fromValues (points : List ℚ) (eps : ℚ) : Option (Out Reg) :=
  (isEvenlySpaced points eps).map fun _ => Reg.mk' (points.headD 0) (points.getLastD 0) points.length

end Pyinterp.Double
