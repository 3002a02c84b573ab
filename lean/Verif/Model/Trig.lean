import Mathlib.Analysis.SpecialFunctions.Trigonometric.Basic
import Mathlib.Analysis.SpecialFunctions.Complex.Arg
import Verif.Model.Math

/-
Model of the trigonometric functions in degrees of src/pyinterp/core/include/pyinterp/detail/math.hpp.
Simplification: real numbers, exact `sin`, `cos`, `atan2` (no rounding, no NaN, no infinity, no
signed zero: `atan2` of a negative zero ordinate is not modelled).
-/
namespace Pyinterp.Trig
open Real Pyinterp.Math

/-- `radians` (detail/math.hpp:86-90). -/
noncomputable def radians (x : ℝ) : ℝ := x * π / 180

/-- `degrees` (detail/math.hpp:92-96). -/
noncomputable def degrees (x : ℝ) : ℝ := x * 180 / π

/-- `std::remquo(x, y, &quotient)` (C++ library): the remainder is `x - n y` with `n` the integer nearest to `x / y`
(ties to even) and `quotient` has the sign of `x / y` and its absolute value agrees with that of `n` modulo `2 ^ bits`
for an unspecified `bits ≥ 3`: here the quotient kept is `n` reduced to the sign and the lowest `bits` bits. -/
noncomputable def remquo (bits : Nat) (x y : ℝ) : ℝ × Int :=
  let n := rint (x / y)
  (x - y * (n : ℝ), n.sign * (n.natAbs % 2 ^ bits : Nat))

/-- `static_cast<unsigned int>(quotient) & 1U` (32 bits). -/
def bit0 (q : Int) : Bool := (BitVec.ofInt 32 q).getLsbD 0

/-- `static_cast<unsigned int>(quotient) & 2U` (32 bits). -/
def bit1 (q : Int) : Bool := (BitVec.ofInt 32 q).getLsbD 1

/-- `sind` (detail/math.hpp:133-151). -/
noncomputable def sind (bits : Nat) (x : ℝ) : ℝ :=
  let rq := remquo bits x 90
  let r := radians rq.1
  let r := if bit0 rq.2 then cos r else sin r
  if bit1 rq.2 then -r else r

/-- `cosd` (detail/math.hpp:153-168). -/
noncomputable def cosd (bits : Nat) (x : ℝ) : ℝ :=
  let rq := remquo bits x 90
  let r := radians rq.1
  let r := if bit0 (rq.2 + 1) then cos r else sin r
  if bit1 (rq.2 + 1) then -r else r

/-- `sincosd` (detail/math.hpp:170-190). -/
noncomputable def sincosd (bits : Nat) (x : ℝ) : ℝ × ℝ :=
  let rq := remquo bits x 90
  let angle := radians rq.1
  match bit1 rq.2, bit0 rq.2 with
  | false, false => (sin angle, cos angle)
  | false, true => (cos angle, -sin angle)
  | true, false => (-sin angle, -cos angle)
  | true, true => (-cos angle, sin angle)

/-- `tand` (detail/math.hpp:192-200); `none` is an infinite value. -/
noncomputable def tand (bits : Nat) (x : ℝ) : Option ℝ :=
  let sc := sincosd bits x
  if sc.2 ≠ 0 then some (sc.1 / sc.2) else none

/-- `std::atan2(y, x)` (C++ library): the argument of `x + i y` in `(-π, π]`; `atan2(0, 0) = 0`. -/
noncomputable def atan2 (y x : ℝ) : ℝ := Complex.arg ⟨x, y⟩

/-- The last step of `atan2d`: mapping to the quadrant (detail/math.hpp:222-237). -/
noncomputable def quadrantAngle (quadrant : Nat) (y angle : ℝ) : ℝ :=
  if quadrant = 1 then (if y ≥ 0 then 180 else -180) - angle
  else if quadrant = 2 then 90 - angle
  else if quadrant = 3 then -90 + angle
  else angle

/-- `atan2d` (detail/math.hpp:202-238). -/
noncomputable def atan2d (y x : ℝ) : ℝ :=
  let s : ℝ × ℝ × Nat := if |y| > |x| then (x, y, 2) else (y, x, 0)
  let t : ℝ × Nat := if s.2.1 < 0 then (-s.2.1, s.2.2 + 1) else (s.2.1, s.2.2)
  quadrantAngle t.2 s.1 (degrees (atan2 s.1 t.1))

/-- `atand` (detail/math.hpp:240-247). -/
noncomputable def atand (x : ℝ) : ℝ := atan2d x 1

end Pyinterp.Trig
