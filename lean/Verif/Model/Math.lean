import Mathlib.Algebra.Order.Field.Basic
import Mathlib.Algebra.Order.Floor.Ring

/-
Model of src/pyinterp/core/include/pyinterp/detail/math.hpp
-/
namespace Pyinterp.Math

/-- `remainder` for integral types (detail/math.hpp:98-106).
`x % y` is the truncated C++ remainder; `(result ^ y) < 0` tests that the signs
differ. Simplification: `Int` instead of `int64_t`; `y = 0` is undefined
behaviour in C++ (all the callers in the model pass `y > 0`). -/
def remainderI (x y : Int) : Int :=
  let result := x.tmod y
  if result ≠ 0 ∧ (decide (result < 0) != decide (y < 0)) then result + y else result

/-- `normalize_angle` for integral types (detail/math.hpp:127-131). -/
def normalizeAngleI (x mn circle : Int) : Int := remainderI (x - mn) circle + mn

section
variable {K : Type} [Field K] [LinearOrder K] [FloorRing K]

/-- `std::rint` in the default rounding mode: nearest integer, ties to even. -/
def rint (q : K) : Int :=
  let f := ⌊q⌋
  if q - f < 1 / 2 then f
  else if 1 / 2 < q - f then f + 1
  else if f % 2 = 0 then f else f + 1

/-- `remainder` for floating point types (detail/math.hpp:108-119).
`std::remainder(x, y) = x - n y` with `n` the integer nearest to `x / y`, ties to
even. Simplification: exact arithmetic in an ordered field. -/
def remainderF (x y : K) : K :=
  let result := x - y * (rint (x / y) : K)
  if result < 0 then result + y else result

/-- `normalize_angle(x, min, circle)` (detail/math.hpp:127-131), floating point. -/
def normalizeAngleF (x mn circle : K) : K := remainderF (x - mn) circle + mn

/-- `std::round`: nearest integer, ties away from zero (C++ library). -/
def roundAway (x : K) : Int :=
  if 0 ≤ x then ⌊x + 1 / 2⌋ else ⌈x - 1 / 2⌉
end

end Pyinterp.Math
