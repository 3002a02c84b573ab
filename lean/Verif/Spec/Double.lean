import Mathlib.Data.Rat.Floor

/-
The doubles, as rational numbers.
-/
namespace Pyinterp.Spec

/-- The finite doubles (without bound on the exponent upwards): 53 bits and an exponent of at least -1074. -/
def IsDouble (x : ℚ) : Prop := ∃ m e : ℤ, |m| ≤ 2 ^ 53 ∧ -1074 ≤ e ∧ x = m * 2 ^ e

end Pyinterp.Spec

namespace Pyinterp.Spec

/-- The bounds and the number of values of a regular axis for which doubles are precise enough: at most 2^47 values, a first value
of at most 2^47 steps, a range that neither overflows nor underflows. -/
structure Spacing (start stop : ℚ) (num : ℤ) : Prop where
  start_double : IsDouble start
  stop_double : IsDouble stop
  two_le : 2 ≤ num
  num_le : num ≤ 2 ^ 47
  start_le : |start| * (num - 1) ≤ 2 ^ 47 * |stop - start|
  range_ge : 2 ^ (-900 : ℤ) ≤ |stop - start|
  range_le : |stop - start| ≤ 2 ^ (900 : ℤ)

end Pyinterp.Spec
