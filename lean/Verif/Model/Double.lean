import Mathlib.Data.Int.Log
import Mathlib.Data.Rat.Floor

/-
The arithmetic of the type `double` of C++ on the platforms supported (IEEE 754, binary64, rounding to the nearest, ties to
even): every operation is the exact one followed by `fl`. Values are rational numbers; the infinities, NaN and the sign of zero
are not represented: the theorems bound their operands so that no operation overflows.
-/
namespace Pyinterp.Double

/-- Nearest integer, ties to even (IEEE 754-2019, 4.3.1 roundTiesToEven; not part of the repository). -/
def rne (y : ℚ) : ℤ :=
  if y - ⌊y⌋ < 1 / 2 then ⌊y⌋
  else if 1 / 2 < y - ⌊y⌋ then ⌊y⌋ + 1
  else if ⌊y⌋ % 2 = 0 then ⌊y⌋ else ⌊y⌋ + 1

/-- The exponent of the last bit of the significand of the doubles near `x`: 53 bits of precision, smallest exponent -1074
(IEEE 754-2019, 3.3; not part of the repository). -/
def lastBit (x : ℚ) : ℤ := max (Int.log 2 |x| - 52) (-1074)

/-- The double nearest to `x`. -/
def fl (x : ℚ) : ℚ := rne (x / 2 ^ lastBit x) * 2 ^ lastBit x

/-- `a + b`, `a - b`, `a * b`, `a / b` on doubles. -/
def add (a b : ℚ) : ℚ := fl (a + b)
@[inherit_doc add] def sub (a b : ℚ) : ℚ := fl (a - b)
@[inherit_doc add] def mul (a b : ℚ) : ℚ := fl (a * b)
@[inherit_doc add] def div (a b : ℚ) : ℚ := fl (a / b)

/-- `std::remainder(x, y)`: exact, the quotient is rounded to the nearest even integer (IEEE 754-2019, 5.3.1; not part of the
repository). -/
def stdRemainder (x y : ℚ) : ℚ := x - rne (x / y) * y

/-- `std::round` (ties away from zero; not part of the repository). -/
def round (y : ℚ) : ℤ := if 0 ≤ y then ⌊y + 1 / 2⌋ else -⌊-y + 1 / 2⌋

end Pyinterp.Double
