import Mathlib.Data.Nat.Digits.Defs

/-
Specification of the serialised histograms, as a user who looks at the bytes would write it.
-/
namespace Pyinterp.Spec

/-- The unsigned little endian integer held by some bytes. -/
def unsigned (b : List UInt8) : Nat := Nat.ofDigits 256 (b.map UInt8.toNat)

/-- `n` elements follow each other in `l`, as far as they are complete: 8 bytes announce the size of the element, which is
below 2^63, and the element starts with 0 or 1. -/
def Sized : Nat → List UInt8 → Prop
  | 0, _ => True
  | n + 1, l => 8 ≤ l.length → unsigned (l.take 8) < 2 ^ 63 ∧
      (8 + unsigned (l.take 8) ≤ l.length → (0 < unsigned (l.take 8) → ∀ b, l[8]? = some b → b ≤ 1) ∧
        Sized n (l.drop (8 + unsigned (l.take 8))))

/-- The announced number of elements is below 2^63 and the elements are `Sized`. -/
def Announced (l : List UInt8) : Prop :=
  8 ≤ l.length → unsigned (l.take 8) < 2 ^ 63 ∧ Sized (unsigned (l.take 8)) (l.drop 8)

end Pyinterp.Spec
