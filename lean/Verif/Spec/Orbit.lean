import Mathlib.Data.Rat.Floor
import Mathlib.Algebra.Order.Field.Power

/-
Specification for the orbits: rounding to double precision, half-orbits.
-/
namespace Pyinterp.Spec

/-- `rd` rounds to the nearest number of 53 bits (without overflow or underflow): in the binade `[2^e, 2^(e+1))` the result is a
multiple of `2^(e-52)` and the error is at most half of it. -/
structure Nearest53 (rd : ℚ → ℚ) : Prop where
  zero : rd 0 = 0
  near : ∀ (x : ℚ) (e : ℤ), (2 : ℚ) ^ e ≤ |x| → |x| < (2 : ℚ) ^ (e + 1) → |rd x - x| ≤ (2 : ℚ) ^ (e - 53)
  grid : ∀ (x : ℚ) (e : ℤ), (2 : ℚ) ^ e ≤ |x| → |x| < (2 : ℚ) ^ (e + 1) → ∃ m : ℤ, rd x = m * (2 : ℚ) ^ (e - 52)

/-- The latitudes of a half-orbit: they all grow or they all decrease. -/
def HalfOrbit {K : Type} [LT K] (l : List K) : Prop := l.Pairwise (· < ·) ∨ l.Pairwise (· > ·)

/-- The date of the pass `p` of the cycle `c`, counted from the beginning of the first cycle: the cycles follow each other without
gap, with the period `period`; `passTime` are the dates of the passes in a cycle. -/
def passDate (passTime : List Int) (period c p : Int) : Int := (c - 1) * period + passTime.getD (p - 1).toNat 0

/-- The date `t` belongs to the pass `p` (from 1): not before the date of the pass and before the date of the next one, if any. -/
def InPass (passTime : List Int) (p : Nat) (t : Int) : Prop :=
  passTime.getD (p - 1) 0 ≤ t ∧ (p < passTime.length → t < passTime.getD p 0)

instance (passTime : List Int) (p : Nat) (t : Int) : Decidable (InPass passTime p t) := by
  unfold InPass; infer_instance

end Pyinterp.Spec
