import Verif.Lemmas.Math
import Mathlib.Data.Rat.Floor
import Mathlib.Tactic.NormNum

/-
C01 – angle normalisation (detail/math.hpp:98-131).

Specification: the normalised angle is the only value of [min, min + circle)
that is congruent to `x` modulo `circle`.
-/
namespace Pyinterp.Math

section
variable {K : Type} [Field K] [LinearOrder K] [IsStrictOrderedRing K] [FloorRing K]

/-- C01, real numbers: range and congruence. -/
theorem C01_normalize_angle (x mn circle : K) (hc : 0 < circle) :
    mn ≤ normalizeAngleF x mn circle ∧ normalizeAngleF x mn circle < mn + circle ∧
    ∃ k : ℤ, normalizeAngleF x mn circle = x + (k : K) * circle := by
  obtain ⟨h1, h2, k, h3⟩ := remainderF_spec (x - mn) circle hc
  unfold normalizeAngleF
  refine ⟨by linarith, by linarith, k, ?_⟩
  rw [h3]; ring

/-- The specification of C01 determines the result. -/
theorem C01_unique (x mn circle r : K) (hc : 0 < circle) (h1 : mn ≤ r) (h2 : r < mn + circle)
    (h3 : ∃ k : ℤ, r = x + (k : K) * circle) : r = normalizeAngleF x mn circle := by
  obtain ⟨k, hk⟩ := h3
  obtain ⟨a, b, k', hk'⟩ := C01_normalize_angle x mn circle hc
  have hd : r - normalizeAngleF x mn circle = ((k - k' : ℤ) : K) * circle := by
    rw [hk, hk']; push_cast; ring
  have hlt : ((k - k' : ℤ) : K) * circle < 1 * circle := by rw [← hd]; linarith
  have hgt : (-1) * circle < ((k - k' : ℤ) : K) * circle := by rw [← hd]; linarith
  have e1 : ((k - k' : ℤ) : K) < 1 := lt_of_mul_lt_mul_right hlt hc.le
  have e2 : (-1 : K) < ((k - k' : ℤ) : K) := lt_of_mul_lt_mul_right hgt hc.le
  have e1' : (k - k' : ℤ) < 1 := by exact_mod_cast e1
  have e2' : (-1 : ℤ) < (k - k' : ℤ) := by
    have : ((-1 : ℤ) : K) < ((k - k' : ℤ) : K) := by push_cast at e2 ⊢; exact e2
    exact_mod_cast this
  have : k - k' = 0 := by omega
  rw [this] at hd
  simp only [Int.cast_zero, zero_mul] at hd
  linarith

/-- C01: normalisation is idempotent and invariant by whole turns. -/
theorem C01_idempotent (x mn circle : K) (hc : 0 < circle) :
    normalizeAngleF (normalizeAngleF x mn circle) mn circle = normalizeAngleF x mn circle := by
  obtain ⟨a, b, _⟩ := C01_normalize_angle x mn circle hc
  exact (C01_unique _ mn circle _ hc a b ⟨0, by simp⟩).symm

theorem C01_periodic (x mn circle : K) (hc : 0 < circle) (n : ℤ) :
    normalizeAngleF (x + n * circle) mn circle = normalizeAngleF x mn circle := by
  obtain ⟨a, b, k, hk⟩ := C01_normalize_angle x mn circle hc
  refine (C01_unique _ mn circle _ hc a b ⟨k - n, ?_⟩).symm
  rw [hk]; push_cast; ring

example : (0 : ℚ) < 360 ∧ normalizeAngleF (-190 : ℚ) (-180) 360 = 170 := by
  constructor
  · norm_num
  · refine (C01_unique (-190 : ℚ) (-180) 360 170 (by norm_num) (by norm_num) (by norm_num)
      ⟨1, by norm_num⟩).symm
end

/-- C01, integers: range and congruence. -/
theorem C01_normalize_angle_int (x mn circle : Int) (hc : 0 < circle) :
    mn ≤ normalizeAngleI x mn circle ∧ normalizeAngleI x mn circle < mn + circle ∧
    ∃ k : ℤ, normalizeAngleI x mn circle = x + k * circle := by
  unfold normalizeAngleI
  rw [remainderI_eq_emod _ _ hc]
  have h1 := Int.emod_nonneg (x - mn) (show circle ≠ 0 by omega)
  have h2 := Int.emod_lt_of_pos (x - mn) hc
  have h3 := Int.mul_ediv_add_emod (x - mn) circle
  refine ⟨by omega, by omega, -((x - mn) / circle), ?_⟩
  linarith

/-- C01: the documented sign rule of `remainder`: the result has the sign of the
second operand, for negative divisors as well, and is congruent to `x`. -/
theorem C01_remainder_sign (x y : Int) (hy : y ≠ 0) :
    (0 < y → 0 ≤ remainderI x y ∧ remainderI x y < y) ∧
    (y < 0 → y < remainderI x y ∧ remainderI x y ≤ 0) ∧
    ∃ k : ℤ, remainderI x y = x + k * y := by
  rw [remainderI_eq_fmod x y hy]
  refine ⟨fun h => ⟨Int.fmod_nonneg_of_pos _ h, Int.fmod_lt_of_pos _ h⟩, fun h => ?_, -(x.fdiv y), ?_⟩
  · have e : x.fmod y = -((-x).fmod (-y)) := by rw [Int.neg_fmod_neg]; ring
    have h1 := Int.fmod_nonneg_of_pos (-x) (show 0 < -y by omega)
    have h2 := Int.fmod_lt_of_pos (-x) (show 0 < -y by omega)
    omega
  · rw [Int.fmod_def]; ring

example : normalizeAngleI (-190) (-180) 360 = 170 ∧ remainderI (-7) 3 = 2 ∧
    remainderI 7 (-3) = -2 := by decide

end Pyinterp.Math
