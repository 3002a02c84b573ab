import Verif.Model.DoubleCode
import Verif.Lemmas.Double

/-
C121. Normalisation of angles computed with doubles.
-/
namespace Pyinterp.Double

open Spec

theorem stdRemainder_bound (x : ℚ) {y : ℚ} (hy : 0 < y) :
    |stdRemainder x y| ≤ y / 2 ∧ ∃ k : ℤ, stdRemainder x y = x + k * y := by
  refine ⟨?_, -rne (x / y), by unfold stdRemainder; push_cast; ring⟩
  have h := rne_err (x / y)
  have e : stdRemainder x y = -(((rne (x / y) : ℚ) - x / y) * y) := by
    unfold stdRemainder
    field_simp
    ring
  rw [e, abs_neg, abs_mul, abs_of_pos hy]
  nlinarith

theorem remainder_360 (x : ℚ) : (0 ≤ remainder x 360 ∧ remainder x 360 ≤ 360) ∧
    (∃ k : ℤ, |remainder x 360 - (x + k * 360)| ≤ 2 ^ (-45 : ℤ)) ∧
    (remainder x 360 ≤ 180 ∨ IsDouble (remainder x 360)) := by
  obtain ⟨hb, k, hk⟩ := stdRemainder_bound x (y := 360) (by norm_num)
  rw [abs_le] at hb
  unfold remainder
  simp only []
  split
  · rename_i hneg
    refine ⟨⟨?_, ?_⟩, ⟨k + 1, ?_⟩, Or.inr (isDouble_fl _)⟩
    · exact le_fl_of_double (isDouble_int (n := 0) (by norm_num)) (by push_cast; linarith)
    · exact fl_le_of_double (isDouble_int (n := 360) (by norm_num)) (by push_cast; linarith)
    · have := fl_err_lt (y := stdRemainder x 360 + 360) (k := 9) (by norm_num)
        (by rw [abs_lt]; norm_num; constructor <;> linarith)
      rw [show (9 : ℤ) - 54 = -45 by norm_num] at this
      convert this using 2
      unfold add
      rw [hk]
      push_cast
      ring
  · refine ⟨⟨by linarith, by linarith⟩, ⟨k, ?_⟩, Or.inl (by linarith)⟩
    rw [hk]; simp

/-- C121: whatever the angle, the normalised angle is between the bounds, the upper bound included. -/
theorem C121_range (x mn : ℚ) (hmn : IsDouble mn) :
    mn ≤ normalizeAngle x mn 360 ∧ normalizeAngle x mn 360 ≤ fl (mn + 360) := by
  obtain ⟨⟨h0, h1⟩, -⟩ := remainder_360 (sub x mn)
  unfold normalizeAngle add
  exact ⟨le_fl_of_double hmn (by linarith), fl_mono (by linarith)⟩

/- With the bounds of the longitudes the upper bound is 180. -/
example : IsDouble (-180) ∧ fl (-180 + 360) = 180 :=
  ⟨isDouble_int (n := -180) (by norm_num), by decide +kernel⟩

/-- C121: the normalised angle is the angle, plus a number of turns, up to rounding errors: at most
`2^(k-52)` for an angle at less than `2^k` degrees from the lower bound. -/
theorem C121_same_angle (x mn : ℚ) (hmn : |mn| ≤ 360) (k : ℤ) (hk : 10 ≤ k) (hx : |x - mn| < 2 ^ k) :
    ∃ n : ℤ, |normalizeAngle x mn 360 - (x + n * 360)| ≤ 2 ^ (k - 52) := by
  obtain ⟨⟨h0, h1⟩, ⟨n, hn⟩, -⟩ := remainder_360 (sub x mn)
  refine ⟨n, ?_⟩
  have e1 := fl_err_lt (by omega) hx
  have hm := abs_le.1 hmn
  have e2 := fl_err_lt (y := remainder (sub x mn) 360 + mn) (k := 10) (by norm_num)
    (by rw [abs_lt]; norm_num; constructor <;> linarith)
  have hs : (2 : ℚ) ^ (10 - 54 : ℤ) ≤ 2 ^ (k - 54) := zpow_le_zpow_right₀ (by norm_num) (by omega)
  have hs' : (2 : ℚ) ^ (-45 : ℤ) ≤ 2 ^ (k - 54) := zpow_le_zpow_right₀ (by norm_num) (by omega)
  have h4 : (2 : ℚ) ^ (k - 52) = 4 * 2 ^ (k - 54) := by
    rw [show k - 52 = 2 + (k - 54) by ring, zpow_add₀ (by norm_num)]
    norm_num
  have hp := two_zpow_pos (k - 54)
  unfold normalizeAngle
  have e : add (remainder (sub x mn) 360) mn - (x + n * 360) =
      (fl (remainder (sub x mn) 360 + mn) - (remainder (sub x mn) 360 + mn)) +
      (remainder (sub x mn) 360 - (sub x mn + n * 360)) + (fl (x - mn) - (x - mn)) := by
    unfold add sub
    ring
  rw [e, h4]
  refine (abs_add_three _ _ _).trans ?_
  linarith

/- A longitude of the third turn; the error of this one is zero. -/
example : |(730 : ℚ) - (-180)| < 2 ^ (10 : ℤ) ∧ normalizeAngle 730 (-180) 360 = 10 :=
  ⟨by norm_num, by decide +kernel⟩

/-- C121, what is false: the normalised angles are not in the half-open interval of the documentation, and normalising twice
gives another angle. The double before -180 (-180.00000000000003) is normalised to 180, then to -180. -/
theorem C121_half_open_false :
    ∃ x : ℚ, IsDouble x ∧ normalizeAngle x (-180) 360 = 180 ∧
      normalizeAngle (normalizeAngle x (-180) 360) (-180) 360 = -180 :=
  ⟨-180 - 1 / 2 ^ 45, ⟨-(180 * 2 ^ 45 + 1), -45, by norm_num, by norm_num, by norm_num⟩, by decide +kernel,
    by decide +kernel⟩

end Pyinterp.Double
