import Verif.Lemmas.DoubleAxis
import Verif.Model.DoubleInterp

/-
Error analysis of linear and bilinear interpolation.
-/
namespace Pyinterp.Double

open Spec

theorem isDouble_one : IsDouble 1 := isDouble_int (n := 1) (by norm_num)

theorem isDouble_zero : IsDouble 0 := isDouble_int (n := 0) (by norm_num)

theorem fl_unit {y : ℚ} (h0 : 0 ≤ y) (h1 : y ≤ 1) : 0 ≤ fl y ∧ fl y ≤ 1 :=
  ⟨fl_nonneg h0, fl_le_of_double isDouble_one h1⟩

/-- The weight of a point of an interval. -/
theorem weight_err {x x0 x1 : ℚ} (hb : Btw x0 x x1) (hd : 2 ^ (-1010 : ℤ) ≤ |x1 - x0|) :
    0 ≤ div (sub x x0) (sub x1 x0) ∧ div (sub x x0) (sub x1 x0) ≤ 1 ∧
      |div (sub x x0) (sub x1 x0) - (x - x0) / (x1 - x0)| ≤ 2 ^ (-51 : ℤ) := by
  have hdp : 0 < |x1 - x0| := lt_of_lt_of_le (two_zpow_pos _) hd
  have hd' : (2 : ℚ) ^ (-1022 : ℤ) ≤ |x1 - x0| := (zpow_le_zpow_right₀ (by norm_num) (by norm_num)).trans hd
  set d := x1 - x0 with hdd
  set a := x - x0 with ha
  have hne : d ≠ 0 := abs_pos.1 hdp
  have had : |a| ≤ |d| := by
    rcases hb with ⟨h1, h2⟩ | ⟨h1, h2⟩
    · rw [abs_of_nonneg (by rw [ha]; linarith), abs_of_nonneg (by rw [hdd]; linarith), ha, hdd]; linarith
    · rw [abs_of_nonpos (by rw [ha]; linarith), abs_of_nonpos (by rw [hdd]; linarith), ha, hdd]; linarith
  have e1 : |fl d - d| ≤ |d| * 2 ^ (-53 : ℤ) := fl_rel le_rfl hd'
  have e2 : |fl a - a| ≤ |d| * 2 ^ (-53 : ℤ) := fl_rel had hd'
  have hD : |d| * (1 / 2) ≤ |fl d| := by
    have h1 : |d| ≤ |d - fl d| + |fl d| := by
      calc |d| = |(d - fl d) + fl d| := by ring_nf
        _ ≤ _ := abs_add_le _ _
    rw [abs_sub_comm d (fl d)] at h1
    norm_num at e1
    linarith
  have hDp : 0 < |fl d| := by linarith
  have hDne : fl d ≠ 0 := abs_pos.1 hDp
  have hunit : 0 ≤ fl a / fl d ∧ fl a / fl d ≤ 1 := by
    rcases hb with ⟨h1, h2⟩ | ⟨h1, h2⟩
    · have a0 : 0 ≤ fl a := fl_nonneg (by rw [ha]; linarith)
      have d0 : 0 ≤ fl d := fl_nonneg (by rw [hdd]; linarith)
      have d1 : 0 < fl d := lt_of_le_of_ne d0 hDne.symm
      exact ⟨div_nonneg a0 d0, (div_le_one d1).2 (fl_mono (by rw [ha, hdd]; linarith))⟩
    · have a0 : fl a ≤ 0 := fl_le_of_double isDouble_zero (by rw [ha]; linarith)
      have d0 : fl d ≤ 0 := fl_le_of_double isDouble_zero (by rw [hdd]; linarith)
      have d1 : fl d < 0 := lt_of_le_of_ne d0 hDne
      exact ⟨div_nonneg_of_nonpos a0 d0, (div_le_one_of_neg d1).2 (fl_mono (by rw [ha, hdd]; linarith))⟩
  obtain ⟨u0, u1⟩ := fl_unit hunit.1 hunit.2
  refine ⟨u0, u1, ?_⟩
  have e3 : |fl a / fl d - a / d| ≤ 3 * 2 ^ (-53 : ℤ) := by
    have : fl a / fl d - a / d = ((fl a - a) - (a / d) * (fl d - d)) / fl d := by field_simp; ring
    rw [this, abs_div, div_le_iff₀ hDp]
    have hq : |a / d| ≤ 1 := by rw [abs_div]; exact (div_le_one hdp).2 had
    have h1 : |(fl a - a) - (a / d) * (fl d - d)| ≤ |d| * 2 ^ (-53 : ℤ) + |d| * 2 ^ (-53 : ℤ) := by
      refine (abs_sub _ _).trans (add_le_add e2 ?_)
      rw [abs_mul]
      have := mul_le_mul hq e1 (abs_nonneg _) (by norm_num)
      linarith
    have h2 : |d| * (1 - 2 ^ (-53 : ℤ)) ≤ |fl d| := by
      have h1 : |d| ≤ |d - fl d| + |fl d| := by
        calc |d| = |(d - fl d) + fl d| := by ring_nf
          _ ≤ _ := abs_add_le _ _
      rw [abs_sub_comm d (fl d)] at h1
      linarith
    norm_num at h1 h2 ⊢
    linarith
  have e4 : |fl (fl a / fl d) - fl a / fl d| ≤ 1 * 2 ^ (-53 : ℤ) :=
    fl_rel (by rw [abs_of_nonneg hunit.1]; exact hunit.2) (zpow_le_one_of_nonpos₀ (by norm_num) (by norm_num))
  calc |fl (fl a / fl d) - a / d| = |(fl (fl a / fl d) - fl a / fl d) + (fl a / fl d - a / d)| := by ring_nf
    _ ≤ _ := abs_add_le _ _
    _ ≤ _ := by norm_num at e3 e4 ⊢; linarith

/-- A weight computed with an error of `e` last bits of 1. -/
structure Weight (w t e : ℚ) : Prop where
  w0 : 0 ≤ w
  w1 : w ≤ 1
  t0 : 0 ≤ t
  t1 : t ≤ 1
  err : |w - t| ≤ e * 2 ^ (-53 : ℤ)

theorem small_le_one : (2 : ℚ) ^ (-1022 : ℤ) ≤ 1 := zpow_le_one_of_nonpos₀ (by norm_num) (by norm_num)

theorem weight_of_btw {x x0 x1 : ℚ} (hb : Btw x0 x x1) (hd : 2 ^ (-1010 : ℤ) ≤ |x1 - x0|) :
    Weight (div (sub x x0) (sub x1 x0)) ((x - x0) / (x1 - x0)) 4 := by
  obtain ⟨h0, h1, h2⟩ := weight_err hb hd
  refine ⟨h0, h1, ?_, ?_, h2.trans (by norm_num)⟩
  · rcases hb with ⟨a, b⟩ | ⟨a, b⟩
    · exact div_nonneg (by linarith) (by linarith)
    · exact div_nonneg_of_nonpos (by linarith) (by linarith)
  · rcases hb with ⟨a, b⟩ | ⟨a, b⟩
    · exact div_le_one_of_le₀ (by linarith) (by linarith)
    · rw [← neg_div_neg_eq]; exact div_le_one_of_le₀ (by linarith) (by linarith)

theorem Weight.compl {w t e : ℚ} (h : Weight w t e) : Weight (sub 1 w) (1 - t) (e + 1) := by
  obtain ⟨u0, u1⟩ := fl_unit (y := 1 - w) (by linarith [h.w1]) (by linarith [h.w0])
  refine ⟨u0, u1, by linarith [h.t1], by linarith [h.t0], ?_⟩
  have e1 : |fl (1 - w) - (1 - w)| ≤ 1 * 2 ^ (-53 : ℤ) :=
    fl_rel (by rw [abs_of_nonneg (by linarith [h.w1])]; linarith [h.w0]) small_le_one
  calc |sub 1 w - (1 - t)| = |(fl (1 - w) - (1 - w)) + -(w - t)| := by unfold sub; ring_nf
    _ ≤ _ := abs_add_le _ _
    _ ≤ 1 * 2 ^ (-53 : ℤ) + e * 2 ^ (-53 : ℤ) := by rw [abs_neg]; exact add_le_add e1 h.err
    _ = _ := by ring

theorem Weight.prod {w t e w' t' e' : ℚ} (h : Weight w t e) (h' : Weight w' t' e') :
    Weight (mul w w') (t * t') (e + e' + 1) := by
  have p0 : 0 ≤ w * w' := mul_nonneg h.w0 h'.w0
  have p1 : w * w' ≤ 1 := mul_le_one₀ h.w1 h'.w0 h'.w1
  obtain ⟨u0, u1⟩ := fl_unit p0 p1
  refine ⟨u0, u1, mul_nonneg h.t0 h'.t0, mul_le_one₀ h.t1 h'.t0 h'.t1, ?_⟩
  have e1 : |fl (w * w') - w * w'| ≤ 1 * 2 ^ (-53 : ℤ) := fl_rel (by rw [abs_of_nonneg p0]; exact p1) small_le_one
  have e2 : |w * w' - t * t'| ≤ e * 2 ^ (-53 : ℤ) + e' * 2 ^ (-53 : ℤ) := by
    have : w * w' - t * t' = (w - t) * w' + t * (w' - t') := by ring
    rw [this]
    refine (abs_add_le _ _).trans ?_
    rw [abs_mul, abs_mul, abs_of_nonneg h'.w0, abs_of_nonneg h.t0]
    have a1 := mul_le_mul h.err h'.w1 h'.w0 ((abs_nonneg _).trans h.err)
    have a2 := mul_le_mul h.t1 h'.err (abs_nonneg _) (by norm_num)
    linarith
  calc |mul w w' - t * t'| = |(fl (w * w') - w * w') + (w * w' - t * t')| := by unfold mul; ring_nf
    _ ≤ _ := abs_add_le _ _
    _ ≤ _ := add_le_add e1 e2
    _ = _ := by ring

/-- A weight times a value. -/
theorem Weight.term {w t e q M : ℚ} (h : Weight w t e) (hq : |q| ≤ M) (hM : 2 ^ (-1022 : ℤ) ≤ M) :
    |mul w q - t * q| ≤ (e + 1) * (M * 2 ^ (-53 : ℤ)) ∧ |mul w q| ≤ M * (1 + 2 ^ (-53 : ℤ)) := by
  have hM0 : 0 < M := lt_of_lt_of_le (two_zpow_pos _) hM
  have hwq : |w * q| ≤ M := by
    rw [abs_mul, abs_of_nonneg h.w0]
    have := mul_le_mul h.w1 hq (abs_nonneg _) (by norm_num)
    linarith
  have e1 : |fl (w * q) - w * q| ≤ M * 2 ^ (-53 : ℤ) := fl_rel hwq hM
  constructor
  · calc |mul w q - t * q| = |(fl (w * q) - w * q) + (w - t) * q| := by unfold mul; ring_nf
      _ ≤ _ := abs_add_le _ _
      _ ≤ M * 2 ^ (-53 : ℤ) + (e * 2 ^ (-53 : ℤ)) * M := by
        rw [abs_mul]
        exact add_le_add e1 (mul_le_mul h.err hq (abs_nonneg _) ((abs_nonneg _).trans h.err))
      _ = _ := by ring
  · calc |mul w q| = |(fl (w * q) - w * q) + w * q| := by unfold mul; ring_nf
      _ ≤ _ := abs_add_le _ _
      _ ≤ _ := by linarith

/-- A sum. -/
theorem add_err {a' a b' b α β S U V : ℚ} (ha : |a' - a| ≤ α * U) (hb : |b' - b| ≤ β * U) (hs : |a'| + |b'| ≤ S * V)
    (hS : 2 ^ (-1022 : ℤ) ≤ S * V) (hU : U = V * 2 ^ (-53 : ℤ)) :
    |add a' b' - (a + b)| ≤ (α + β + S) * U ∧ |add a' b'| ≤ S * V * (1 + 2 ^ (-53 : ℤ)) := by
  have hab : |a' + b'| ≤ S * V := (abs_add_le _ _).trans hs
  have e1 : |fl (a' + b') - (a' + b')| ≤ S * V * 2 ^ (-53 : ℤ) := fl_rel hab hS
  constructor
  · calc |add a' b' - (a + b)| = |(fl (a' + b') - (a' + b')) + ((a' - a) + (b' - b))| := by unfold add; ring_nf
      _ ≤ _ := abs_add_le _ _
      _ ≤ S * V * 2 ^ (-53 : ℤ) + (α * U + β * U) := add_le_add e1 ((abs_add_le _ _).trans (add_le_add ha hb))
      _ = _ := by rw [hU]; ring
  · calc |add a' b'| = |(fl (a' + b') - (a' + b')) + (a' + b')| := by unfold add; ring_nf
      _ ≤ _ := abs_add_le _ _
      _ ≤ _ := by linarith

end Pyinterp.Double
