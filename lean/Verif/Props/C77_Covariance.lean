import Verif.Model.Rbf
import Mathlib.Analysis.SpecialFunctions.Exp
import Mathlib.Tactic.Linarith
import Mathlib.Tactic.FieldSimp

/-
C77. The covariance functions of the kriging.
-/
set_option linter.unusedVariables false
namespace Pyinterp.RTree
open Real

/-- **C77** `sigma ^ 2` is the covariance of a point with itself (all the functions but the linear one). -/
theorem C77_variance (f : Cov) (hf : f ≠ .linear) (sigma lambda : ℝ) (hl : 0 < lambda) :
    f.apply 0 sigma lambda = sigma ^ 2 := by
  cases f <;> simp [Cov.apply] at hf ⊢
  intro h; linarith

theorem exp_step {x y : ℝ} (h : x ≤ y) : exp (-x) = exp (y - x) * exp (-y) := by
  rw [← exp_add]; congr 1; ring

theorem mat32_anti {x y : ℝ} (hx : 0 ≤ x) (h : x ≤ y) : (1 + y) * exp (-y) ≤ (1 + x) * exp (-x) := by
  rw [exp_step h, ← mul_assoc]
  apply mul_le_mul_of_nonneg_right _ (exp_pos _).le
  have h1 := add_one_le_exp (y - x)
  nlinarith

theorem mat52_anti {x y : ℝ} (hx : 0 ≤ x) (h : x ≤ y) :
    (1 + y + y ^ 2 / 3) * exp (-y) ≤ (1 + x + x ^ 2 / 3) * exp (-x) := by
  rw [exp_step h, ← mul_assoc]
  apply mul_le_mul_of_nonneg_right _ (exp_pos _).le
  have hd : 0 ≤ y - x := by linarith
  have h1 := quadratic_le_exp_of_nonneg hd
  have hc : 0 < 1 + x + x ^ 2 / 3 := by positivity
  have h2 := mul_le_mul_of_nonneg_left h1 hc.le
  refine le_trans ?_ h2
  have hxd : 0 ≤ x * (y - x) := mul_nonneg hx hd
  have hxxd : 0 ≤ x * (x * (y - x)) := mul_nonneg hx hxd
  have hxdd : 0 ≤ x * (y - x) * (y - x) := mul_nonneg hxd hd
  have hxxdd : 0 ≤ x * x * ((y - x) * (y - x)) := mul_nonneg (mul_nonneg hx hx) (mul_nonneg hd hd)
  nlinarith [mul_nonneg hd hd]

/-- **C77** The covariance does not increase with the distance (all the functions but the linear one). -/
theorem C77_antitone (f : Cov) (hf : f ≠ .linear) (sigma lambda : ℝ) (hl : 0 < lambda) (r s : ℝ) (hr : 0 ≤ r) (hrs : r ≤ s) :
    f.apply s sigma lambda ≤ f.apply r sigma lambda := by
  have hd : r / lambda ≤ s / lambda := div_le_div_of_nonneg_right hrs hl.le
  have hr0 : 0 ≤ r / lambda := div_nonneg hr hl.le
  have hsig : 0 ≤ sigma ^ 2 := sq_nonneg _
  have hexp : exp (-s / lambda) ≤ exp (-r / lambda) := by
    apply exp_le_exp.2; rw [neg_div, neg_div]; linarith
  have h3 : √3 * (r / lambda) ≤ √3 * (s / lambda) := mul_le_mul_of_nonneg_left hd (Real.sqrt_nonneg _)
  have h30 : 0 ≤ √3 * (r / lambda) := mul_nonneg (Real.sqrt_nonneg _) hr0
  have h5 : √5 * (r / lambda) ≤ √5 * (s / lambda) := mul_le_mul_of_nonneg_left hd (Real.sqrt_nonneg _)
  have h50 : 0 ≤ √5 * (r / lambda) := mul_nonneg (Real.sqrt_nonneg _) hr0
  cases f with
  | linear => exact absurd rfl hf
  | matern12 => exact mul_le_mul_of_nonneg_left hexp hsig
  | exponential => exact mul_le_mul_of_nonneg_left hexp hsig
  | matern32 =>
    simp only [Cov.apply, neg_mul]
    exact mul_le_mul_of_nonneg_left (mat32_anti h30 h3) hsig
  | whittleMatern =>
    simp only [Cov.apply, neg_mul, mul_div_assoc, neg_div, mul_assoc]
    exact mul_le_mul_of_nonneg_left (mat32_anti h30 h3) hsig
  | matern52 =>
    simp only [Cov.apply, neg_mul]
    have e : ∀ d : ℝ, 5 / 3 * d ^ 2 = (√5 * d) ^ 2 / 3 := by
      intro d
      rw [mul_pow, Real.sq_sqrt (by norm_num)]; ring
    rw [e, e]
    exact mul_le_mul_of_nonneg_left (mat52_anti h50 h5) hsig
  | cauchy =>
    simp only [Cov.apply]
    apply div_le_div_of_nonneg_left hsig
    · positivity
    · have := pow_le_pow_left₀ hr0 hd 2; linarith
  | gaussian =>
    simp only [Cov.apply]
    apply mul_le_mul_of_nonneg_left _ hsig
    apply exp_le_exp.2
    rw [neg_div, neg_div, neg_le_neg_iff]
    exact div_le_div_of_nonneg_right (pow_le_pow_left₀ hr hrs 2) (by positivity)
  | spherical =>
    simp only [Cov.apply]
    have key : ∀ a b : ℝ, 0 ≤ a → a ≤ b → b ≤ 1 → 1 - 1.5 * b + 0.5 * b ^ 3 ≤ 1 - 1.5 * a + 0.5 * a ^ 3 := by
      intro a b ha hab hb
      have h2 : 0 ≤ (b - a) * (3 - b ^ 2 - a * b - a ^ 2) := by
        apply mul_nonneg (by linarith)
        nlinarith
      nlinarith
    have hone : ∀ t : ℝ, t ≤ lambda → t / lambda ≤ 1 := fun t ht => (div_le_one hl).2 ht
    by_cases h1 : s > lambda
    · rw [if_pos h1]
      split
      · exact le_rfl
      · rename_i h2
        apply mul_nonneg hsig
        have := key (r / lambda) 1 hr0 (hone r (not_lt.1 h2)) le_rfl
        rw [mul_div_assoc]
        linarith
    · rw [if_neg h1, if_neg (by intro h; exact h1 (lt_of_lt_of_le h hrs))]
      apply mul_le_mul_of_nonneg_left _ hsig
      have := key (r / lambda) (s / lambda) hr0 hd (hone s (not_lt.1 h1))
      rw [mul_div_assoc, mul_div_assoc]
      exact this

/-- **C77** The covariance is between 0 and `sigma ^ 2` ("the maximum possible covariance between two points"). -/
theorem C77_range (f : Cov) (hf : f ≠ .linear) (sigma lambda : ℝ) (hl : 0 < lambda) (r : ℝ) (hr : 0 ≤ r) :
    0 ≤ f.apply r sigma lambda ∧ f.apply r sigma lambda ≤ sigma ^ 2 := by
  refine ⟨?_, ?_⟩
  · have hsig : 0 ≤ sigma ^ 2 := sq_nonneg _
    have hr0 : 0 ≤ r / lambda := div_nonneg hr hl.le
    cases f with
    | linear => exact absurd rfl hf
    | spherical =>
      by_cases h : r > lambda
      · simp [Cov.apply, h]
      · have := C77_antitone .spherical hf sigma lambda hl r lambda hr (not_lt.1 h)
        refine le_trans ?_ this
        simp only [Cov.apply, gt_iff_lt, lt_irrefl, if_false]
        rw [mul_div_assoc, div_self hl.ne']
        norm_num
    | matern12 => exact mul_nonneg hsig (exp_pos _).le
    | exponential => exact mul_nonneg hsig (exp_pos _).le
    | gaussian => exact mul_nonneg hsig (exp_pos _).le
    | cauchy => simp only [Cov.apply]; positivity
    | matern32 => simp only [Cov.apply]; positivity
    | matern52 => simp only [Cov.apply]; positivity
    | whittleMatern => simp only [Cov.apply]; positivity
  · rw [← C77_variance f hf sigma lambda hl]
    exact C77_antitone f hf sigma lambda hl 0 r le_rfl hr

/-- **C77** The covariance depends on the distance relative to `lambda` (all the functions but the linear one): the unit of the
distances does not matter. -/
theorem C77_scale (f : Cov) (hf : f ≠ .linear) (sigma lambda k : ℝ) (hl : 0 < lambda) (hk : 0 < k) (r : ℝ) :
    f.apply (k * r) sigma (k * lambda) = f.apply r sigma lambda := by
  have h1 : k * r / (k * lambda) = r / lambda := mul_div_mul_left _ _ hk.ne'
  have h2 : -(k * r) / (k * lambda) = -r / lambda := by rw [← mul_neg, mul_div_mul_left _ _ hk.ne']
  cases f with
  | linear => exact absurd rfl hf
  | matern12 => simp only [Cov.apply, h2]
  | exponential => simp only [Cov.apply, h2]
  | matern32 => simp only [Cov.apply, h1]
  | matern52 => simp only [Cov.apply, h1]
  | cauchy => simp only [Cov.apply, h1]
  | whittleMatern => simp only [Cov.apply, mul_div_assoc, h1]
  | gaussian =>
    simp only [Cov.apply, mul_pow, ← mul_neg]
    rw [mul_div_mul_left _ _ (by positivity)]
  | spherical =>
    simp only [Cov.apply, mul_div_assoc, h1, gt_iff_lt, mul_lt_mul_iff_right₀ hk]

/-- **C77** The spherical covariance vanishes from the distance `lambda` on, and nowhere before. -/
theorem C77_spherical (sigma lambda : ℝ) (hs : 0 < sigma) (hl : 0 < lambda) (r : ℝ) (hr : 0 ≤ r) :
    Cov.apply .spherical r sigma lambda = 0 ↔ lambda ≤ r := by
  simp only [Cov.apply]
  split
  · rename_i h; simp [h.le]
  · rename_i h
    have hle := not_lt.1 h
    constructor
    · intro h0
      by_contra hlt
      push Not at hlt
      have hd : r / lambda < 1 := (div_lt_one hl).2 hlt
      have hd0 : 0 ≤ r / lambda := div_nonneg hr hl.le
      rw [mul_div_assoc] at h0
      have : 0 < 1 - 1.5 * (r / lambda) + 0.5 * (r / lambda) ^ 3 := by
        have h1 : 0 < (1 - r / lambda) ^ 2 * (2 + r / lambda) := by
          apply mul_pos (pow_pos (by linarith) 2) (by linarith)
        nlinarith
      have hs2 : 0 < sigma ^ 2 := by positivity
      have := mul_pos hs2 this
      linarith
    · intro h2
      have : r = lambda := le_antisymm hle h2
      subst this
      rw [mul_div_assoc, div_self hl.ne']
      norm_num

/-- **C77** `exponential` is `matern_12`, `whittle_matern` is `matern_32`. -/
theorem C77_aliases (sigma lambda r : ℝ) :
    Cov.apply .exponential r sigma lambda = Cov.apply .matern12 r sigma lambda ∧
    Cov.apply .whittleMatern r sigma lambda = Cov.apply .matern32 r sigma lambda := by
  refine ⟨rfl, ?_⟩
  simp only [Cov.apply, neg_mul, mul_div_assoc, neg_div, mul_assoc]

/-- The formulas of the documentation (rtree.py:426-447), with `d` the distance, `s` the magnitude and `p` the scale. -/
noncomputable def documented (f : Cov) (d s p : ℝ) : ℝ :=
  match f with
  | .matern12 => s ^ 2 * exp (-(d / p))
  | .matern32 => s ^ 2 * (1 + √3 * d / p) * exp (-(√3 * d / p))
  | .matern52 => s ^ 2 * (1 + √5 * d / p + 5 * d ^ 2 / (3 * p ^ 2)) * exp (-(√5 * d / p))
  | .whittleMatern => s ^ 2 * (1 + √3 * (d / p)) * exp (-(√3 * (d / p)))
  | .cauchy => s ^ 2 * (1 + d / p)⁻¹
  | .exponential => s ^ 2 * exp (-(d / p))
  | .gaussian => s ^ 2 * exp (-(d ^ 2 / p ^ 2))
  | .spherical => s ^ 2 * (1 - 3 * d / (2 * p) + 3 * d ^ 3 / (2 * p ^ 3)) * (if d / p ≤ 1 then 1 else 0)
  | .linear => s ^ 2 * (1 - d / p) * (if d / p ≤ 1 then 1 else 0)

/-- **C77** The Matern, exponential and Gaussian covariances are the documented ones. -/
theorem C77_documented_partial (f : Cov) (hf : f ∉ [Cov.cauchy, .spherical, .linear]) (d s p : ℝ) (hp : 0 < p) :
    f.apply d s p = documented f d s p := by
  cases f <;> simp at hf <;> simp only [Cov.apply, documented, neg_div, neg_mul, mul_div_assoc, mul_assoc]
  congr 3
  field_simp

/-- **C77, the part that fails** The documented formulas of `cauchy`, `spherical` and `linear` are not those of the code, which at
half the scale give 4/5, 5/16 and p/2 of the variance instead of 2/3, 7/16 and 1/2. -/
theorem C77_documented_false (s p : ℝ) (hp : 0 < p) :
    Cov.apply .cauchy (p / 2) s p = s ^ 2 * (4 / 5) ∧ documented .cauchy (p / 2) s p = s ^ 2 * (2 / 3) ∧
    Cov.apply .spherical (p / 2) s p = s ^ 2 * (5 / 16) ∧ documented .spherical (p / 2) s p = s ^ 2 * (7 / 16) ∧
    Cov.apply .linear (p / 2) s p = s ^ 2 * (p / 2) ∧ documented .linear (p / 2) s p = s ^ 2 * (1 / 2) := by
  have h1 : p / 2 / p = 1 / 2 := by field_simp
  have h2 : ¬ p / 2 > p := by linarith
  have h3 : 3 * (p / 2) / (2 * p) = 3 / 4 := by field_simp; norm_num
  have h4 : 3 * (p / 2) ^ 3 / (2 * p ^ 3) = 3 / 16 := by field_simp; norm_num
  refine ⟨?_, ?_, ?_, ?_, ?_, ?_⟩
  · simp only [Cov.apply, h1]; ring
  · simp only [documented, h1]; ring
  · simp only [Cov.apply, h2, if_false, mul_div_assoc, h1]; ring
  · simp only [documented, h1, h3, h4]; norm_num
  · rfl
  · simp only [documented, h1]; norm_num

/-- **C77, the part that fails** The linear covariance is the opposite of a covariance: 0 for a point with itself, growing without
bound with the distance, whatever `lambda`. -/
theorem C77_linear_false (sigma : ℝ) (hs : 0 < sigma) (M : ℝ) :
    (∀ lambda, Cov.apply .linear 0 sigma lambda = 0) ∧ ∃ r, 0 ≤ r ∧ ∀ lambda, M < Cov.apply .linear r sigma lambda := by
  have hs2 : 0 < sigma ^ 2 := by positivity
  refine ⟨fun _ => by simp [Cov.apply], (|M| + 1) / sigma ^ 2, by positivity, fun _ => ?_⟩
  simp only [Cov.apply]
  rw [mul_div_cancel₀ _ hs2.ne']
  linarith [le_abs_self M]

/-- A case of the theorems above: the hypotheses can be met. -/
example : Cov.apply .spherical 1 2 1 = 0 ∧ Cov.apply .cauchy 3 2 3 = 2 ∧ Cov.apply .gaussian 0 5 3 = 25 := by
  refine ⟨(C77_spherical 2 1 (by norm_num) one_pos 1 zero_le_one).2 le_rfl, ?_, ?_⟩
  · simp only [Cov.apply]; norm_num
  · rw [C77_variance _ (by decide) _ _ (by norm_num)]; norm_num

end Pyinterp.RTree
