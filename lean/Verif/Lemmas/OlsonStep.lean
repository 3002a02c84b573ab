import Mathlib.Analysis.SpecialFunctions.Trigonometric.Deriv
import Mathlib.Analysis.SpecialFunctions.Trigonometric.Bounds
import Mathlib.Analysis.SpecialFunctions.Sqrt
import Mathlib.Analysis.Calculus.MeanValue
import Verif.Lemmas.Olson

/-
The correction of Olson's method (detail/geodetic/coordinates.hpp:97-107), for a spheroid of semi-major axis 1: from a
latitude `θ` at `δ` of the exact one, the corrected latitude is within `2 e δ²` and the altitude within
`3 (1 + |h|) e |δ|³`.
-/
set_option linter.unusedSectionVars false
namespace Pyinterp.Olson
open Real

/-- The quotient of the radius of curvature in the prime vertical by the semi-major axis. -/
noncomputable def nu (e t : ℝ) : ℝ := 1 / √(1 - e * sin t ^ 2)

/-- The distance to the axis, and the height above the equator, of the point of the meridian at the latitude `t`. -/
noncomputable def X (e t : ℝ) : ℝ := nu e t * cos t
noncomputable def Z (e t : ℝ) : ℝ := (1 - e) * nu e t * sin t

/-- The quotient of the radius of curvature of the meridian by the semi-major axis. -/
noncomputable def mu (e t : ℝ) : ℝ := (1 - e) * nu e t ^ 3

section
variable {e : ℝ} (he0 : 0 ≤ e) (he : e ≤ 1 / 100)
include he0 he

theorem g_ge (t : ℝ) : 99 / 100 ≤ 1 - e * sin t ^ 2 := by
  nlinarith [sin_sq_le_one t, sq_nonneg (sin t)]

theorem nu_pos (t : ℝ) : 0 < nu e t := by
  have := g_ge he0 he t
  unfold nu
  exact one_div_pos.2 (Real.sqrt_pos.2 (by linarith))

theorem nu_sq (t : ℝ) : nu e t ^ 2 * (1 - e * sin t ^ 2) = 1 := by
  have := g_ge he0 he t
  unfold nu
  rw [div_pow, one_pow, Real.sq_sqrt (by linarith)]
  field_simp

theorem nu_ge (t : ℝ) : 1 ≤ nu e t := by
  have h0 := nu_pos he0 he t
  have h1 := nu_sq he0 he t
  have h2 : nu e t ^ 2 * (e * sin t ^ 2) ≥ 0 := by positivity
  have h3 : 1 ≤ nu e t ^ 2 := by linarith
  by_contra hc
  push Not at hc
  nlinarith only [h3, hc, h0]

theorem nu_sq_le (t : ℝ) : nu e t ^ 2 ≤ 100 / 99 := by
  have h1 := mul_le_mul_of_nonneg_left (g_ge he0 he t) (sq_nonneg (nu e t))
  have h2 := nu_sq he0 he t
  linarith

theorem nu_le (t : ℝ) : nu e t ≤ 1006 / 1000 := by
  have := nu_sq_le he0 he t
  by_contra hc
  push Not at hc
  nlinarith only [this, hc]

theorem mu_ge (t : ℝ) : 99 / 100 ≤ mu e t := by
  have h1 : (1 : ℝ) ≤ nu e t ^ 3 := one_le_pow₀ (nu_ge he0 he t)
  unfold mu
  nlinarith

theorem mu_le (t : ℝ) : mu e t ≤ 102 / 100 := by
  have h1 : nu e t ^ 3 ≤ 102 / 100 := by
    have : nu e t ^ 3 = nu e t ^ 2 * nu e t := by ring
    rw [this]
    calc _ ≤ 100 / 99 * (1006 / 1000) :=
          mul_le_mul (nu_sq_le he0 he t) (nu_le he0 he t) (nu_pos he0 he t).le (by norm_num)
      _ ≤ _ := by norm_num
  have h2 : 0 ≤ nu e t ^ 3 := pow_nonneg (nu_pos he0 he t).le 3
  unfold mu
  nlinarith

theorem hasDerivAt_nu (t : ℝ) : HasDerivAt (nu e) (e * (sin t * cos t) * nu e t ^ 3) t := by
  have hg := g_ge he0 he t
  have h1 : HasDerivAt (fun t => 1 - e * sin t ^ 2) (-(e * (2 * sin t * cos t))) t := by
    have := ((hasDerivAt_sin t).pow 2).const_mul e |>.const_sub 1
    refine this.congr_deriv ?_
    simp
  have h2 := (h1.sqrt (by linarith)).fun_inv (Real.sqrt_pos.2 (show 0 < 1 - e * sin t ^ 2 by linarith)).ne'
  have h3 : nu e = fun t => (√(1 - e * sin t ^ 2))⁻¹ := by funext t; unfold nu; rw [one_div]
  rw [h3]
  refine h2.congr_deriv ?_
  have h4 : √(1 - e * sin t ^ 2) ≠ 0 := (Real.sqrt_pos.2 (by linarith)).ne'
  field_simp

theorem hasDerivAt_X (t : ℝ) : HasDerivAt (X e) (-(mu e t * sin t)) t := by
  have h := (hasDerivAt_nu he0 he t).mul (hasDerivAt_cos t)
  refine (h.congr_deriv ?_)
  have h1 := nu_sq he0 he t
  have h2 := sin_sq_add_cos_sq t
  unfold mu
  linear_combination (nu e t * sin t) * h1 + (e * nu e t ^ 3 * sin t) * h2

theorem hasDerivAt_Z (t : ℝ) : HasDerivAt (Z e) (mu e t * cos t) t := by
  have h := ((hasDerivAt_nu he0 he t).const_mul (1 - e)).mul (hasDerivAt_sin t)
  refine (h.congr_deriv ?_)
  have h1 := nu_sq he0 he t
  unfold mu
  linear_combination (-((1 - e) * nu e t * cos t)) * h1

theorem hasDerivAt_mu (t : ℝ) : HasDerivAt (mu e) ((1 - e) * (3 * nu e t ^ 5 * (e * (sin t * cos t)))) t := by
  have h := ((hasDerivAt_nu he0 he t).pow 3).const_mul (1 - e)
  refine (h.congr_deriv ?_)
  simp
  left
  ring

theorem mu_deriv_le (t : ℝ) : |(1 - e) * (3 * nu e t ^ 5 * (e * (sin t * cos t)))| ≤ 8 / 5 * e := by
  have h1 : |sin t * cos t| ≤ 1 / 2 := by
    have := sin_sq_add_cos_sq t
    exact abs_le.2 ⟨by nlinarith [sq_nonneg (sin t + cos t)], by nlinarith [sq_nonneg (sin t - cos t)]⟩
  have h2 : |nu e t ^ 5| ≤ 1027 / 1000 := by
    rw [abs_of_nonneg (pow_nonneg (nu_pos he0 he t).le 5)]
    have : nu e t ^ 5 = nu e t ^ 2 * (nu e t ^ 2 * nu e t) := by ring
    rw [this]
    calc nu e t ^ 2 * (nu e t ^ 2 * nu e t) ≤ 100 / 99 * (100 / 99 * (1006 / 1000)) := by
          have h0 := nu_pos he0 he t
          have h1 := nu_sq_le he0 he t
          have h2 := nu_le he0 he t
          gcongr
      _ ≤ 1027 / 1000 := by norm_num
  have h3 : |1 - e| ≤ 1 := abs_le.2 ⟨by linarith, by linarith⟩
  have h4 : |e| ≤ e := (abs_of_nonneg he0).le
  have := abs_mul_le_of_le h3 (abs_mul_le_of_le (abs_mul_le_of_le (by norm_num : |(3 : ℝ)| ≤ 3) h2) (abs_mul_le_of_le h4 h1))
  refine this.trans ?_
  linarith

omit he0 he in
theorem mvt {f f' : ℝ → ℝ} {θ φ B : ℝ} (hf : ∀ t, HasDerivAt f (f' t) t) (hb : ∀ t, |t - θ| ≤ |φ - θ| → |f' t| ≤ B)
    {t : ℝ} (ht : |t - θ| ≤ |φ - θ|) : |f t - f θ| ≤ B * |φ - θ| := by
  have h0 : 0 ≤ B := (abs_nonneg _).trans (hb θ (by simp))
  have hs : Convex ℝ (Metric.closedBall θ |φ - θ|) := convex_closedBall _ _
  have hm : ∀ t, t ∈ Metric.closedBall θ |φ - θ| ↔ |t - θ| ≤ |φ - θ| := fun t => by
    rw [Metric.mem_closedBall, Real.dist_eq]
  have := hs.norm_image_sub_le_of_norm_hasDerivWithin_le (f := f) (f' := f') (C := B)
    (fun t _ => (hf t).hasDerivWithinAt) (fun t h => hb t ((hm t).1 h)) ((hm θ).2 (by simp)) ((hm t).2 ht)
  rw [Real.norm_eq_abs, Real.norm_eq_abs] at this
  exact this.trans (mul_le_mul_of_nonneg_left ht h0)

omit he0 he in
theorem sin_sub_le {x : ℝ} (hx : |x| ≤ 1) : |x - sin x| ≤ |x| ^ 3 / 4 := by
  have h1 := Real.sin_bound hx
  have h2 : x - sin x = -(sin x - (x - x ^ 3 / 6)) + x ^ 3 / 6 := by ring
  have h3 : |x ^ 3 / 6| = |x| ^ 3 / 6 := by rw [abs_div, abs_pow]; norm_num
  rw [h2]
  have h4 := abs_add_le_of_le (abs_neg_le_of_le h1) h3.le
  refine h4.trans ?_
  have h5 : |x| ^ 5 ≤ |x| ^ 3 := pow_le_pow_of_le_one (abs_nonneg x) hx (by norm_num)
  have h6 : 0 ≤ |x| ^ 3 := by positivity
  linarith

omit he0 he in
theorem cos_sub_le (x : ℝ) : |1 - cos x| ≤ |x| ^ 2 / 2 := by
  rw [abs_of_nonneg (by linarith [cos_le_one x]), sq_abs]
  linarith [Real.one_sub_sq_div_two_le_cos (x := x)]

set_option maxHeartbeats 1000000 in
theorem step (θ φ h : ℝ) (hh : -1 / 10 ≤ h) (hδ : |φ - θ| ≤ e / 1000) (m f p : ℝ)
    (hm : m = cos θ * (Z e φ + h * sin φ - Z e θ) - sin θ * (X e φ + h * cos φ - X e θ))
    (hf : f = cos θ * (X e φ + h * cos φ - X e θ) + sin θ * (Z e φ + h * sin φ - Z e θ))
    (hp : p = m / (mu e θ + f)) :
    |p - (φ - θ)| ≤ 2 * e * (φ - θ) ^ 2 ∧ |f + m * p / 2 - h| ≤ 3 * (1 + |h|) * e * |φ - θ| ^ 3 := by
  obtain ⟨δ, hδ'⟩ : ∃ d, d = |φ - θ| := ⟨_, rfl⟩
  obtain ⟨H, hH⟩ : ∃ x, x = 102 / 100 + |h| := ⟨_, rfl⟩
  have hδ0 : 0 ≤ δ := by rw [hδ']; exact abs_nonneg _
  have hδe : δ ≤ e / 1000 := by rw [hδ']; exact hδ
  have hH0 : 0 < H := by rw [hH]; positivity
  have hmuh : ∀ t, |mu e t + h| ≤ H := fun t => by
    rw [hH]
    exact abs_add_le_of_le (by rw [abs_of_nonneg (by linarith [mu_ge he0 he t])]; exact mu_le he0 he t) le_rfl
  -- the functions
  let M : ℝ → ℝ := fun t => cos θ * (Z e t + h * sin t - Z e θ) - sin θ * (X e t + h * cos t - X e θ)
  let F : ℝ → ℝ := fun t => cos θ * (X e t + h * cos t - X e θ) + sin θ * (Z e t + h * sin t - Z e θ)
  have dZ : ∀ t, HasDerivAt (fun t => Z e t + h * sin t - Z e θ) ((mu e t + h) * cos t) t := fun t =>
    (((hasDerivAt_Z he0 he t).add ((hasDerivAt_sin t).const_mul h)).sub_const (Z e θ)).congr_deriv (by ring)
  have dX : ∀ t, HasDerivAt (fun t => X e t + h * cos t - X e θ) (-((mu e t + h) * sin t)) t := fun t =>
    (((hasDerivAt_X he0 he t).add ((hasDerivAt_cos t).const_mul h)).sub_const (X e θ)).congr_deriv (by ring)
  have dM : ∀ t, HasDerivAt M ((mu e t + h) * cos (t - θ)) t := fun t =>
    (((dZ t).const_mul (cos θ)).sub ((dX t).const_mul (sin θ))).congr_deriv (by rw [cos_sub]; ring)
  have dF : ∀ t, HasDerivAt F (-((mu e t + h) * sin (t - θ))) t := fun t =>
    (((dX t).const_mul (cos θ)).add ((dZ t).const_mul (sin θ))).congr_deriv (by rw [sin_sub]; ring)
  have M0 : M θ = 0 := by show cos θ * _ - sin θ * _ = 0; ring
  have F0 : F θ = h := by
    have := sin_sq_add_cos_sq θ
    show cos θ * (X e θ + h * cos θ - X e θ) + sin θ * (Z e θ + h * sin θ - Z e θ) = h
    linear_combination h * this
  have hx : ∀ t, |t - θ| ≤ |φ - θ| → |t - θ| ≤ δ := fun t ht => by rw [hδ']; exact ht
  have hsin : ∀ t, |t - θ| ≤ |φ - θ| → |sin (t - θ)| ≤ δ := fun t ht => abs_sin_le_abs.trans (hx t ht)
  have bF : ∀ t, |t - θ| ≤ |φ - θ| → |F t - h| ≤ H * δ * δ := fun t ht => by
    have := mvt dF (B := H * δ) (fun t ht => abs_neg_le_of_le (abs_mul_le_of_le (hmuh t) (hsin t ht))) ht
    rw [F0, ← hδ'] at this
    exact this
  have bM : ∀ t, |t - θ| ≤ |φ - θ| → |M t| ≤ H * δ := fun t ht => by
    have := mvt dM (B := H * 1) (fun t ht => abs_mul_le_of_le (hmuh t) (abs_cos_le_one _)) ht
    rw [M0, ← hδ', sub_zero, mul_one] at this
    exact this
  have bmu : ∀ t, |t - θ| ≤ |φ - θ| → |mu e t - mu e θ| ≤ 8 / 5 * e * δ := fun t ht => by
    have := mvt (hasDerivAt_mu he0 he) (fun t _ => mu_deriv_le he0 he t) ht
    rw [← hδ'] at this
    exact this
  have bcos : ∀ t, |t - θ| ≤ |φ - θ| → |1 - cos (t - θ)| ≤ δ ^ 2 / 2 := fun t ht => by
    refine (cos_sub_le _).trans ?_
    have := hx t ht
    gcongr
  -- the error of the correction
  have dE : ∀ t, HasDerivAt (fun t => M t - (t - θ) * (mu e θ + F t)) ((mu e t - mu e θ) - (mu e t + h) * (1 - cos (t - θ)) -
      (F t - h) + (t - θ) * ((mu e t + h) * sin (t - θ))) t := fun t =>
    ((dM t).sub (((hasDerivAt_id t).sub_const θ).mul ((dF t).const_add (mu e θ)))).congr_deriv (by simp; ring)
  have bE : ∀ t, |t - θ| ≤ |φ - θ| → |M t - (t - θ) * (mu e θ + F t)| ≤
      (8 / 5 * e * δ + H * (δ ^ 2 / 2) + H * δ * δ + δ * (H * δ)) * δ := fun t ht => by
    have := mvt dE (B := 8 / 5 * e * δ + H * (δ ^ 2 / 2) + H * δ * δ + δ * (H * δ)) (fun t ht =>
      abs_add_le_of_le (abs_sub_le_of_le (abs_sub_le_of_le (bmu t ht) (abs_mul_le_of_le (hmuh t) (bcos t ht))) (bF t ht))
        (abs_mul_le_of_le (hx t ht) (abs_mul_le_of_le (hmuh t) (hsin t ht)))) ht
    rw [← hδ'] at this
    simpa [M0] using this
  have dG : ∀ t, HasDerivAt (fun t => F t - h + M t * (t - θ) / 2) ((mu e t + h) * (((t - θ) - sin (t - θ)) -
      (t - θ) * (1 - cos (t - θ)) / 2) + (M t - (t - θ) * (mu e θ + F t)) / 2 +
      (t - θ) * ((F t - h) - (mu e t - mu e θ)) / 2) t := fun t =>
    (((dF t).sub_const h).add (((dM t).mul ((hasDerivAt_id t).sub_const θ)).div_const 2)).congr_deriv (by simp; ring)
  have bG : |F φ - h + M φ * (φ - θ) / 2| ≤ (H * (δ ^ 3 / 4 + δ * (δ ^ 2 / 2) / 2) +
      (8 / 5 * e * δ + H * (δ ^ 2 / 2) + H * δ * δ + δ * (H * δ)) * δ / 2 + δ * (H * δ * δ + 8 / 5 * e * δ) / 2) * δ := by
    have := mvt dG (B := H * (δ ^ 3 / 4 + δ * (δ ^ 2 / 2) / 2) +
      (8 / 5 * e * δ + H * (δ ^ 2 / 2) + H * δ * δ + δ * (H * δ)) * δ / 2 + δ * (H * δ * δ + 8 / 5 * e * δ) / 2) (fun t ht => by
        have half : ∀ {x b : ℝ}, |x| ≤ b → |x / 2| ≤ b / 2 := fun hb => by rw [abs_div, abs_two]; linarith
        have h1 : |(t - θ) - sin (t - θ)| ≤ δ ^ 3 / 4 := by
          refine (sin_sub_le ((hx t ht).trans (by linarith))).trans ?_
          have := hx t ht
          gcongr
        exact abs_add_le_of_le (abs_add_le_of_le (abs_mul_le_of_le (hmuh t) (abs_sub_le_of_le h1
          (half (abs_mul_le_of_le (hx t ht) (bcos t ht))))) (half (bE t ht)))
          (half (abs_mul_le_of_le (hx t ht) (abs_sub_le_of_le (bF t ht) (bmu t ht))))) (le_refl |φ - θ|)
    rw [← hδ'] at this
    simpa [F0, M0] using this
  have hmM : m = M φ := hm
  have hfF : f = F φ := hf
  have bf := bF φ le_rfl
  have bm := bM φ le_rfl
  have be := bE φ le_rfl
  rw [← hmM, ← hfF] at bG
  rw [← hfF] at bf be
  rw [← hmM] at bm be
  clear_value M F
  clear dM dF dE dG bE bM bF bmu bcos hsin hx dZ dX M0 F0 hmM hfF hm hf
  -- the denominator
  have hmt := mu_ge he0 he θ
  have hQ : 78 / 100 * H ≤ mu e θ + h ∧ 89 / 100 ≤ mu e θ + h := by
    rw [hH]
    rcases abs_cases h with ⟨h1, h2⟩ | ⟨h1, h2⟩ <;> rw [h1] <;> constructor <;> linarith
  have hδ2 : δ ≤ 1 / 100000 := by linarith
  have hHδ : H * δ * δ ≤ H / 10000 := by
    have : δ * δ ≤ 1 / 10000 := by nlinarith
    nlinarith
  have bf' := abs_le.1 bf
  have hQ1 : 77 / 100 * H ≤ mu e θ + f := by linarith [hQ.1]
  have hQ2 : 88 / 100 ≤ mu e θ + f := by linarith [hQ.1, hQ.2]
  have hQ0 : 0 < mu e θ + f := by linarith
  have hpe : p - (φ - θ) = (m - (φ - θ) * (mu e θ + f)) / (mu e θ + f) := by rw [hp]; field_simp
  have hδδ : (φ - θ) ^ 2 = δ ^ 2 := by rw [hδ', sq_abs]
  have hHδe : H * δ ^ 3 ≤ (mu e θ + f) * (e * δ ^ 2) / 750 := by
    have h1 : H * δ ≤ (mu e θ + f) * e / 750 := by
      calc H * δ ≤ H * (e / 1000) := by gcongr
        _ ≤ _ := by nlinarith
    have h2 : H * δ ^ 3 = H * δ * δ ^ 2 := by ring
    have h3 : (mu e θ + f) * (e * δ ^ 2) / 750 = (mu e θ + f) * e / 750 * δ ^ 2 := by ring
    rw [h2, h3]
    gcongr
  have hed : 0 ≤ e * δ ^ 2 := by positivity
  have hfirst : |p - (φ - θ)| ≤ 2 * e * δ ^ 2 := by
    rw [hpe, abs_div, abs_of_pos hQ0, div_le_iff₀ hQ0]
    refine be.trans ?_
    have h1 : (8 / 5 * e * δ + H * (δ ^ 2 / 2) + H * δ * δ + δ * (H * δ)) * δ = 8 / 5 * (e * δ ^ 2) + 5 / 2 * (H * δ ^ 3) := by ring
    have h2 : 2 * e * δ ^ 2 * (mu e θ + f) = 2 * ((mu e θ + f) * (e * δ ^ 2)) := by ring
    rw [h1, h2]
    have h3 : 88 / 100 * (e * δ ^ 2) ≤ (mu e θ + f) * (e * δ ^ 2) := by gcongr
    linarith
  refine ⟨by rw [hδδ]; exact hfirst, ?_⟩
  have hid : f + m * p / 2 - h = (f - h + m * (φ - θ) / 2) + m * (p - (φ - θ)) / 2 := by ring
  rw [hid, ← hδ']
  have hsecond : |m * (p - (φ - θ)) / 2| ≤ H * δ * (2 * e * δ ^ 2) / 2 := by
    rw [abs_div, abs_two]
    have := abs_mul_le_of_le bm hfirst
    linarith
  refine (abs_add_le_of_le bG hsecond).trans ?_
  have hHh : H ≤ 102 / 100 * (1 + |h|) := by rw [hH]; linarith [abs_nonneg h]
  have h1 : (H * (δ ^ 3 / 4 + δ * (δ ^ 2 / 2) / 2) +
      (8 / 5 * e * δ + H * (δ ^ 2 / 2) + H * δ * δ + δ * (H * δ)) * δ / 2 + δ * (H * δ * δ + 8 / 5 * e * δ) / 2) * δ +
      H * δ * (2 * e * δ ^ 2) / 2 = 8 / 5 * (e * δ ^ 3) + 9 / 4 * (H * δ ^ 3 * δ) + H * (e * δ ^ 3) := by ring
  rw [h1]
  have hed3 : 0 ≤ e * δ ^ 3 := by positivity
  have h2 : H * δ ^ 3 * δ ≤ H * (e * δ ^ 3) / 1000 := by
    have : H * δ ^ 3 * δ ≤ H * δ ^ 3 * (e / 1000) := by gcongr
    linarith
  have h3 : H * (e * δ ^ 3) ≤ 102 / 100 * (1 + |h|) * (e * δ ^ 3) := by gcongr
  have h4 : e * δ ^ 3 ≤ (1 + |h|) * (e * δ ^ 3) := by nlinarith [abs_nonneg h]
  have h5 : 3 * (1 + |h|) * e * δ ^ 3 = 3 * ((1 + |h|) * (e * δ ^ 3)) := by ring
  rw [h5]
  linarith

end

end Pyinterp.Olson
