import Verif.Model.Geodetic
import Verif.Spec.Surface
import Verif.Props.C72_EcefToLla

/-
C73, authalic radius: the radius of the sphere that has the area of the spheroid.
-/
namespace Pyinterp.Geodetic
open Real MeasureTheory Pyinterp.Spec

/-- The element of area, inside of the interval. -/
theorem element_eq {a b t : ℝ} (ha : 0 < a) (hb : 0 < b) (h0 : -b < t) (h1 : t < b) :
    2 * π * meridian a b t * √(1 + deriv (meridian a b) t ^ 2) =
      2 * π * a / b ^ 2 * √(b ^ 4 + (a ^ 2 - b ^ 2) * t ^ 2) := by
  have hlt : t ^ 2 < b ^ 2 := by nlinarith
  have hu : 0 < 1 - (t / b) ^ 2 := by
    rw [div_pow]
    have : t ^ 2 / b ^ 2 < 1 := (div_lt_one (by positivity)).2 hlt
    linarith
  have hd : HasDerivAt (meridian a b) (a * (-(2 * (t / b) * (1 / b)) / (2 * √(1 - (t / b) ^ 2)))) t := by
    unfold meridian
    refine HasDerivAt.const_mul a ?_
    refine HasDerivAt.sqrt ?_ hu.ne'
    have h := ((hasDerivAt_id t).div_const b).pow 2
    have h' : HasDerivAt (fun t => 1 - (t / b) ^ 2) _ t := h.const_sub 1
    exact h'.congr_deriv (by simp)
  rw [hd.deriv]
  have hs : 0 < √(1 - (t / b) ^ 2) := sqrt_pos.2 hu
  have hs2 : √(1 - (t / b) ^ 2) ^ 2 = 1 - (t / b) ^ 2 := sq_sqrt hu.le
  have e : √(1 + (a * (-(2 * (t / b) * (1 / b)) / (2 * √(1 - (t / b) ^ 2)))) ^ 2) =
      √(b ^ 4 + (a ^ 2 - b ^ 2) * t ^ 2) / (b ^ 2 * √(1 - (t / b) ^ 2)) := by
    rw [eq_div_iff (by positivity)]
    rw [← sqrt_sq (show 0 ≤ b ^ 2 * √(1 - (t / b) ^ 2) by positivity), ← sqrt_mul (by positivity)]
    congr 1
    rw [mul_pow (b ^ 2), hs2]
    have hne : (1 - (t / b) ^ 2) ≠ 0 := hu.ne'
    have e2 : (a * (-(2 * (t / b) * (1 / b)) / (2 * √(1 - (t / b) ^ 2)))) ^ 2 =
        a ^ 2 * t ^ 2 / b ^ 4 / (1 - (t / b) ^ 2) := by
      have e3 : ∀ w : ℝ, 0 < w → (a * (-(2 * (t / b) * (1 / b)) / (2 * w))) ^ 2 =
          a ^ 2 * t ^ 2 / b ^ 4 / w ^ 2 := by
        intro w hw
        field_simp
      rw [e3 _ hs, hs2]
    rw [e2]
    have hc : (1 - (t / b) ^ 2) * b ^ 2 = b ^ 2 - t ^ 2 := by field_simp
    calc (1 + a ^ 2 * t ^ 2 / b ^ 4 / (1 - (t / b) ^ 2)) * ((b ^ 2) ^ 2 * (1 - (t / b) ^ 2))
        = b ^ 2 * ((1 - (t / b) ^ 2) * b ^ 2) +
          a ^ 2 * t ^ 2 / b ^ 4 * b ^ 4 * ((1 - (t / b) ^ 2) / (1 - (t / b) ^ 2)) := by ring
      _ = b ^ 4 + (a ^ 2 - b ^ 2) * t ^ 2 := by
        rw [hc, div_self hne, div_mul_cancel₀ _ (by positivity)]; ring
  rw [e]
  unfold meridian
  generalize √(1 - (t / b) ^ 2) = w at hs
  field_simp

theorem integral_sqrt {b E : ℝ} (hb : 0 < b) (hE : 0 < E) :
    ∫ t in (-b)..b, √(b ^ 4 + E ^ 2 * t ^ 2) =
      b * √(b ^ 4 + E ^ 2 * b ^ 2) +
        b ^ 4 / (2 * E) * (log (E * b + √(b ^ 4 + E ^ 2 * b ^ 2)) - log (-(E * b) + √(b ^ 4 + E ^ 2 * b ^ 2))) := by
  have hpos : ∀ t : ℝ, 0 < b ^ 4 + E ^ 2 * t ^ 2 := fun t => by positivity
  have hlog : ∀ t : ℝ, 0 < E * t + √(b ^ 4 + E ^ 2 * t ^ 2) := by
    intro t
    have : |E * t| < √(b ^ 4 + E ^ 2 * t ^ 2) := by
      rw [← sqrt_sq_eq_abs]
      apply sqrt_lt_sqrt (by positivity)
      have : 0 < b ^ 4 := by positivity
      nlinarith
    have := neg_abs_le (E * t)
    linarith
  have hderiv : ∀ t : ℝ, HasDerivAt (fun t => t * √(b ^ 4 + E ^ 2 * t ^ 2) / 2 +
      b ^ 4 / (2 * E) * log (E * t + √(b ^ 4 + E ^ 2 * t ^ 2))) (√(b ^ 4 + E ^ 2 * t ^ 2)) t := by
    intro t
    have h1 : HasDerivAt (fun t : ℝ => b ^ 4 + E ^ 2 * t ^ 2) (E ^ 2 * (2 * t)) t := by
      have : HasDerivAt (fun t : ℝ => b ^ 4 + E ^ 2 * t ^ 2) _ t :=
        (((hasDerivAt_id t).pow 2).const_mul (E ^ 2)).const_add (b ^ 4)
      exact this.congr_deriv (by simp)
    have h2 := h1.sqrt (hpos t).ne'
    have h3 := ((hasDerivAt_id t).mul h2).div_const 2
    have h4' : HasDerivAt (fun t => E * t + √(b ^ 4 + E ^ 2 * t ^ 2)) _ t :=
      ((hasDerivAt_id t).const_mul E).add h2
    have h4 := h4'.log (hlog t).ne'
    have h5 : HasDerivAt (fun t => t * √(b ^ 4 + E ^ 2 * t ^ 2) / 2 +
      b ^ 4 / (2 * E) * log (E * t + √(b ^ 4 + E ^ 2 * t ^ 2))) _ t :=
      h3.add (h4.const_mul (b ^ 4 / (2 * E)))
    refine h5.congr_deriv ?_
    have hs := sqrt_pos.2 (hpos t)
    have hs2 : √(b ^ 4 + E ^ 2 * t ^ 2) ^ 2 = b ^ 4 + E ^ 2 * t ^ 2 := sq_sqrt (hpos t).le
    have hl := (hlog t).ne'
    simp only [id]
    set S := √(b ^ 4 + E ^ 2 * t ^ 2) with hS
    have q : (E * 1 + E ^ 2 * (2 * t) / (2 * S)) / (E * t + S) = E / S := by
      rw [div_eq_div_iff hl hs.ne']
      field_simp
      ring
    rw [q]
    field_simp
    have hb4 : b ^ 4 = S ^ 2 - E ^ 2 * t ^ 2 := by rw [hs2]; ring
    rw [hb4]
    ring
  rw [intervalIntegral.integral_eq_sub_of_hasDerivAt (fun t _ => hderiv t)]
  · simp only [neg_sq]
    rw [show E * -b = -(E * b) by ring]
    ring
  · apply Continuous.intervalIntegrable
    fun_prop

/-- **C73** The authalic radius of a flattened spheroid is the radius of the sphere that has the same
area: `4 π R²` is the area of the ellipsoid. -/
theorem C73_authalic (s : Spheroid) (h : s.Valid) (hf : 0 < s.f) :
    ∃ R, s.authalicRadius = some R ∧ 0 < R ∧
      4 * π * R ^ 2 = surfaceOfRevolution (meridian s.a s.b) (-s.b) s.b := by
  obtain ⟨ha, hf1⟩ := h
  have hbdef : s.b = s.a * (1 - s.f) := rfl
  have hb : 0 < s.b := by rw [hbdef]; exact mul_pos ha (by linarith)
  have hba : s.b < s.a := by rw [hbdef]; nlinarith
  have hE2 : 0 < s.a * s.a - s.b * s.b := by nlinarith
  have hE : 0 < s.linearEccentricity := sqrt_pos.2 hE2
  have hEE : s.linearEccentricity ^ 2 = s.a ^ 2 - s.b ^ 2 := by
    rw [Spheroid.linearEccentricity, sq_sqrt hE2.le]; ring
  generalize hEd : s.linearEccentricity = E at hE hEE
  have hEa : E < s.a := by nlinarith
  have hlogpos : 0 < log ((s.a + E) / s.b) := by
    apply log_pos
    rw [lt_div_iff₀ hb]; linarith
  have hval : 0 < (s.a * s.a + s.a * (s.b * s.b) / E * log ((s.a + E) / s.b)) * 0.5 := by positivity
  refine ⟨√((s.a * s.a + s.a * (s.b * s.b) / E * log ((s.a + E) / s.b)) * 0.5), ?_, sqrt_pos.2 hval, ?_⟩
  · unfold Spheroid.authalicRadius
    rw [hEd, if_neg hE.ne']
  · rw [sq_sqrt hval.le]
    have hint : surfaceOfRevolution (meridian s.a s.b) (-s.b) s.b =
        ∫ t in (-s.b)..s.b, 2 * π * s.a / s.b ^ 2 * √(s.b ^ 4 + E ^ 2 * t ^ 2) := by
      unfold surfaceOfRevolution
      rw [intervalIntegral.integral_of_le (by linarith), intervalIntegral.integral_of_le (by linarith),
        integral_Ioc_eq_integral_Ioo, integral_Ioc_eq_integral_Ioo]
      refine setIntegral_congr_fun measurableSet_Ioo fun t ht => ?_
      rw [hEE]
      exact element_eq ha hb ht.1 ht.2
    rw [hint, intervalIntegral.integral_const_mul, integral_sqrt hb hE]
    have hroot : √(s.b ^ 4 + E ^ 2 * s.b ^ 2) = s.a * s.b := by
      rw [hEE, show s.b ^ 4 + (s.a ^ 2 - s.b ^ 2) * s.b ^ 2 = (s.a * s.b) ^ 2 by ring,
        sqrt_sq (by positivity)]
    rw [hroot]
    have hlog : log (E * s.b + s.a * s.b) - log (-(E * s.b) + s.a * s.b) = 2 * log ((s.a + E) / s.b) := by
      rw [← log_div (by positivity) (by nlinarith), ← log_rpow (by positivity)]
      congr 1
      rw [show (2 : ℝ) = ((2 : ℕ) : ℝ) by norm_num, rpow_natCast, div_pow, div_eq_div_iff (by nlinarith) (by positivity)]
      linear_combination (s.b * (s.a + E)) * hEE
    rw [hlog]
    field_simp
    ring

/- The spheroid of the Earth. -/
example : Spheroid.wgs84.Valid ∧ 0 < Spheroid.wgs84.f := by
  simp only [Spheroid.Valid, Spheroid.wgs84]; norm_num

end Pyinterp.Geodetic
