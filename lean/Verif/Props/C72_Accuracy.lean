import Verif.Props.C72_EcefToLla
import Verif.Lemmas.OlsonStep
import Mathlib.Analysis.Real.Pi.Bounds

/-
C72, accuracy. For every spheroid of which the square of the eccentricity is at most 1/100 and every position above
the depth a/10, `ecef_to_lla` after `lla_to_ecef` gives back the latitude within `200 e2^7` radians and the altitude
within `3000 (a + |alt|) e2^10`: for WGS84, less than a tenth of a picoradian and a nanometre.
-/
set_option linter.unusedVariables false
namespace Pyinterp.Geodetic
open Real Pyinterp.Trig Pyinterp.RTree Pyinterp.Spec Pyinterp.Olson

theorem angle_le_of_sin {x y : ℝ} (hx0 : 0 ≤ x) (hx : x ≤ π / 2) (hy0 : 0 ≤ y) (hy : y ≤ π / 2) (hcx : 1 / 2 ≤ cos x)
    (hcy : 1 / 2 ≤ cos y) : |y - x| ≤ π * |sin y - sin x| := by
  have hpi := pi_pos
  wlog hxy : x ≤ y generalizing x y with H
  · rw [abs_sub_comm, abs_sub_comm (sin y)]
    exact H hy0 hy hx0 hx hcy hcx (le_of_not_ge hxy)
  have h1 : sin y - sin x = 2 * sin ((y - x) / 2) * cos ((y + x) / 2) := Real.sin_sub_sin y x
  have h2 : 2 / π * ((y - x) / 2) ≤ sin ((y - x) / 2) := Real.mul_le_sin (by linarith) (by linarith)
  have h3 : 1 / 2 ≤ cos ((y + x) / 2) :=
    hcy.trans (cos_le_cos_of_nonneg_of_le_pi (by linarith) (by linarith) (by linarith))
  have h4 : 0 ≤ 2 / π * ((y - x) / 2) := by
    have : 0 ≤ y - x := by linarith
    positivity
  have h5 : 2 / π * ((y - x) / 2) ≤ sin y - sin x := by
    rw [h1]
    nlinarith
  rw [abs_of_nonneg (by linarith), abs_of_nonneg (by linarith)]
  calc y - x = π * (2 / π * ((y - x) / 2)) := by field_simp
    _ ≤ _ := by gcongr

theorem angle_le_of_cos {x y : ℝ} (hx0 : 0 ≤ x) (hx : x ≤ π / 2) (hy0 : 0 ≤ y) (hy : y ≤ π / 2) (hsx : 1 / 2 ≤ sin x)
    (hsy : 1 / 2 ≤ sin y) : |y - x| ≤ π * |cos y - cos x| := by
  have := angle_le_of_sin (x := π / 2 - x) (y := π / 2 - y) (by linarith) (by linarith) (by linarith) (by linarith)
    (by rwa [cos_pi_div_two_sub]) (by rwa [cos_pi_div_two_sub])
  rw [sin_pi_div_two_sub, sin_pi_div_two_sub] at this
  rw [show π / 2 - y - (π / 2 - x) = -(y - x) by ring, abs_neg] at this
  exact this

set_option maxHeartbeats 1000000 in
/-- The first approximation is within `10 e2³` of the latitude. -/
theorem guess_bound (s : Spheroid) (hv : s.Valid) (he0 : 0 ≤ s.e2) (he : s.e2 ≤ 1 / 100) (φ h : ℝ) (hφ0 : 0 ≤ φ) (hφ : φ ≤ π / 2)
    (hh : -1 / 10 ≤ h) :
    ∃ θ, (Coordinates.make (some s)).guess ((s.a * (nu s.e2 φ + h) * cos φ) ^ 2) (s.a * ((1 - s.e2) * nu s.e2 φ + h) * sin φ) =
      (θ, sin θ, cos θ, sin θ * sin θ) ∧ |φ - θ| ≤ 10 * s.e2 ^ 3 := by
  have ha := hv.1
  have hpi := pi_pos
  have hpi3 : π ≤ 3.15 := pi_lt_d2.le
  have hs0 : 0 ≤ sin φ := sin_nonneg_of_mem_Icc ⟨hφ0, by linarith⟩
  have hc0 : 0 ≤ cos φ := cos_nonneg_of_mem_Icc ⟨by linarith, by linarith⟩
  have hsc := sin_sq_add_cos_sq φ
  have hn0 := nu_pos he0 he φ
  have hn2 := nu_sq he0 he φ
  have hn1 := nu_ge he0 he φ
  have e1 : (Coordinates.make (some s)).a1 = s.a * s.e2 := rfl
  have e2 : (Coordinates.make (some s)).a2 = s.a * s.e2 * (s.a * s.e2) := rfl
  have e3 : (Coordinates.make (some s)).a3 = s.a * s.e2 * (s.e2 * 0.5) := rfl
  have e4 : (Coordinates.make (some s)).a4 = 2.5 * (s.a * s.e2 * (s.a * s.e2)) := rfl
  have e5 : (Coordinates.make (some s)).a5 = s.a * s.e2 + s.a * s.e2 * (s.e2 * 0.5) := rfl
  clear hv
  generalize Coordinates.make (some s) = co at *
  generalize s.a = a at *
  generalize s.e2 = e at *
  generalize nu e φ = n at *
  have hw1 : 89 / 100 ≤ n + h := by linarith
  have hz1 : 89 / 100 ≤ (1 - e) * n + h := by nlinarith only [he, he0, hn1, hh]
  obtain ⟨w, hw⟩ : ∃ x, x = a * (n + h) * cos φ := ⟨_, rfl⟩
  obtain ⟨z, hz⟩ : ∃ x, x = a * ((1 - e) * n + h) * sin φ := ⟨_, rfl⟩
  have hw0 : 0 ≤ w := by rw [hw]; exact mul_nonneg (mul_nonneg ha.le (by linarith)) hc0
  have hz0 : 0 ≤ z := by rw [hz]; exact mul_nonneg (mul_nonneg ha.le (by linarith)) hs0
  obtain ⟨r, hr⟩ : ∃ x, x = √(w ^ 2 + z * z) := ⟨_, rfl⟩
  have hr89 : (89 / 100 * a) ^ 2 ≤ w ^ 2 + z * z := by
    have h1 : (89 / 100 * a * cos φ) ^ 2 ≤ w ^ 2 := by
      rw [hw]
      have : 89 / 100 * a ≤ a * (n + h) := by nlinarith only [ha, hw1]
      gcongr
    have h2 : (89 / 100 * a * sin φ) ^ 2 ≤ z ^ 2 := by
      rw [hz]
      have : 89 / 100 * a ≤ a * ((1 - e) * n + h) := by nlinarith only [ha, hz1]
      gcongr
    have h3 : (89 / 100 * a) ^ 2 = (89 / 100 * a * cos φ) ^ 2 + (89 / 100 * a * sin φ) ^ 2 := by
      linear_combination (-(89 / 100 * a) ^ 2) * hsc
    linarith
  have hra : 89 / 100 * a ≤ r := by rw [hr]; exact Real.le_sqrt_of_sq_le hr89
  have hr0 : 0 < r := by linarith [mul_pos (show (0 : ℝ) < 89 / 100 by norm_num) ha]
  have hr2 : r ^ 2 = w ^ 2 + z * z := by rw [hr, Real.sq_sqrt (by positivity)]
  have hinv : √(1 / (w ^ 2 + z * z)) = 1 / r := by
    rw [← hr2, show 1 / r ^ 2 = (1 / r) ^ 2 by rw [div_pow, one_pow], Real.sqrt_sq (by positivity)]
  obtain ⟨S, hS⟩ : ∃ x, x = z / r := ⟨_, rfl⟩
  obtain ⟨T, hT⟩ : ∃ x, x = w / r := ⟨_, rfl⟩
  obtain ⟨k, hk⟩ : ∃ x, x = a / r := ⟨_, rfl⟩
  have hS0 : 0 ≤ S := by rw [hS]; positivity
  have hT0 : 0 ≤ T := by rw [hT]; positivity
  have hk0 : 0 ≤ k := by rw [hk]; positivity
  have hST : S ^ 2 + T ^ 2 = 1 := by
    rw [hS, hT, div_pow, div_pow, ← add_div, hr2]
    rw [div_eq_one_iff_eq]
    · ring
    · rw [← hr2]; positivity
  have hk9 : k ≤ 9 / 8 := by rw [hk, div_le_iff₀ hr0]; linarith
  obtain ⟨b1, b2, b3, b4⟩ := series e k S T (cos φ * T + sin φ * S) (sin φ * T - cos φ * S) n (sin φ) (cos φ) he0 he hk0 hk9 hST hS0
    hT0 (by linear_combination (sin φ ^ 2 + cos φ ^ 2) * hST + hsc) (by positivity) (by linear_combination (-sin φ) * hST)
    (by linear_combination (-cos φ) * hST) hn0 hn2 (by
      rw [hS, hT, hk, hw, hz]
      field_simp
      ring)
  have he3 : e ^ 3 ≤ 1 / 1000000 := by
    calc e ^ 3 ≤ (1 / 100) ^ 3 := by gcongr
      _ = _ := by norm_num
  have hgs : co.guess (w ^ 2) z = if T ^ 2 > 0.3 then
      let s := S * (1 + T ^ 2 * (e + e ^ 2 * k + S ^ 2 * (e ^ 2 / 2 - 5 / 2 * e ^ 2 * k)) * k)
      (arcsin s, s, √(1 - s * s), s * s)
    else
      let c := T * (1 - S ^ 2 * (e + e ^ 2 / 2 - e ^ 2 * k - T ^ 2 * (e ^ 2 / 2 - 5 / 2 * e ^ 2 * k)) * k)
      (arccos c, √(1 - c * c), c, 1 - c * c) := by
    have t2 : w ^ 2 * (1 / (w ^ 2 + z * z)) = T ^ 2 := by rw [← hr2, hT]; field_simp
    have s2 : z * z * (1 / (w ^ 2 + z * z)) = S ^ 2 := by rw [← hr2, hS]; field_simp
    have k1 : z * (1 / r) = S := by rw [hS]; ring
    have k2 : w * (1 / r) = T := by rw [hT]; ring
    have g1 : S * (1 + T ^ 2 * (a * e + a * e * (a * e) * (1 / r) + S ^ 2 * (a * e * (e * 0.5) - 2.5 * (a * e * (a * e)) * (1 / r))) * (1 / r)) =
        S * (1 + T ^ 2 * (e + e ^ 2 * k + S ^ 2 * (e ^ 2 / 2 - 5 / 2 * e ^ 2 * k)) * k) := by
      rw [hk]; ring
    have g2 : T * (1 - S ^ 2 * (a * e + a * e * (e * 0.5) - a * e * (a * e) * (1 / r) -
          T ^ 2 * (a * e * (e * 0.5) - 2.5 * (a * e * (a * e)) * (1 / r))) * (1 / r)) =
        T * (1 - S ^ 2 * (e + e ^ 2 / 2 - e ^ 2 * k - T ^ 2 * (e ^ 2 / 2 - 5 / 2 * e ^ 2 * k)) * k) := by
      rw [hk]; ring
    unfold Coordinates.guess
    dsimp only
    rw [e1, e2, e3, e4, e5, hinv, t2, s2, Real.sqrt_sq hw0, k1, k2, g1, g2]
  rw [← hw, ← hz, hgs]
  by_cases hb : T ^ 2 > 0.3
  · rw [if_pos hb]
    dsimp only
    obtain ⟨s0, hs0e⟩ : ∃ x, S * (1 + T ^ 2 * (e + e ^ 2 * k + S ^ 2 * (e ^ 2 / 2 - 5 / 2 * e ^ 2 * k)) * k) = x := ⟨_, rfl⟩
    rw [hs0e] at b1 ⊢
    have hSle : S ≤ 84 / 100 := by
      norm_num at hb
      nlinarith only [hb, hST, hS0]
    have hsle : sin φ ≤ 85 / 100 := by linarith [(abs_le.1 b3).2]
    have hs0le : s0 ≤ 86 / 100 := by linarith [(abs_le.1 b1).1]
    have hs00 : 0 ≤ s0 := by
      rw [← hs0e]
      have h1 : e * k ≤ 9 / 800 := by
        calc e * k ≤ 1 / 100 * (9 / 8) := by gcongr
          _ = _ := by norm_num
      have hS1 : S ^ 2 ≤ 1 := by nlinarith only [sq_nonneg T, hST]
      have h2 : 0 ≤ e + e ^ 2 * k + S ^ 2 * (e ^ 2 / 2 - 5 / 2 * e ^ 2 * k) := by
        have h3 : S ^ 2 * (e * k) ≤ 9 / 800 := by nlinarith only [mul_nonneg he0 hk0, hS1, h1]
        have h4 : e + e ^ 2 * k + S ^ 2 * (e ^ 2 / 2 - 5 / 2 * e ^ 2 * k) =
            e * (1 + e * k + S ^ 2 * e / 2 - 5 / 2 * (S ^ 2 * (e * k))) := by ring
        rw [h4]
        have h5 : 0 ≤ S ^ 2 * e / 2 := by positivity
        exact mul_nonneg he0 (by linarith [mul_nonneg he0 hk0])
      positivity
    refine ⟨arcsin s0, ?_, ?_⟩
    · have h1 : sin (arcsin s0) = s0 := sin_arcsin (by linarith) (by linarith)
      rw [h1, cos_arcsin, sq]
    · have h1 : sin (arcsin s0) = s0 := sin_arcsin (by linarith) (by linarith)
      have h2 : 1 / 2 ≤ cos (arcsin s0) := by
        rw [cos_arcsin]
        apply Real.le_sqrt_of_sq_le
        nlinarith only [hs00, hs0le]
      have h3 : 1 / 2 ≤ cos φ := by
        by_contra hcon
        push Not at hcon
        nlinarith only [hcon, hc0, hs0, hsle, hsc]
      have := angle_le_of_sin (arcsin_nonneg.2 hs00) (arcsin_le_pi_div_two s0) hφ0 hφ h2 h3
      rw [h1] at this
      calc _ ≤ π * |sin φ - s0| := this
        _ ≤ 3.15 * (3 * e ^ 3) := by gcongr
        _ ≤ _ := by have : 0 ≤ e ^ 3 := by positivity
                    linarith
  · rw [if_neg hb]
    dsimp only
    obtain ⟨c0, hc0e⟩ : ∃ x, T * (1 - S ^ 2 * (e + e ^ 2 / 2 - e ^ 2 * k - T ^ 2 * (e ^ 2 / 2 - 5 / 2 * e ^ 2 * k)) * k) = x := ⟨_, rfl⟩
    rw [hc0e] at b2 ⊢
    push Not at hb
    have hTle : T ≤ 55 / 100 := by
      norm_num at hb
      nlinarith only [hb, hT0]
    have hcle : cos φ ≤ 56 / 100 := by linarith [(abs_le.1 b4).2]
    have hc0le : c0 ≤ 57 / 100 := by linarith [(abs_le.1 b2).1]
    have hc00 : 0 ≤ c0 := by
      rw [← hc0e]
      have h1 : e * k ≤ 9 / 800 := by
        calc e * k ≤ 1 / 100 * (9 / 8) := by gcongr
          _ = _ := by norm_num
      have hS1 : S ^ 2 ≤ 1 := by nlinarith only [sq_nonneg T, hST]
      have hT1 : T ^ 2 ≤ 1 := by nlinarith only [sq_nonneg S, hST]
      have hek0 := mul_nonneg he0 hk0
      have h4 : (e + e ^ 2 / 2 - e ^ 2 * k - T ^ 2 * (e ^ 2 / 2 - 5 / 2 * e ^ 2 * k)) * k ≤ 1 := by
        have h5 : (e + e ^ 2 / 2 - e ^ 2 * k - T ^ 2 * (e ^ 2 / 2 - 5 / 2 * e ^ 2 * k)) * k =
            (e * k) * (1 + e / 2 - e * k - T ^ 2 * e / 2 + 5 / 2 * (T ^ 2 * (e * k))) := by ring
        have h6 : T ^ 2 * (e * k) ≤ 9 / 800 := by nlinarith only [hek0, hT1, h1]
        have h7 : 0 ≤ T ^ 2 * e / 2 := by positivity
        rw [h5]
        calc _ ≤ e * k * 2 := by gcongr; linarith
          _ ≤ _ := by linarith
      have h8 : S ^ 2 * ((e + e ^ 2 / 2 - e ^ 2 * k - T ^ 2 * (e ^ 2 / 2 - 5 / 2 * e ^ 2 * k)) * k) ≤ 1 := by
        nlinarith only [sq_nonneg S, hS1, h4]
      rw [← mul_assoc] at h8
      exact mul_nonneg hT0 (by linarith)
    have h1 : cos (arccos c0) = c0 := cos_arccos (by linarith) (by linarith)
    refine ⟨arccos c0, ?_, ?_⟩
    · rw [h1, sin_arccos, ← sq, ← sq, Real.sq_sqrt]
      nlinarith only [hc00, hc0le]
    · have h2 : 1 / 2 ≤ sin (arccos c0) := by
        rw [sin_arccos]
        apply Real.le_sqrt_of_sq_le
        nlinarith only [hc00, hc0le]
      have h3 : 1 / 2 ≤ sin φ := by
        by_contra hcon
        push Not at hcon
        nlinarith only [hcon, hc0, hs0, hcle, hsc]
      have := angle_le_of_cos (arccos_nonneg c0) (arccos_le_pi_div_two.2 hc00) hφ0 hφ h2 h3
      rw [h1] at this
      calc _ ≤ π * |cos φ - c0| := this
        _ ≤ 3.15 * (3 * e ^ 3) := by gcongr
        _ ≤ _ := by have : 0 ≤ e ^ 3 := by positivity
                    linarith

set_option maxHeartbeats 1000000 in
/-- The correction brings it within `200 e2⁷`, and the altitude within `3000 (a + |alt|) e2¹⁰`. -/
theorem correct_bound (s : Spheroid) (hv : s.Valid) (he0 : 0 ≤ s.e2) (he : s.e2 ≤ 1 / 100) (φ θ h : ℝ) (hh : -1 / 10 ≤ h)
    (hθ : |φ - θ| ≤ 10 * s.e2 ^ 3) :
    let r := (Coordinates.make (some s)).correct (s.a * (nu s.e2 φ + h) * cos φ) (s.a * ((1 - s.e2) * nu s.e2 φ + h) * sin φ)
      (θ, sin θ, cos θ, sin θ * sin θ)
    |r.1 - φ| ≤ 200 * s.e2 ^ 7 ∧ |r.2 - s.a * h| ≤ 3000 * (s.a + |s.a * h|) * s.e2 ^ 10 := by
  have ha := hv.1
  have f1 : (Coordinates.make (some s)).a = s.a := rfl
  have f2 : (Coordinates.make (some s)).e2 = s.e2 := rfl
  have f3 : (Coordinates.make (some s)).a6 = 1 - s.e2 := rfl
  intro r
  have hr : r = (Coordinates.make (some s)).correct (s.a * (nu s.e2 φ + h) * cos φ) (s.a * ((1 - s.e2) * nu s.e2 φ + h) * sin φ)
      (θ, sin θ, cos θ, sin θ * sin θ) := rfl
  clear_value r
  unfold Coordinates.correct at hr
  dsimp only at hr
  rw [f1, f2, f3] at hr
  generalize s.a = a at *
  generalize s.e2 = e at *
  have hδ : |φ - θ| ≤ e / 1000 := by
    refine hθ.trans ?_
    have h1 : e ^ 2 ≤ (1 / 100) ^ 2 := by gcongr
    have h2 : 10 * e ^ 3 = e * (10 * e ^ 2) := by ring
    rw [h2]
    nlinarith only [h1, he0]
  obtain ⟨m, hm⟩ : ∃ x, x = cos θ * (Z e φ + h * sin φ - Z e θ) - sin θ * (X e φ + h * cos φ - X e θ) := ⟨_, rfl⟩
  obtain ⟨f, hf⟩ : ∃ x, x = cos θ * (X e φ + h * cos φ - X e θ) + sin θ * (Z e φ + h * sin φ - Z e θ) := ⟨_, rfl⟩
  obtain ⟨p, hp⟩ : ∃ x, x = m / (mu e θ + f) := ⟨_, rfl⟩
  obtain ⟨b1, b2⟩ := step he0 he θ φ h hh hδ m f p hm hf hp
  have hg := g_ge he0 he θ
  have hrg : a / √(1 - e * (sin θ * sin θ)) = a * nu e θ := by unfold nu; rw [← sq, mul_one_div]
  have hrf : (1 - e) * (a * nu e θ) / (1 - e * (sin θ * sin θ)) = a * mu e θ := by
    have h1 := nu_sq he0 he θ
    rw [← sq, div_eq_iff (by linarith)]
    unfold mu
    linear_combination (-((1 - e) * a * nu e θ)) * h1
  have hF : cos θ * (a * (nu e φ + h) * cos φ - a * nu e θ * cos θ) +
      sin θ * (a * ((1 - e) * nu e φ + h) * sin φ - (1 - e) * (a * nu e θ) * sin θ) = a * f := by
    rw [hf]; unfold X Z; ring
  have hM : cos θ * (a * ((1 - e) * nu e φ + h) * sin φ - (1 - e) * (a * nu e θ) * sin θ) -
      sin θ * (a * (nu e φ + h) * cos φ - a * nu e θ * cos θ) = a * m := by
    rw [hm]; unfold X Z; ring
  rw [hrg, hrf, hF, hM] at hr
  have hP : a * m / (a * mu e θ + a * f) = p := by
    rw [hp, ← mul_add, mul_div_mul_left _ _ ha.ne']
  rw [hP] at hr
  have hsq : (φ - θ) ^ 2 ≤ 100 * e ^ 6 := by
    rw [← sq_abs]
    calc |φ - θ| ^ 2 ≤ (10 * e ^ 3) ^ 2 := by gcongr
      _ = _ := by ring
  have hcu : |φ - θ| ^ 3 ≤ 1000 * e ^ 9 := by
    calc |φ - θ| ^ 3 ≤ (10 * e ^ 3) ^ 3 := by gcongr
      _ = _ := by ring
  rw [hr]
  dsimp only
  constructor
  · calc |θ + p - φ| = |p - (φ - θ)| := by congr 1; ring
      _ ≤ 2 * e * (φ - θ) ^ 2 := b1
      _ ≤ 2 * e * (100 * e ^ 6) := by gcongr
      _ = _ := by ring
  · calc |a * f + a * m * p * 0.5 - a * h| = a * |f + m * p / 2 - h| := by
          rw [← abs_of_pos ha, ← abs_mul, abs_of_pos ha]; congr 1; ring
      _ ≤ a * (3 * (1 + |h|) * e * |φ - θ| ^ 3) := by gcongr
      _ ≤ a * (3 * (1 + |h|) * e * (1000 * e ^ 9)) := by gcongr
      _ = _ := by rw [abs_mul, abs_of_pos ha]; ring

/-- **C72** For every spheroid of which the square of the eccentricity is at most 1/100, at every longitude, at every
latitude from pole to pole and at every altitude above a tenth of the semi-major axis below the surface, converting to
Cartesian coordinates and back gives the latitude within `200 e2⁷` radians and the altitude within
`3000 (a + |alt|) e2¹⁰`. -/
theorem C72_accuracy (bits : Nat) (hb : 3 ≤ bits) (s : Spheroid) (h : s.Valid) (hf : 0 ≤ s.f) (he : s.e2 ≤ 1 / 100) (p : LLA)
    (h1 : -90 ≤ p.lat) (h2 : p.lat ≤ 90) (halt : -s.a / 10 ≤ p.alt) :
    let q := (Coordinates.make (some s)).ecefToLla ((Coordinates.make (some s)).llaToEcef bits p)
    |q.lat - p.lat| * π / 180 ≤ 200 * s.e2 ^ 7 ∧ |q.alt - p.alt| ≤ 3000 * (s.a + |p.alt|) * s.e2 ^ 10 := by
  have hpi := pi_pos
  have ha := h.1
  have he0 : 0 ≤ s.e2 := by rw [Spheroid.e2_eq h]; nlinarith [h.2]
  obtain ⟨φ, hφ⟩ : ∃ x, x = |p.lat| * π / 180 := ⟨_, rfl⟩
  obtain ⟨η, hη⟩ : ∃ x, x = p.alt / s.a := ⟨_, rfl⟩
  have hal : p.alt = s.a * η := by rw [hη]; field_simp
  have hη1 : -1 / 10 ≤ η := by rw [hη, le_div_iff₀ ha]; linarith
  have habs : |p.lat| ≤ 90 := abs_le.2 ⟨h1, h2⟩
  have hφ0 : 0 ≤ φ := by rw [hφ]; positivity
  have hφ1 : φ ≤ π / 2 := by rw [hφ]; nlinarith
  have hcabs : cos (p.lat * π / 180) = cos φ := by
    rw [hφ]
    rcases abs_cases p.lat with ⟨e, -⟩ | ⟨e, -⟩ <;> rw [e]
    rw [show -p.lat * π / 180 = -(p.lat * π / 180) by ring, cos_neg]
  have hsn : 0 ≤ sin φ := sin_nonneg_of_mem_Icc ⟨hφ0, by linarith⟩
  have hsabs : |sin (p.lat * π / 180)| = sin φ := by
    rw [hφ] at hsn ⊢
    rcases abs_cases p.lat with ⟨e, -⟩ | ⟨e, -⟩ <;> rw [e] at hsn ⊢
    · exact abs_of_nonneg hsn
    · rw [show -p.lat * π / 180 = -(p.lat * π / 180) by ring, sin_neg] at hsn ⊢
      exact abs_of_nonpos (by linarith)
  have hN : normalRadius s p.lat = s.a * nu s.e2 φ := by
    unfold normalRadius nu
    rw [← abs_mul_abs_self, hsabs, ← sq, mul_one_div]
  have hn1 := nu_ge he0 he φ
  have hz : 0 < normalRadius s p.lat * (1 - s.e2) + p.alt := by
    rw [hN, hal]
    have : 0 < nu s.e2 φ * (1 - s.e2) + η := by nlinarith
    calc 0 < s.a * (nu s.e2 φ * (1 - s.e2) + η) := mul_pos ha this
      _ = _ := by ring
  have hw : 0 ≤ normalRadius s p.lat + p.alt := by
    rw [hN, hal]
    have : 0 < nu s.e2 φ + η := by linarith
    calc 0 ≤ s.a * (nu s.e2 φ + η) := (mul_pos ha this).le
      _ = _ := by ring
  have hc : 0 ≤ cos φ := cos_nonneg_of_mem_Icc ⟨by linarith, by linarith⟩
  have hw2 := ecef_w2 bits hb s p
  dsimp only at hw2
  have hzz : ((Coordinates.make (some s)).llaToEcef bits p).z =
      (normalRadius s p.lat * (1 - s.e2) + p.alt) * sin (p.lat * π / 180) := by rw [llaToEcef_eq bits hb]
  obtain ⟨θ, hg, hθ⟩ := guess_bound s h he0 he φ η hφ0 hφ1 hη1
  have hcorr := correct_bound s h he0 he φ θ η hη1 hθ
  dsimp only at hcorr
  have hwe : (normalRadius s p.lat + p.alt) * cos (p.lat * π / 180) = s.a * (nu s.e2 φ + η) * cos φ := by
    rw [hN, hal, hcabs]; ring
  have hze : (normalRadius s p.lat * (1 - s.e2) + p.alt) * sin φ = s.a * ((1 - s.e2) * nu s.e2 φ + η) * sin φ := by
    rw [hN, hal]; ring
  intro q
  have hq : q = (Coordinates.make (some s)).ecefToLla ((Coordinates.make (some s)).llaToEcef bits p) := rfl
  clear_value q
  unfold Coordinates.ecefToLla at hq
  dsimp only at hq
  rw [hw2, hzz, abs_mul, abs_of_pos hz, hsabs, Real.sqrt_sq (mul_nonneg hw (by rw [hcabs]; exact hc)), hwe, hze, hg] at hq
  generalize (Coordinates.make (some s)).correct _ _ _ = r at hq hcorr
  rw [hq]
  dsimp only
  refine ⟨?_, ?_⟩
  · refine le_trans (le_of_eq ?_) hcorr.1
    have hneg : (normalRadius s p.lat * (1 - s.e2) + p.alt) * sin (p.lat * π / 180) < 0 ↔ p.lat < 0 := by
      constructor
      · intro hlt
        by_contra hcon
        push Not at hcon
        have : 0 ≤ sin (p.lat * π / 180) := by
          apply sin_nonneg_of_mem_Icc
          constructor
          · positivity
          · linarith [mul_nonneg hpi.le (show 0 ≤ 90 - p.lat by linarith)]
        have := mul_nonneg hz.le this
        linarith
      · intro hlt
        apply mul_neg_of_pos_of_neg hz
        apply sin_neg_of_neg_of_neg_pi_lt
        · have := mul_pos hpi (show 0 < -p.lat by linarith); linarith
        · linarith [mul_nonneg hpi.le (show 0 ≤ p.lat + 90 by linarith)]
    have hd : ∀ x y : ℝ, |degrees x - y| * π / 180 = |x - y * π / 180| := fun x y => by
      rw [mul_div_assoc, ← abs_of_pos (show 0 < π / 180 by positivity), ← abs_mul]
      congr 1
      unfold degrees
      field_simp
    rw [hd]
    by_cases hl : p.lat < 0
    · rw [if_pos (hneg.2 hl), hφ, abs_of_neg hl, ← abs_neg]
      congr 1; ring
    · rw [if_neg (fun hc => hl (hneg.1 hc)), hφ, abs_of_nonneg (not_lt.1 hl)]
  · rw [hal]
    exact hcorr.2

/-- **C72** `transform`: if `q` are coordinates in the target system of the point that `p` designates in the source system,
the result is the longitude of `q` and its latitude and altitude within the same bounds. -/
theorem C72_transform (bits : Nat) (hb : 3 ≤ bits) (source : Coordinates) (t : Spheroid) (h : t.Valid) (hf : 0 ≤ t.f)
    (he : t.e2 ≤ 1 / 100) (p q : LLA) (hpq : source.llaToEcef bits p = (Coordinates.make (some t)).llaToEcef bits q)
    (h1 : -90 < q.lat) (h2 : q.lat < 90) (h3 : -180 < q.lon) (h4 : q.lon ≤ 180) (halt : -t.a / 10 ≤ q.alt) :
    let r := source.transform bits (Coordinates.make (some t)) p
    r.lon = q.lon ∧ |r.lat - q.lat| * π / 180 ≤ 200 * t.e2 ^ 7 ∧ |r.alt - q.alt| ≤ 3000 * (t.a + |q.alt|) * t.e2 ^ 10 := by
  dsimp only
  unfold Coordinates.transform
  rw [hpq]
  have ha := h.1
  exact ⟨C72_longitude bits hb t h hf q h1 h2 h3 h4 (by linarith), C72_accuracy bits hb t h hf he q h1.le h2.le halt⟩

/-- For WGS84: the latitude within a tenth of a picoradian, the altitude within a nanometre up to 100 000 km. -/
theorem C72_wgs84 (bits : Nat) (hb : 3 ≤ bits) (p : LLA) (h1 : -90 ≤ p.lat) (h2 : p.lat ≤ 90) (h3 : -600000 ≤ p.alt)
    (h4 : p.alt ≤ 100000000) :
    let q := (Coordinates.make none).ecefToLla ((Coordinates.make none).llaToEcef bits p)
    |q.lat - p.lat| * π / 180 ≤ 1 / 10 ^ 12 ∧ |q.alt - p.alt| ≤ 1 / 10 ^ 9 := by
  have hv : Spheroid.wgs84.Valid := by simp only [Spheroid.Valid, Spheroid.wgs84]; norm_num
  have he2 : Spheroid.wgs84.e2 ≤ 67 / 10000 := by
    rw [Spheroid.e2_eq hv]; simp only [Spheroid.wgs84]; norm_num
  have hf : 0 ≤ Spheroid.wgs84.f := by simp only [Spheroid.wgs84]; norm_num
  have he0 : 0 ≤ Spheroid.wgs84.e2 := by
    rw [Spheroid.e2_eq hv]; simp only [Spheroid.wgs84]; norm_num
  have ha : Spheroid.wgs84.a = 6378137 := rfl
  have hn : Coordinates.make none = Coordinates.make (some Spheroid.wgs84) := rfl
  rw [hn]
  obtain ⟨b1, b2⟩ := C72_accuracy bits hb Spheroid.wgs84 hv hf (he2.trans (by norm_num)) p h1 h2 (by rw [ha]; linarith)
  refine ⟨b1.trans ?_, b2.trans ?_⟩
  · calc 200 * Spheroid.wgs84.e2 ^ 7 ≤ 200 * (67 / 10000) ^ 7 := by gcongr
      _ ≤ _ := by norm_num
  · have : |p.alt| ≤ 100000000 := abs_le.2 ⟨by linarith, h4⟩
    rw [ha]
    calc 3000 * (6378137 + |p.alt|) * Spheroid.wgs84.e2 ^ 10 ≤ 3000 * (6378137 + 100000000) * (67 / 10000) ^ 10 := by gcongr
      _ ≤ _ := by norm_num

/-- A satellite at 1336 km. -/
example : let q := (Coordinates.make none).ecefToLla ((Coordinates.make none).llaToEcef 3 ⟨12, -45, 1336000⟩)
    |q.lat - (-45)| * π / 180 ≤ 1 / 10 ^ 12 ∧ |q.alt - 1336000| ≤ 1 / 10 ^ 9 :=
  C72_wgs84 3 le_rfl ⟨12, -45, 1336000⟩ (by norm_num) (by norm_num) (by norm_num) (by norm_num)

end Pyinterp.Geodetic
