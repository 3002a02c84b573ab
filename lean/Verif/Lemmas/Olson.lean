import Mathlib.Analysis.SpecialFunctions.Trigonometric.Inverse
import Mathlib.Tactic

/-
The first approximation of the latitude of Olson's method (detail/geodetic/coordinates.hpp:66-95): a series of the
second order in the square `e` of the eccentricity. The error is at most `3 e³`.
-/
namespace Pyinterp.Olson

/-- A product of bounded factors is bounded. -/
theorem abs_mul_le_of_le {x y a b : ℝ} (hx : |x| ≤ a) (hy : |y| ≤ b) : |x * y| ≤ a * b := by
  rw [abs_mul]
  exact mul_le_mul hx hy (abs_nonneg _) ((abs_nonneg _).trans hx)

theorem abs_add_le_of_le {x y a b : ℝ} (hx : |x| ≤ a) (hy : |y| ≤ b) : |x + y| ≤ a + b :=
  (abs_add_le x y).trans (add_le_add hx hy)

theorem abs_neg_le_of_le {x a : ℝ} (hx : |x| ≤ a) : |-x| ≤ a := by rwa [abs_neg]

theorem abs_sub_le_of_le {x y a b : ℝ} (hx : |x| ≤ a) (hy : |y| ≤ b) : |x - y| ≤ a + b := by
  rw [sub_eq_add_neg]
  exact abs_add_le_of_le hx (by rwa [abs_neg])

set_option maxHeartbeats 1000000 in
/-- `S`, `T` are the sine and cosine of the geocentric latitude, `s`, `c` those of the geodetic latitude, `D`, `C` those
of their difference, `k` is the quotient of the semi-major axis by the distance to the centre and `n` that of the
radius of curvature in the prime vertical by the semi-major axis. -/
theorem series (e k S T C D n s c : ℝ) (he0 : 0 ≤ e) (he : e ≤ 1 / 100) (hk0 : 0 ≤ k) (hk : k ≤ 9 / 8)
    (hST : S ^ 2 + T ^ 2 = 1) (hS : 0 ≤ S) (hT : 0 ≤ T) (hCD : C ^ 2 + D ^ 2 = 1) (hC : 0 ≤ C)
    (hs : s = S * C + T * D) (hc : c = T * C - S * D) (hn0 : 0 < n) (hn : n ^ 2 * (1 - e * s ^ 2) = 1)
    (hD0 : D = e * (k * n * (s * c))) :
    |s - S * (1 + T ^ 2 * (e + e ^ 2 * k + S ^ 2 * (e ^ 2 / 2 - 5 / 2 * e ^ 2 * k)) * k)| ≤ 3 * e ^ 3 ∧
    |c - T * (1 - S ^ 2 * (e + e ^ 2 / 2 - e ^ 2 * k - T ^ 2 * (e ^ 2 / 2 - 5 / 2 * e ^ 2 * k)) * k)| ≤ 3 * e ^ 3 ∧
    |s - S| ≤ 3 / 5 * e ∧ |c - T| ≤ 3 / 5 * e := by
  have hsc : s ^ 2 + c ^ 2 = 1 := by rw [hs, hc]; linear_combination (S ^ 2 + T ^ 2) * hCD + hST
  have hs1 : s ^ 2 ≤ 1 := by nlinarith [sq_nonneg c]
  have aS : |S| ≤ 1 := abs_le.2 ⟨by linarith, by nlinarith [sq_nonneg T]⟩
  have aT : |T| ≤ 1 := abs_le.2 ⟨by linarith, by nlinarith [sq_nonneg S]⟩
  have ae : |e| ≤ 1 / 100 := by rw [abs_of_nonneg he0]; exact he
  have ak : |k| ≤ 9 / 8 := by rw [abs_of_nonneg hk0]; exact hk
  have asc : |s * c| ≤ 1 / 2 := abs_le.2 ⟨by nlinarith [sq_nonneg (s + c)], by nlinarith [sq_nonneg (s - c)]⟩
  have aST : |S * T| ≤ 1 / 2 := abs_le.2 ⟨by nlinarith [sq_nonneg (S + T)], by nlinarith [sq_nonneg (S - T)]⟩
  have aS2 : |S ^ 2 / 2| ≤ 1 / 2 := abs_le.2 ⟨by nlinarith [sq_nonneg S], by nlinarith [sq_nonneg T]⟩
  have aTS : |T ^ 2 - S ^ 2| ≤ 1 := abs_le.2 ⟨by nlinarith [sq_nonneg T], by nlinarith [sq_nonneg S]⟩
  have hn2 : n ^ 2 ≤ 100 / 99 := by
    have h1 : 99 / 100 ≤ 1 - e * s ^ 2 := by nlinarith [sq_nonneg s]
    have h2 : n ^ 2 * (99 / 100) ≤ n ^ 2 * (1 - e * s ^ 2) := mul_le_mul_of_nonneg_left h1 (sq_nonneg n)
    linarith
  have hn1 : 1 ≤ n := by
    have h1 : n ^ 2 * (e * s ^ 2) ≥ 0 := by positivity
    have h2 : 1 ≤ n ^ 2 := by linarith
    by_contra h3
    push Not at h3
    nlinarith only [h2, h3, hn0]
  have hn3 : n ≤ 1006 / 1000 := by
    by_contra h3
    push Not at h3
    nlinarith only [hn2, h3]
  obtain ⟨d, hd⟩ : ∃ x, x = k * n * (s * c) := ⟨_, rfl⟩
  have hD : D = e * d := by rw [hd]; exact hD0
  have ad : |d| ≤ 57 / 100 := by
    rw [hd]
    have h1 : |k * n| ≤ 9 / 8 * (1006 / 1000) := abs_mul_le_of_le ak (by rw [abs_of_pos hn0]; exact hn3)
    exact (abs_mul_le_of_le h1 asc).trans (by norm_num)
  have hC1 : C ≤ 1 := by nlinarith [sq_nonneg D]
  have hC9 : 99 / 100 ≤ C := by
    have : |D| ≤ 1 / 100 := by rw [hD]; exact (abs_mul_le_of_le ae ad).trans (by norm_num)
    have h2 := abs_le.1 this
    nlinarith
  obtain ⟨q, hq⟩ : ∃ x, x = d ^ 2 / (1 + C) := ⟨_, rfl⟩
  have hCq : C = 1 - e ^ 2 * q := by
    have : e ^ 2 * d ^ 2 = (1 - C) * (1 + C) := by rw [hD] at hCD; linarith
    rw [hq]; field_simp; linarith
  have hq2 : q = d ^ 2 / 2 + e ^ 2 * (q ^ 2 / 2) := by
    have h1 : q * (1 + C) = d ^ 2 := by rw [hq]; field_simp
    rw [hCq] at h1; linarith
  have aq : |q| ≤ 1 / 6 := by
    have : 0 ≤ q := by rw [hq]; positivity
    rw [abs_of_nonneg this, hq, div_le_iff₀ (by linarith)]
    have := abs_le.1 ad
    nlinarith
  obtain ⟨v, hv⟩ : ∃ x, x = s ^ 2 * n ^ 2 / (n + 1) := ⟨_, rfl⟩
  have hnv : n = 1 + e * v := by
    rw [hv]; field_simp; linarith
  have av0 : 0 ≤ v := by rw [hv]; positivity
  have av : |v| ≤ 51 / 100 := by
    rw [abs_of_nonneg av0, hv, div_le_iff₀ (by linarith)]
    nlinarith [sq_nonneg s, mul_nonneg (sq_nonneg s) (sq_nonneg n)]
  obtain ⟨v', hv'⟩ : ∃ x, x = v * (s ^ 2 * (2 * n + 1) / (2 * (n + 1))) := ⟨_, rfl⟩
  have hvv : v = s ^ 2 / 2 + e * v' := by
    have h1 : v * (n + 1) = s ^ 2 * n ^ 2 := by rw [hv]; field_simp
    have h2 : e * v = n - 1 := by linarith
    rw [hv', ← mul_assoc, h2, hv]; field_simp; ring
  have av' : |v'| ≤ 39 / 100 := by
    rw [hv']
    have : |s ^ 2 * (2 * n + 1) / (2 * (n + 1))| ≤ 76 / 100 := by
      rw [abs_of_nonneg (by positivity), div_le_iff₀ (by linarith)]
      nlinarith [sq_nonneg s]
    exact (abs_mul_le_of_le av this).trans (by norm_num)
  obtain ⟨σ, hσ⟩ : ∃ x, x = T * d - e * (S * q) := ⟨_, rfl⟩
  have aσ : |σ| ≤ 58 / 100 := by
    rw [hσ]
    exact (abs_sub_le_of_le (abs_mul_le_of_le aT ad) (abs_mul_le_of_le ae (abs_mul_le_of_le aS aq))).trans (by norm_num)
  have hsσ : s = S + e * σ := by rw [hs, hσ, hCq, hD]; ring
  obtain ⟨σc, hσc⟩ : ∃ x, x = -(S * d) - e * (T * q) := ⟨_, rfl⟩
  have aσc : |σc| ≤ 58 / 100 := by
    rw [hσc]
    exact (abs_sub_le_of_le (abs_neg_le_of_le (abs_mul_le_of_le aS ad))
      (abs_mul_le_of_le ae (abs_mul_le_of_le aT aq))).trans (by norm_num)
  have hcσ : c = T + e * σc := by rw [hc, hσc, hCq, hD]; ring
  obtain ⟨y, hy⟩ : ∃ x, x = -(2 * (d * d) * (S * T)) - e * (q * d * (T ^ 2 - S ^ 2)) := ⟨_, rfl⟩
  have ay : |y| ≤ 33 / 100 := by
    rw [hy]
    have h1 : |2 * (d * d) * (S * T)| ≤ 2 * (57 / 100 * (57 / 100)) * (1 / 2) :=
      abs_mul_le_of_le (abs_mul_le_of_le (by norm_num) (abs_mul_le_of_le ad ad)) aST
    have h2 := abs_mul_le_of_le ae (abs_mul_le_of_le (abs_mul_le_of_le aq ad) aTS)
    exact (abs_sub_le_of_le (abs_neg_le_of_le h1) h2).trans (by norm_num)
  have hscy : s * c = S * T + e * (d * (T ^ 2 - S ^ 2)) + e ^ 2 * y := by
    have h1 : s * c = S * T * (C ^ 2 - D ^ 2) + C * D * (T ^ 2 - S ^ 2) := by rw [hs, hc]; ring
    have h2 : C ^ 2 - D ^ 2 = 1 - 2 * (e ^ 2 * d ^ 2) := by
      have : D ^ 2 = e ^ 2 * d ^ 2 := by rw [hD]; ring
      linarith
    have h3 : C * D = e * d - e ^ 3 * (q * d) := by rw [hD]; nth_rewrite 1 [hCq]; ring
    rw [h1, h2, h3, hy]; ring
  obtain ⟨d1, hd1⟩ : ∃ x, x = k * (d * (T ^ 2 - S ^ 2) + e * y + v * (s * c)) := ⟨_, rfl⟩
  have ad1 : |d1| ≤ 94 / 100 := by
    rw [hd1]
    have := abs_mul_le_of_le ak (abs_add_le_of_le (abs_add_le_of_le (abs_mul_le_of_le ad aTS) (abs_mul_le_of_le ae ay))
      (abs_mul_le_of_le av asc))
    exact this.trans (by norm_num)
  have hdd1 : d = k * (S * T) + e * d1 := by
    have : d = k * (1 + e * v) * (s * c) := by rw [← hnv]; exact hd
    rw [hd1]
    nth_rewrite 1 [this]
    linear_combination k * hscy
  obtain ⟨d2, hd2⟩ : ∃ x, x = k * (d1 * (T ^ 2 - S ^ 2) + y + (σ * (2 * S + e * σ) / 2 + v') * (s * c) +
    S ^ 2 / 2 * (d * (T ^ 2 - S ^ 2) + e * y)) := ⟨_, rfl⟩
  have ad2 : |d2| ≤ 23 / 10 := by
    rw [hd2]
    have h1 : |σ * (2 * S + e * σ) / 2| ≤ 58 / 100 * (2 + 1 / 100) / 2 := by
      rw [abs_div, abs_two]
      gcongr
      apply abs_mul_le_of_le aσ
      exact (abs_add_le_of_le (abs_mul_le_of_le (by norm_num : |(2 : ℝ)| ≤ 2) aS) (abs_mul_le_of_le ae aσ)).trans
        (by norm_num)
    have h2 := abs_mul_le_of_le (abs_add_le_of_le h1 av') asc
    have h3 := abs_mul_le_of_le aS2 (abs_add_le_of_le (abs_mul_le_of_le ad aTS) (abs_mul_le_of_le ae ay))
    have := abs_mul_le_of_le ak (abs_add_le_of_le (abs_add_le_of_le (abs_add_le_of_le (abs_mul_le_of_le ad1 aTS) ay) h2) h3)
    exact this.trans (by norm_num)
  have hd1d2 : d1 = k * (k * (S * T) * (T ^ 2 - S ^ 2) + S ^ 2 / 2 * (S * T)) + e * d2 := by
    have h1 : s ^ 2 = S ^ 2 + e * (σ * (2 * S + e * σ)) := by rw [hsσ]; ring
    have h2 : v * (s * c) = S ^ 2 / 2 * (S * T) + e * (S ^ 2 / 2 * (d * (T ^ 2 - S ^ 2) + e * y) +
        (σ * (2 * S + e * σ) / 2 + v') * (s * c)) := by
      rw [hvv, h1]
      linear_combination (S ^ 2 / 2) * hscy
    have h3 : d * (T ^ 2 - S ^ 2) = k * (S * T) * (T ^ 2 - S ^ 2) + e * (d1 * (T ^ 2 - S ^ 2)) := by
      nth_rewrite 1 [hdd1]; ring
    rw [hd2]
    nth_rewrite 1 [hd1]
    linear_combination k * h2 + k * h3
  have he3 : 0 ≤ e ^ 3 := by positivity
  have akST : |k * (S * T)| ≤ 9 / 16 := (abs_mul_le_of_le ak aST).trans (by norm_num)
  have aR : |d1 * (k * (S * T) + d) / 2 + e * (q * q / 2)| ≤ 55 / 100 := by
    have h1 : |d1 * (k * (S * T) + d) / 2| ≤ 94 / 100 * (9 / 16 + 57 / 100) / 2 := by
      rw [abs_div, abs_two]
      gcongr
      exact abs_mul_le_of_le ad1 (abs_add_le_of_le akST ad)
    have h2 : |q * q / 2| ≤ 1 / 6 * (1 / 6) / 2 := by
      rw [abs_div, abs_two]
      gcongr
      exact abs_mul_le_of_le aq aq
    exact (abs_add_le_of_le h1 (abs_mul_le_of_le ae h2)).trans (by norm_num)
  have hqR : e ^ 2 * q = e ^ 2 * (k ^ 2 * S ^ 2 * T ^ 2 / 2) + e ^ 3 * (d1 * (k * (S * T) + d) / 2 + e * (q * q / 2)) := by
    have h1 : d ^ 2 = k ^ 2 * S ^ 2 * T ^ 2 + e * (d1 * (k * (S * T) + d)) := by
      have : d ^ 2 - (k * (S * T)) ^ 2 = (d - k * (S * T)) * (k * (S * T) + d) := by ring
      have h2 : d - k * (S * T) = e * d1 := by linarith
      rw [h2] at this
      linarith
    nth_rewrite 1 [hq2]
    rw [h1]; ring
  have hed : e * d = e * (k * (S * T)) + e ^ 2 * (k * (k * (S * T) * (T ^ 2 - S ^ 2) + S ^ 2 / 2 * (S * T))) + e ^ 3 * d2 := by
    linear_combination e * hdd1 + e ^ 2 * hd1d2
  refine ⟨?_, ?_, ?_, ?_⟩
  · have : s - S * (1 + T ^ 2 * (e + e ^ 2 * k + S ^ 2 * (e ^ 2 / 2 - 5 / 2 * e ^ 2 * k)) * k) =
        (T * d2 - S * (d1 * (k * (S * T) + d) / 2 + e * (q * q / 2))) * e ^ 3 := by
      have h1 : s = S - S * (e ^ 2 * q) + T * (e * d) := by rw [hsσ, hσ]; ring
      rw [h1, hqR, hed]
      linear_combination (e ^ 2 * k ^ 2 * S * T ^ 2) * hST
    rw [this, abs_mul, abs_of_nonneg he3]
    gcongr
    exact (abs_sub_le_of_le (abs_mul_le_of_le aT ad2) (abs_mul_le_of_le aS aR)).trans (by norm_num)
  · have : c - T * (1 - S ^ 2 * (e + e ^ 2 / 2 - e ^ 2 * k - T ^ 2 * (e ^ 2 / 2 - 5 / 2 * e ^ 2 * k)) * k) =
        (-(S * d2) - T * (d1 * (k * (S * T) + d) / 2 + e * (q * q / 2))) * e ^ 3 := by
      have h1 : c = T - T * (e ^ 2 * q) - S * (e * d) := by rw [hcσ, hσc]; ring
      rw [h1, hqR, hed]
      linear_combination (e ^ 2 * k ^ 2 * S ^ 2 * T - e ^ 2 * k * S ^ 2 * T / 2) * hST
    rw [this, abs_mul, abs_of_nonneg he3]
    gcongr
    exact (abs_sub_le_of_le (abs_neg_le_of_le (abs_mul_le_of_le aS ad2)) (abs_mul_le_of_le aT aR)).trans (by norm_num)
  · rw [hsσ, add_sub_cancel_left, abs_mul, abs_of_nonneg he0, mul_comm]
    gcongr
    exact aσ.trans (by norm_num)
  · rw [hcσ, add_sub_cancel_left, abs_mul, abs_of_nonneg he0, mul_comm]
    gcongr
    exact aσc.trans (by norm_num)

end Pyinterp.Olson
