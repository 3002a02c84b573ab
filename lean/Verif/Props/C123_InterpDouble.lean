import Verif.Lemmas.DoubleInterp
import Verif.Props.C122_AxisDouble

/-
C123: linear and bilinear interpolation, and the interpolation of a grid on regular axes, with the rounding of every operation.
-/
namespace Pyinterp.Double

open Spec

theorem mul_one_double {q : ℚ} (h : IsDouble q) : mul 1 q = q := by unfold mul; rw [one_mul, fl_double h]

theorem mul_zero_any (q : ℚ) : mul 0 q = 0 := by unfold mul; rw [zero_mul, fl_zero]

theorem mul_any_zero (q : ℚ) : mul q 0 = 0 := by unfold mul; rw [mul_zero, fl_zero]

theorem add_zero_double {q : ℚ} (h : IsDouble q) : add q 0 = q := by unfold add; rw [add_zero, fl_double h]

theorem zero_add_double {q : ℚ} (h : IsDouble q) : add 0 q = q := by unfold add; rw [zero_add, fl_double h]

theorem sub_self' (q : ℚ) : sub q q = 0 := by unfold sub; rw [sub_self, fl_zero]

theorem sub_one_zero : sub 1 0 = 1 := by unfold sub; rw [sub_zero, fl_double isDouble_one]

theorem div_self' {q : ℚ} (h : q ≠ 0) : div q q = 1 := by unfold div; rw [div_self h, fl_double isDouble_one]

theorem zero_div' (q : ℚ) : div 0 q = 0 := by unfold div; rw [zero_div, fl_zero]

/-- **C123**: at the four corners of a cell the bilinear interpolation is exactly the value of the corner. -/
theorem C123_bilinear_corners {x0 x1 y0 y1 : ℚ} (hx0 : IsDouble x0) (hx1 : IsDouble x1) (hy0 : IsDouble y0)
    (hy1 : IsDouble y1) (hx : x0 ≠ x1) (hy : y0 ≠ y1) {q00 q01 q10 q11 : ℚ} (h00 : IsDouble q00) (h01 : IsDouble q01)
    (h10 : IsDouble q10) (h11 : IsDouble q11) :
    bilinear (x0, y0) (x0, y0) (x1, y1) q00 q01 q10 q11 = q00 ∧
    bilinear (x0, y1) (x0, y0) (x1, y1) q00 q01 q10 q11 = q01 ∧
    bilinear (x1, y0) (x0, y0) (x1, y1) q00 q01 q10 q11 = q10 ∧
    bilinear (x1, y1) (x0, y0) (x1, y1) q00 q01 q10 q11 = q11 := by
  have dx : sub x1 x0 ≠ 0 := fun h => hx ((sub_zero_iff hx1 hx0).1 h).symm
  have dy : sub y1 y0 ≠ 0 := fun h => hy ((sub_zero_iff hy1 hy0).1 h).symm
  unfold bilinear
  simp only [sub_self', zero_div', div_self' dx, div_self' dy, sub_one_zero, mul_zero_any, mul_any_zero,
    mul_one_double isDouble_one, mul_one_double h00, mul_one_double h01, mul_one_double h10, mul_one_double h11,
    add_zero_double h00, add_zero_double h10, zero_add_double h10, zero_add_double h01, zero_add_double h11,
    add_zero_double isDouble_zero, add_zero_double h01, and_self]

/-- **C123**: inside a cell the bilinear interpolation is the exact one up to 2^-47 times the greatest value. -/
theorem C123_bilinear_error {x y x0 x1 y0 y1 q00 q01 q10 q11 M : ℚ}
    (hbx : (x0 ≤ x ∧ x ≤ x1) ∨ (x1 ≤ x ∧ x ≤ x0)) (hby : (y0 ≤ y ∧ y ≤ y1) ∨ (y1 ≤ y ∧ y ≤ y0))
    (hdx : 2 ^ (-1010 : ℤ) ≤ |x1 - x0|) (hdy : 2 ^ (-1010 : ℤ) ≤ |y1 - y0|)
    (h00 : |q00| ≤ M) (h01 : |q01| ≤ M) (h10 : |q10| ≤ M) (h11 : |q11| ≤ M) (hM : 2 ^ (-1022 : ℤ) ≤ M) :
    let t := (x - x0) / (x1 - x0)
    let u := (y - y0) / (y1 - y0)
    |bilinear (x, y) (x0, y0) (x1, y1) q00 q01 q10 q11 -
      ((1 - t) * (1 - u) * q00 + t * (1 - u) * q10 + (1 - t) * u * q01 + t * u * q11)| ≤ M * 2 ^ (-47 : ℤ) := by
  intro t u
  have wt : Weight _ t 4 := weight_of_btw hbx hdx
  have wu : Weight _ u 4 := weight_of_btw hby hdy
  have hM0 : 0 < M := lt_of_lt_of_le (two_zpow_pos _) hM
  obtain ⟨a1, b1⟩ := (wt.compl.prod wu.compl).term h00 hM
  obtain ⟨a2, b2⟩ := (wt.prod wu.compl).term h10 hM
  obtain ⟨a3, b3⟩ := (wt.compl.prod wu).term h01 hM
  obtain ⟨a4, b4⟩ := (wt.prod wu).term h11 hM
  obtain ⟨c1, d1⟩ := add_err (S := 3) (V := M) a1 a2 (by norm_num at b1 b2 ⊢; linarith) (by linarith) rfl
  obtain ⟨c2, d2⟩ := add_err (S := 5) (V := M) c1 a3 (by norm_num at d1 b3 ⊢; linarith) (by linarith) rfl
  obtain ⟨c3, -⟩ := add_err (S := 7) (V := M) c2 a4 (by norm_num at d2 b4 ⊢; linarith) (by linarith) rfl
  refine c3.trans ?_
  norm_num
  linarith

/- A cell of one degree and a point inside. -/
example : let t := ((1 : ℚ) / 4 - 0) / (1 - 0); t = 1 / 4 ∧
    bilinear (1 / 4, 1 / 2) (0, 0) (1, 1) 1 2 3 4 = 2 := by
  constructor
  · norm_num
  · decide +kernel

/-- **C123**: the linear interpolation along the Z and U axes: exactly the values at the two ends, the exact interpolation up to
2^-48 times the greatest value between. -/
theorem C123_linear {x0 x1 y0 y1 : ℚ} (hx0 : IsDouble x0) (hx1 : IsDouble x1) (hy0 : IsDouble y0) (hy1 : IsDouble y1)
    (hx : x0 ≠ x1) :
    linear x0 x0 x1 y0 y1 = some y0 ∧ linear x1 x0 x1 y0 y1 = some y1 ∧
    ∀ x M : ℚ, (x0 ≤ x ∧ x ≤ x1) ∨ (x1 ≤ x ∧ x ≤ x0) → 2 ^ (-1010 : ℤ) ≤ |x1 - x0| → |y0| ≤ M → |y1| ≤ M →
      2 ^ (-1000 : ℤ) ≤ M →
      ∃ r, linear x x0 x1 y0 y1 = some r ∧
        |r - (y0 + (x - x0) / (x1 - x0) * (y1 - y0))| ≤ M * 2 ^ (-48 : ℤ) := by
  have dx : sub x1 x0 ≠ 0 := fun h => hx ((sub_zero_iff hx1 hx0).1 h).symm
  have one_div' : ∀ {q : ℚ}, IsDouble q → div q 1 = q := by
    intro q h; unfold div; rw [div_one, fl_double h]
  refine ⟨?_, ?_, ?_⟩
  · unfold linear
    simp only [if_neg dx, sub_self', zero_div', div_self' dx, mul_zero_any, mul_one_double hy0, add_zero_double hy0]
  · unfold linear
    simp only [if_neg dx, sub_self', zero_div', div_self' dx, mul_zero_any, mul_one_double hy1,
      zero_add_double isDouble_one, one_div' hy1, zero_add_double hy1]
  · intro x M hb hd h0 h1 hM
    have hM0 : 0 < M := lt_of_lt_of_le (two_zpow_pos _) hM
    have hM' : (2 : ℚ) ^ (-1022 : ℤ) ≤ M := (zpow_le_zpow_right₀ (by norm_num) (by norm_num)).trans hM
    have hdne : x1 - x0 ≠ 0 := fun h => hx (by linarith)
    unfold linear
    simp only [if_neg dx]
    refine ⟨_, rfl, ?_⟩
    have wu : Weight (div (sub x x0) (sub x1 x0)) ((x - x0) / (x1 - x0)) 4 := weight_of_btw hb hd
    have wt : Weight (div (sub x1 x) (sub x1 x0)) (1 - (x - x0) / (x1 - x0)) 4 := by
      have hb' : Btw x1 x x0 := by
        rcases hb with ⟨a, b⟩ | ⟨a, b⟩
        · exact Or.inr ⟨a, b⟩
        · exact Or.inl ⟨a, b⟩
      have h := weight_of_btw hb' (by rw [abs_sub_comm]; exact hd)
      have e1 : div (sub x x1) (sub x0 x1) = div (sub x1 x) (sub x1 x0) := by
        rw [sub_antisymm x x1, sub_antisymm x0 x1]
        unfold div
        rw [neg_div_neg_eq]
      have e2 : (x - x1) / (x0 - x1) = 1 - (x - x0) / (x1 - x0) := by
        have : x0 - x1 ≠ 0 := fun h => hx (by linarith)
        field_simp
        ring
      rw [e1, e2] at h
      exact h
    set t := div (sub x1 x) (sub x1 x0)
    set u := div (sub x x0) (sub x1 x0)
    set s := (x - x0) / (x1 - x0)
    obtain ⟨a1, b1⟩ := wt.term h0 hM'
    obtain ⟨a2, b2⟩ := wu.term h1 hM'
    -- the sum of the weights
    have hsum : |add t u - 1| ≤ 10 * 2 ^ (-53 : ℤ) := by
      have et := wt.err
      have eu := wu.err
      have h2 : |t + u - 1| ≤ 8 * 2 ^ (-53 : ℤ) := by
        calc |t + u - 1| = |(t - (1 - s)) + (u - s)| := by ring_nf
          _ ≤ _ := abs_add_le _ _
          _ ≤ _ := by linarith
      have h3 : |fl (t + u) - (t + u)| ≤ 2 * 2 ^ (-53 : ℤ) :=
        fl_rel (by rw [abs_of_nonneg (by linarith [wt.w0, wu.w0])]; linarith [wt.w1, wu.w1])
          (by linarith [small_le_one])
      calc |add t u - 1| = |(fl (t + u) - (t + u)) + (t + u - 1)| := by unfold add; ring_nf
        _ ≤ _ := abs_add_le _ _
        _ ≤ _ := by linarith
    have hs0 : 1 - 10 * 2 ^ (-53 : ℤ) ≤ add t u := by have := (abs_le.1 hsum).1; linarith
    have hsp : 0 < add t u := lt_of_lt_of_le (by norm_num) hs0
    have q1 : |mul u y1 / add t u - mul u y1| ≤ M * (11 * 2 ^ (-53 : ℤ)) := by
      have : mul u y1 / add t u - mul u y1 = mul u y1 * (1 - add t u) / add t u := by field_simp
      rw [this, abs_div, abs_of_pos hsp, div_le_iff₀ hsp, abs_mul, abs_sub_comm]
      have hh := mul_le_mul b2 hsum (abs_nonneg _) (by positivity)
      refine hh.trans ?_
      have h3 := mul_le_mul_of_nonneg_left hs0 (show 0 ≤ M * (11 * 2 ^ (-53 : ℤ)) by positivity)
      refine le_trans ?_ h3
      norm_num
      linarith
    have b3 : |mul u y1 / add t u| ≤ 2 * M := by
      calc |mul u y1 / add t u| = |(mul u y1 / add t u - mul u y1) + mul u y1| := by ring_nf
        _ ≤ _ := abs_add_le _ _
        _ ≤ _ := by norm_num at q1 b2 ⊢; linarith
    have q2 : |div (mul u y1) (add t u) - mul u y1 / add t u| ≤ 2 * M * 2 ^ (-53 : ℤ) := fl_rel b3 (by linarith)
    have a3 : |div (mul u y1) (add t u) - s * y1| ≤ 18 * (M * 2 ^ (-53 : ℤ)) := by
      calc |div (mul u y1) (add t u) - s * y1| =
          |(div (mul u y1) (add t u) - mul u y1 / add t u) + ((mul u y1 / add t u - mul u y1) + (mul u y1 - s * y1))| := by
            ring_nf
        _ ≤ _ := (abs_add_le _ _).trans (add_le_add le_rfl (abs_add_le _ _))
        _ ≤ 2 * M * 2 ^ (-53 : ℤ) + (M * (11 * 2 ^ (-53 : ℤ)) + (4 + 1) * (M * 2 ^ (-53 : ℤ))) :=
          add_le_add q2 (add_le_add q1 a2)
        _ = _ := by ring
    have b4 : |div (mul u y1) (add t u)| ≤ 3 * M := by
      calc |div (mul u y1) (add t u)| =
          |(div (mul u y1) (add t u) - mul u y1 / add t u) + mul u y1 / add t u| := by ring_nf
        _ ≤ _ := abs_add_le _ _
        _ ≤ _ := by norm_num at q2 b3 ⊢; linarith
    obtain ⟨c, -⟩ := add_err (S := 5) (V := M) a1 a3 (by norm_num at b1 ⊢; linarith) (by linarith) rfl
    have e : y0 + s * (y1 - y0) = (1 - s) * y0 + s * y1 := by ring
    rw [e]
    refine c.trans ?_
    norm_num
    linarith

/- Two dates and the middle. -/
example : linear (1 / 2) 0 1 3 7 = some 5 ∧ linear 1 0 1 3 7 = some 7 := by decide +kernel

/-- **C123, what is false**: `Linear` of interpolate1d does not give the value of the data at the points of the data. At the
second of the points (0, 0) and (49, 1) the value is 0.9999999999999999. -/
theorem C123_linear1d_false : interp1D [0, 49] [0, 1] 49 = .ok (some (1 - 1 / 2 ^ 53)) := by decide +kernel

/-- **C123**: but the first of the two points is exact, and the error is at most 2^-48 times the greatest value between two
points that are not too far. -/
theorem C123_linear1d {x0 x1 y0 y1 : ℚ} (hx0 : x0 < x1) (hy0 : IsDouble y0) :
    linear1D x0 x0 x1 y0 y1 = y0 ∧
    ∀ x M : ℚ, x0 ≤ x → x ≤ x1 → 2 ^ (-900 : ℤ) ≤ x1 - x0 → x1 - x0 ≤ 2 ^ (900 : ℤ) → |y0| ≤ M → |y1| ≤ M →
      2 ^ (-100 : ℤ) ≤ M →
      |linear1D x x0 x1 y0 y1 - (y0 + (y1 - y0) / (x1 - x0) * (x - x0))| ≤ M * 2 ^ (-48 : ℤ) := by
  constructor
  · unfold linear1D
    rw [sub_self', mul_any_zero, add_zero_double hy0]
  · intro x M h0 h1 hd0 hd1 m0 m1 hM
    have hM0 : 0 < M := lt_of_lt_of_le (two_zpow_pos _) hM
    set d := x1 - x0 with hd
    have hdp : 0 < d := by linarith
    set e := x - x0 with he
    set v := y1 - y0 with hv
    have hv2 : |v| ≤ 2 * M := by
      rw [hv]
      exact (abs_sub _ _).trans (by linarith)
    have heb : |e| ≤ d := by rw [abs_of_nonneg (by rw [he]; linarith), he, hd]; linarith
    have hsd : (2 : ℚ) ^ (-1022 : ℤ) ≤ d := (zpow_le_zpow_right₀ (by norm_num) (by norm_num)).trans hd0
    have hsM : (2 : ℚ) ^ (-1022 : ℤ) ≤ 2 * M := by
      have : (2 : ℚ) ^ (-1022 : ℤ) ≤ 2 ^ (-100 : ℤ) := zpow_le_zpow_right₀ (by norm_num) (by norm_num)
      linarith
    have ed : |fl d - d| ≤ d * 2 ^ (-53 : ℤ) := fl_rel (abs_of_pos hdp).le hsd
    have ev : |fl v - v| ≤ 2 * M * 2 ^ (-53 : ℤ) := fl_rel hv2 hsM
    have ee : |fl e - e| ≤ d * 2 ^ (-53 : ℤ) := fl_rel heb hsd
    have hDlow : d * (1 - 2 ^ (-53 : ℤ)) ≤ fl d := by have := (abs_le.1 ed).1; linarith
    have hDp : 0 < fl d := lt_of_lt_of_le (mul_pos hdp (by norm_num)) hDlow
    -- the slope, times `d`
    have s1 : |fl v / fl d - v / d| * d ≤ 5 * (M * 2 ^ (-53 : ℤ)) := by
      have : fl v / fl d - v / d = ((fl v - v) - (v / d) * (fl d - d)) / fl d := by field_simp; ring
      rw [this, abs_div, abs_of_pos hDp, div_mul_eq_mul_div, div_le_iff₀ hDp]
      have hq : |v / d| * d ≤ 2 * M := by
        rw [abs_div, abs_of_pos hdp, div_mul_cancel₀ _ hdp.ne']; exact hv2
      have hn : |(fl v - v) - (v / d) * (fl d - d)| ≤ 4 * (M * 2 ^ (-53 : ℤ)) := by
        refine (abs_sub _ _).trans ?_
        rw [abs_mul]
        have h3 : |v / d| * |fl d - d| ≤ |v / d| * (d * 2 ^ (-53 : ℤ)) := mul_le_mul_of_nonneg_left ed (abs_nonneg _)
        have h4 : |v / d| * (d * 2 ^ (-53 : ℤ)) ≤ 2 * M * 2 ^ (-53 : ℤ) := by
          rw [← mul_assoc]; exact mul_le_mul_of_nonneg_right hq (by norm_num)
        have : 4 * (M * (2 : ℚ) ^ (-53 : ℤ)) = 2 * M * 2 ^ (-53 : ℤ) + 2 * M * 2 ^ (-53 : ℤ) := by ring
        rw [this]
        exact add_le_add ev (h3.trans h4)
      have h5 := mul_le_mul_of_nonneg_right hn hdp.le
      have h6 := mul_le_mul_of_nonneg_left hDlow (show 0 ≤ 5 * (M * 2 ^ (-53 : ℤ)) by positivity)
      refine h5.trans (le_trans ?_ h6)
      have h7 : 0 ≤ M * d := by positivity
      norm_num
      nlinarith
    have s2 : |fl v / fl d| * d ≤ 3 * M := by
      have h1 : |v / d| * d ≤ 2 * M := by
        rw [abs_div, abs_of_pos hdp, div_mul_cancel₀ _ hdp.ne']; exact hv2
      have h2 : |fl v / fl d| ≤ |fl v / fl d - v / d| + |v / d| := by
        calc |fl v / fl d| = |(fl v / fl d - v / d) + v / d| := by ring_nf
          _ ≤ _ := abs_add_le _ _
      have h3 := mul_le_mul_of_nonneg_right h2 hdp.le
      rw [add_mul] at h3
      norm_num at s1
      linarith
    have s3 : |fl v / fl d| ≤ 3 * M / d := (le_div_iff₀ hdp).2 s2
    have hbig : (2 : ℚ) ^ (-1022 : ℤ) ≤ 3 * M / d := by
      rw [le_div_iff₀ hdp]
      have h1 : (2 : ℚ) ^ (-1022 : ℤ) * d ≤ 2 ^ (-1022 : ℤ) * 2 ^ (900 : ℤ) :=
        mul_le_mul_of_nonneg_left hd1 (two_zpow_pos _).le
      have h2 : (2 : ℚ) ^ (-1022 : ℤ) * 2 ^ (900 : ℤ) = 2 ^ (-122 : ℤ) := by
        rw [← zpow_add₀ (by norm_num)]; norm_num
      have h3 : (2 : ℚ) ^ (-122 : ℤ) ≤ 2 ^ (-100 : ℤ) := zpow_le_zpow_right₀ (by norm_num) (by norm_num)
      linarith
    have es : |fl (fl v / fl d) - fl v / fl d| ≤ 3 * M / d * 2 ^ (-53 : ℤ) := fl_rel s3 hbig
    set S := fl (fl v / fl d) with hS
    have es' : |S - fl v / fl d| * d ≤ 3 * (M * 2 ^ (-53 : ℤ)) := by
      have := mul_le_mul_of_nonneg_right es hdp.le
      refine this.trans (le_of_eq ?_)
      field_simp
    have t1 : |S - v / d| * d ≤ 8 * (M * 2 ^ (-53 : ℤ)) := by
      have h2 : |S - v / d| ≤ |S - fl v / fl d| + |fl v / fl d - v / d| := by
        calc |S - v / d| = |(S - fl v / fl d) + (fl v / fl d - v / d)| := by ring_nf
          _ ≤ _ := abs_add_le _ _
      have h3 := mul_le_mul_of_nonneg_right h2 hdp.le
      rw [add_mul] at h3
      linarith
    have hfe : |fl e| ≤ d * (1 + 2 ^ (-53 : ℤ)) := by
      calc |fl e| = |(fl e - e) + e| := by ring_nf
        _ ≤ _ := abs_add_le _ _
        _ ≤ _ := by linarith
    have hq : |v / d| * d ≤ 2 * M := by
      rw [abs_div, abs_of_pos hdp, div_mul_cancel₀ _ hdp.ne']; exact hv2
    have p1 : |S * fl e - v / d * e| ≤ 11 * (M * 2 ^ (-53 : ℤ)) := by
      have : S * fl e - v / d * e = (S - v / d) * fl e + v / d * (fl e - e) := by ring
      rw [this]
      refine (abs_add_le _ _).trans ?_
      rw [abs_mul, abs_mul]
      have a1 : |S - v / d| * |fl e| ≤ |S - v / d| * (d * (1 + 2 ^ (-53 : ℤ))) :=
        mul_le_mul_of_nonneg_left hfe (abs_nonneg _)
      have a2 : |S - v / d| * (d * (1 + 2 ^ (-53 : ℤ))) ≤ 8 * (M * 2 ^ (-53 : ℤ)) * (1 + 2 ^ (-53 : ℤ)) := by
        rw [← mul_assoc]; exact mul_le_mul_of_nonneg_right t1 (by norm_num)
      have a3 : |v / d| * |fl e - e| ≤ |v / d| * (d * 2 ^ (-53 : ℤ)) := mul_le_mul_of_nonneg_left ee (abs_nonneg _)
      have a4 : |v / d| * (d * 2 ^ (-53 : ℤ)) ≤ 2 * M * 2 ^ (-53 : ℤ) := by
        rw [← mul_assoc]; exact mul_le_mul_of_nonneg_right hq (by norm_num)
      norm_num at a1 a2 a3 a4 ⊢
      linarith
    have p2 : |v / d * e| ≤ 2 * M := by
      rw [abs_mul]
      exact (mul_le_mul_of_nonneg_left heb (abs_nonneg _)).trans hq
    have p3 : |S * fl e| ≤ 3 * M := by
      calc |S * fl e| = |(S * fl e - v / d * e) + v / d * e| := by ring_nf
        _ ≤ _ := abs_add_le _ _
        _ ≤ 11 * (M * 2 ^ (-53 : ℤ)) + 2 * M := add_le_add p1 p2
        _ ≤ _ := by norm_num; linarith
    have p4 : |fl (S * fl e) - S * fl e| ≤ 3 * M * 2 ^ (-53 : ℤ) := fl_rel p3 (by linarith)
    have p5 : |fl (S * fl e) - v / d * e| ≤ 14 * (M * 2 ^ (-53 : ℤ)) := by
      calc |fl (S * fl e) - v / d * e| = |(fl (S * fl e) - S * fl e) + (S * fl e - v / d * e)| := by ring_nf
        _ ≤ _ := abs_add_le _ _
        _ ≤ 3 * M * 2 ^ (-53 : ℤ) + 11 * (M * 2 ^ (-53 : ℤ)) := add_le_add p4 p1
        _ = _ := by ring
    have p6 : |fl (S * fl e)| ≤ 4 * M := by
      calc |fl (S * fl e)| = |(fl (S * fl e) - S * fl e) + S * fl e| := by ring_nf
        _ ≤ _ := abs_add_le _ _
        _ ≤ 3 * M * 2 ^ (-53 : ℤ) + 3 * M := add_le_add p4 p3
        _ ≤ _ := by norm_num; linarith
    obtain ⟨c, -⟩ := add_err (a' := y0) (a := y0) (α := 0) (S := 5) (V := M) (by simp) p5 (by linarith) (by linarith) rfl
    have hl : linear1D x x0 x1 y0 y1 = add y0 (fl (S * fl e)) := rfl
    rw [hl]
    refine c.trans ?_
    norm_num
    linarith

/- Two points of a table. -/
example : linear1D (1 / 2) 0 1 3 7 = 5 := by decide +kernel

/-- A grid on two regular axes, flipped or not, of `nx` and `ny` values, of which the array has the size and holds doubles
(or NaN). -/
structure OnRegular (g : Grid) (nx ny : ℤ) : Prop where
  x : ∃ a b r, Spacing a b nx ∧ Reg.mk' a b nx = .ok r ∧ (g.x = r ∨ g.x = r.flip)
  y : ∃ a b r, Spacing a b ny ∧ Reg.mk' a b ny = .ok r ∧ (g.y = r ∨ g.y = r.flip)
  shape : g.arr.shape = [nx.toNat, ny.toNat]
  values : ∀ idx v, g.arr.at' idx = some v → IsDouble v

theorem OnRegular.value {g : Grid} {nx ny : ℤ} (h : OnRegular g nx ny) {i j : ℤ} (hi : 0 ≤ i ∧ i < nx)
    (hj : 0 ≤ j ∧ j < ny) : g.arr.value [i, j] = .ok (g.arr.at' [i.toNat, j.toNat]) := by
  unfold Variate.Arr.value
  rw [if_pos]
  · rfl
  · rw [h.shape]
    refine ⟨rfl, ?_⟩
    intro p hp
    simp only [List.zip_cons_cons, List.zip_nil_right, List.mem_cons, List.not_mem_nil, or_false] at hp
    rcases hp with rfl | rfl
    · simp only; omega
    · simp only; omega

theorem OnRegular.cell {g : Grid} {nx ny : ℤ} (h : OnRegular g nx ny) {x y : ℚ} {be : Bool} {i0 i1 j0 j1 : ℤ}
    (e : g.x.findIndexes x = .ok (some (i0, i1))) (e' : g.y.findIndexes y = .ok (some (j0, j1)))
    (bi0 : 0 ≤ i0 ∧ i0 < nx) (bi1 : 0 ≤ i1 ∧ i1 < nx) (bj0 : 0 ≤ j0 ∧ j0 < ny) (bj1 : 0 ≤ j1 ∧ j1 < ny)
    {v00 v01 v10 v11 : ℚ} (h00 : g.arr.at' [i0.toNat, j0.toNat] = some v00) (h01 : g.arr.at' [i0.toNat, j1.toNat] = some v01)
    (h10 : g.arr.at' [i1.toNat, j0.toNat] = some v10) (h11 : g.arr.at' [i1.toNat, j1.toNat] = some v11) :
    bivariate g x y be =
      .ok (some (bilinear (x, y) (g.x.coord i0, g.y.coord j0) (g.x.coord i1, g.y.coord j1) v00 v01 v10 v11)) := by
  unfold bivariate
  rw [e, e']
  simp only [bind, Except.bind, h.value bi0 bj0, h.value bi0 bj1, h.value bi1 bj0, h.value bi1 bj1, h00, h01, h10, h11]
  rfl

/-- What `find_indexes` gives at a coordinate of the axis: this coordinate is one of the two. -/
theorem frame_coord {r : Reg} (s : Sane 49 r) {i : ℤ} (h0 : 0 ≤ i) (h1 : i < r.size) :
    ∃ a b : ℤ, r.findIndexes (r.coord i) = .ok (some (a, b)) ∧ (0 ≤ a ∧ a < r.size) ∧ (0 ≤ b ∧ b < r.size) ∧
      r.coord a ≠ r.coord b ∧ (a = i ∨ b = i) := by
  have hsz := s.size_pos
  have hne : r.step ≠ 0 := abs_pos.1 s.pos
  have hf := findIndex_ok s (b := false) (findIndex_coord s h0 h1) h0 h1
  rw [findIndexes_val hf (by omega)]
  simp only [sub_self', if_pos]
  have dist : ∀ a b : ℤ, 0 ≤ a → a < b → b < r.size → r.coord a ≠ r.coord b := by
    intro a b ha hab hb
    have := coord_lt s ha hab hb
    rcases lt_or_gt_of_ne hne with hs | hs
    · exact (this.2 hs).ne'
    · exact (this.1 hs).ne
  by_cases hl : i = r.size - 1
  · simp only [if_pos hl]
    rw [if_pos (by omega)]
    exact ⟨_, _, rfl, by omega, by omega, dist _ _ (by omega) (by omega) (by omega), Or.inr rfl⟩
  · simp only [if_neg hl]
    rw [if_pos (by omega)]
    exact ⟨_, _, rfl, by omega, by omega, dist _ _ (by omega) (by omega) (by omega), Or.inl rfl⟩

/-- **C123**: the interpolation at a point of the grid is exactly the value of the array, if no value of the array is NaN. -/
theorem C123_grid_node {g : Grid} {nx ny : ℤ} (h : OnRegular g nx ny)
    (hv : ∀ i j : ℕ, (i : ℤ) < nx → (j : ℤ) < ny → ∃ v, g.arr.at' [i, j] = some v) {i j : ℕ} (hi : (i : ℤ) < nx)
    (hj : (j : ℤ) < ny) (be : Bool) :
    bivariate g (g.x.coord i) (g.y.coord j) be = .ok (g.arr.at' [i, j]) := by
  obtain ⟨a, b, r, sp, mk, hr⟩ := h.x
  obtain ⟨a', b', r', sp', mk', hr'⟩ := h.y
  obtain ⟨s, asc, hs⟩ := built_sane sp mk hr
  obtain ⟨s', asc', hs'⟩ := built_sane sp' mk' hr'
  obtain ⟨i0, i1, e, bi0, bi1, ne, w⟩ := frame_coord s (i := i) (by omega) (hs ▸ hi)
  obtain ⟨j0, j1, e', bj0, bj1, ne', w'⟩ := frame_coord s' (i := j) (by omega) (hs' ▸ hj)
  rw [hs] at bi0 bi1
  rw [hs'] at bj0 bj1
  obtain ⟨v00, h00⟩ := hv i0.toNat j0.toNat (by omega) (by omega)
  obtain ⟨v01, h01⟩ := hv i0.toNat j1.toNat (by omega) (by omega)
  obtain ⟨v10, h10⟩ := hv i1.toNat j0.toNat (by omega) (by omega)
  obtain ⟨v11, h11⟩ := hv i1.toNat j1.toNat (by omega) (by omega)
  obtain ⟨c00, c01, c10, c11⟩ := C123_bilinear_corners (x0 := g.x.coord i0) (x1 := g.x.coord i1)
    (y0 := g.y.coord j0) (y1 := g.y.coord j1) (isDouble_fl _) (isDouble_fl _) (isDouble_fl _) (isDouble_fl _) ne ne' (h.values _ _ h00) (h.values _ _ h01) (h.values _ _ h10)
    (h.values _ _ h11)
  rw [h.cell e e' bi0 bi1 bj0 bj1 h00 h01 h10 h11]
  rcases w with w | w <;> rcases w' with w' | w'
  · rw [← w, ← w', c00, ← h00, w, w']; rfl
  · rw [← w, ← w', c01, ← h01, w, w']; rfl
  · rw [← w, ← w', c10, ← h10, w, w']; rfl
  · rw [← w, ← w', c11, ← h11, w, w']; rfl

/-- Two coordinates of an axis are not closer than a fraction of the step. -/
theorem coord_sep {r : Reg} (s : Sane 49 r) {i j : ℤ} (hi : 0 ≤ i ∧ i < r.size) (hj : 0 ≤ j ∧ j < r.size)
    (hij : j = i + 1 ∨ i = j + 1) : 2 ^ (-1010 : ℤ) ≤ |r.coord j - r.coord i| := by
  have ei := coord_err49 s hi.1 hi.2
  have ej := coord_err49 s hj.1 hj.2
  have hd : |((j : ℚ) - i) * r.step| = |r.step| := by
    rcases hij with rfl | rfl
    · push_cast; ring_nf
    · push_cast; rw [← abs_neg]; ring_nf
  have h1 : |r.step| ≤ 7 / 32 * |r.step| + |r.coord j - r.coord i| + 7 / 32 * |r.step| := by
    calc |r.step| = |((j : ℚ) - i) * r.step| := hd.symm
      _ = |(-(r.coord j - (r.start + j * r.step)) + (r.coord j - r.coord i)) + (r.coord i - (r.start + i * r.step))| := by
          ring_nf
      _ ≤ _ := (abs_add_le _ _).trans (add_le_add (abs_add_le _ _) le_rfl)
      _ ≤ _ := by rw [abs_neg]; linarith
  have h2 := s.step_ge
  have h3 : (2 : ℚ) ^ (-1000 : ℤ) = 2 ^ (-1010 : ℤ) * 2 ^ (10 : ℤ) := by rw [← zpow_add₀ (by norm_num)]; norm_num
  rw [h3] at h2
  have h4 := two_zpow_pos (-1010)
  generalize (2 : ℚ) ^ (-1010 : ℤ) = w at *
  norm_num at h2
  linarith

/-- **C123**: at a point between the bounds of the axes, the interpolation is the exact bilinear interpolation of the four
values of the cell that holds the point, up to 2^-47 times the greatest value of the grid. -/
theorem C123_grid_value {g : Grid} {nx ny : ℤ} (h : OnRegular g nx ny) {M : ℚ} (hM : 2 ^ (-1022 : ℤ) ≤ M)
    (hv : ∀ i j : ℕ, (i : ℤ) < nx → (j : ℤ) < ny → ∃ v, g.arr.at' [i, j] = some v ∧ |v| ≤ M) {x y : ℚ}
    (hx : IsDouble x) (hy : IsDouble y)
    (bx : (g.x.coord 0 ≤ x ∧ x ≤ g.x.coord (nx - 1)) ∨ (g.x.coord (nx - 1) ≤ x ∧ x ≤ g.x.coord 0))
    (by' : (g.y.coord 0 ≤ y ∧ y ≤ g.y.coord (ny - 1)) ∨ (g.y.coord (ny - 1) ≤ y ∧ y ≤ g.y.coord 0)) (be : Bool) :
    ∃ (i0 i1 j0 j1 : ℕ) (v00 v01 v10 v11 z : ℚ),
      ((i0 : ℤ) < nx ∧ (i1 : ℤ) < nx ∧ (i1 = i0 + 1 ∨ i0 = i1 + 1)) ∧
      ((j0 : ℤ) < ny ∧ (j1 : ℤ) < ny ∧ (j1 = j0 + 1 ∨ j0 = j1 + 1)) ∧
      ((g.x.coord i0 ≤ x ∧ x ≤ g.x.coord i1) ∨ (g.x.coord i1 ≤ x ∧ x ≤ g.x.coord i0)) ∧
      ((g.y.coord j0 ≤ y ∧ y ≤ g.y.coord j1) ∨ (g.y.coord j1 ≤ y ∧ y ≤ g.y.coord j0)) ∧
      g.arr.at' [i0, j0] = some v00 ∧ g.arr.at' [i0, j1] = some v01 ∧ g.arr.at' [i1, j0] = some v10 ∧
      g.arr.at' [i1, j1] = some v11 ∧
      bivariate g x y be = .ok (some z) ∧
      (let t := (x - g.x.coord i0) / (g.x.coord i1 - g.x.coord i0)
       let u := (y - g.y.coord j0) / (g.y.coord j1 - g.y.coord j0)
       |z - ((1 - t) * (1 - u) * v00 + t * (1 - u) * v10 + (1 - t) * u * v01 + t * u * v11)| ≤ M * 2 ^ (-47 : ℤ)) := by
  obtain ⟨a, b, r, sp, mk, hr⟩ := h.x
  obtain ⟨a', b', r', sp', mk', hr'⟩ := h.y
  obtain ⟨s, asc, hs⟩ := built_sane sp mk hr
  obtain ⟨s', asc', hs'⟩ := built_sane sp' mk' hr'
  obtain ⟨i0, i1, e, bi0, bi1, cons, fr⟩ := C122_frame sp mk hr hx bx
  obtain ⟨j0, j1, e', bj0, bj1, cons', fr'⟩ := C122_frame sp' mk' hr' hy by'
  obtain ⟨v00, h00, m00⟩ := hv i0.toNat j0.toNat (by omega) (by omega)
  obtain ⟨v01, h01, m01⟩ := hv i0.toNat j1.toNat (by omega) (by omega)
  obtain ⟨v10, h10, m10⟩ := hv i1.toNat j0.toNat (by omega) (by omega)
  obtain ⟨v11, h11, m11⟩ := hv i1.toNat j1.toNat (by omega) (by omega)
  have ti0 : ((i0.toNat : ℕ) : ℤ) = i0 := Int.toNat_of_nonneg bi0.1
  have ti1 : ((i1.toNat : ℕ) : ℤ) = i1 := Int.toNat_of_nonneg bi1.1
  have tj0 : ((j0.toNat : ℕ) : ℤ) = j0 := Int.toNat_of_nonneg bj0.1
  have tj1 : ((j1.toNat : ℕ) : ℤ) = j1 := Int.toNat_of_nonneg bj1.1
  refine ⟨i0.toNat, i1.toNat, j0.toNat, j1.toNat, v00, v01, v10, v11,
    bilinear (x, y) (g.x.coord i0, g.y.coord j0) (g.x.coord i1, g.y.coord j1) v00 v01 v10 v11,
    ⟨by omega, by omega, by omega⟩, ⟨by omega, by omega, by omega⟩, ?_, ?_, h00, h01, h10, h11, ?_, ?_⟩
  · rw [ti0, ti1]; exact fr
  · rw [tj0, tj1]; exact fr'
  · exact h.cell e e' bi0 bi1 bj0 bj1 h00 h01 h10 h11
  · rw [ti0, ti1, tj0, tj1]
    exact C123_bilinear_error fr fr' (coord_sep s (hs ▸ bi0) (hs ▸ bi1) cons) (coord_sep s' (hs' ▸ bj0) (hs' ▸ bj1) cons')
      m00 m01 m10 m11 hM

/-- **C123**: at a point between the bounds of the axes, the result is NaN exactly when one of the four values of the cell is
NaN, even if its weight is zero; `bounds_error` makes no difference. -/
theorem C123_grid_nan {g : Grid} {nx ny : ℤ} (h : OnRegular g nx ny) {x y : ℚ} (hx : IsDouble x) (hy : IsDouble y)
    (bx : (g.x.coord 0 ≤ x ∧ x ≤ g.x.coord (nx - 1)) ∨ (g.x.coord (nx - 1) ≤ x ∧ x ≤ g.x.coord 0))
    (by' : (g.y.coord 0 ≤ y ∧ y ≤ g.y.coord (ny - 1)) ∨ (g.y.coord (ny - 1) ≤ y ∧ y ≤ g.y.coord 0)) :
    ∃ i0 i1 j0 j1 : ℕ,
      ((i0 : ℤ) < nx ∧ (i1 : ℤ) < nx ∧ (i1 = i0 + 1 ∨ i0 = i1 + 1)) ∧
      ((j0 : ℤ) < ny ∧ (j1 : ℤ) < ny ∧ (j1 = j0 + 1 ∨ j0 = j1 + 1)) ∧
      ((g.x.coord i0 ≤ x ∧ x ≤ g.x.coord i1) ∨ (g.x.coord i1 ≤ x ∧ x ≤ g.x.coord i0)) ∧
      ((g.y.coord j0 ≤ y ∧ y ≤ g.y.coord j1) ∨ (g.y.coord j1 ≤ y ∧ y ≤ g.y.coord j0)) ∧
      ∀ be, (bivariate g x y be = .ok none ↔
        none ∈ [g.arr.at' [i0, j0], g.arr.at' [i0, j1], g.arr.at' [i1, j0], g.arr.at' [i1, j1]]) ∧
        (∃ z, bivariate g x y be = .ok z) := by
  obtain ⟨a, b, r, sp, mk, hr⟩ := h.x
  obtain ⟨a', b', r', sp', mk', hr'⟩ := h.y
  obtain ⟨i0, i1, e, bi0, bi1, cons, fr⟩ := C122_frame sp mk hr hx bx
  obtain ⟨j0, j1, e', bj0, bj1, cons', fr'⟩ := C122_frame sp' mk' hr' hy by'
  have ti0 : ((i0.toNat : ℕ) : ℤ) = i0 := Int.toNat_of_nonneg bi0.1
  have ti1 : ((i1.toNat : ℕ) : ℤ) = i1 := Int.toNat_of_nonneg bi1.1
  have tj0 : ((j0.toNat : ℕ) : ℤ) = j0 := Int.toNat_of_nonneg bj0.1
  have tj1 : ((j1.toNat : ℕ) : ℤ) = j1 := Int.toNat_of_nonneg bj1.1
  refine ⟨i0.toNat, i1.toNat, j0.toNat, j1.toNat, ⟨by omega, by omega, by omega⟩, ⟨by omega, by omega, by omega⟩, ?_, ?_, ?_⟩
  · rw [ti0, ti1]; exact fr
  · rw [tj0, tj1]; exact fr'
  · intro be
    unfold bivariate
    rw [e, e']
    simp only [bind, Except.bind, h.value bi0 bj0, h.value bi0 bj1, h.value bi1 bj0, h.value bi1 bj1]
    cases g.arr.at' [i0.toNat, j0.toNat] <;> cases g.arr.at' [i0.toNat, j1.toNat] <;>
      cases g.arr.at' [i1.toNat, j0.toNat] <;> cases g.arr.at' [i1.toNat, j1.toNat] <;>
      simp [pure, Except.pure]

/-- **C123**: a point that is outside of one of the axes gives NaN, or an error with `bounds_error`. -/
theorem C123_grid_outside {g : Grid} {nx ny : ℤ} (h : OnRegular g nx ny) {x y : ℚ} (hx : IsDouble x) (hy : IsDouble y)
    (fx : |x - g.x.start| ≤ 2 ^ 61 * |g.x.step|) (fy : |y - g.y.start| ≤ 2 ^ 61 * |g.y.step|)
    (hout : ¬ ((g.x.coord 0 ≤ x ∧ x ≤ g.x.coord (nx - 1)) ∨ (g.x.coord (nx - 1) ≤ x ∧ x ≤ g.x.coord 0)) ∨
      ¬ ((g.y.coord 0 ≤ y ∧ y ≤ g.y.coord (ny - 1)) ∨ (g.y.coord (ny - 1) ≤ y ∧ y ≤ g.y.coord 0))) :
    bivariate g x y false = .ok none ∧ bivariate g x y true = .error .exn := by
  obtain ⟨a, b, r, sp, mk, hr⟩ := h.x
  obtain ⟨a', b', r', sp', mk', hr'⟩ := h.y
  by_cases ox : (g.x.coord 0 ≤ x ∧ x ≤ g.x.coord (nx - 1)) ∨ (g.x.coord (nx - 1) ≤ x ∧ x ≤ g.x.coord 0)
  · have ny' := hout.resolve_left (not_not.2 ox)
    obtain ⟨i0, i1, e, -⟩ := C122_frame sp mk hr hx ox
    have e' := C122_outside sp' mk' hr' hy fy ny'
    unfold bivariate
    rw [e, e']
    exact ⟨rfl, rfl⟩
  · have e := C122_outside sp mk hr hx fx ox
    by_cases oy : (g.y.coord 0 ≤ y ∧ y ≤ g.y.coord (ny - 1)) ∨ (g.y.coord (ny - 1) ≤ y ∧ y ≤ g.y.coord 0)
    · obtain ⟨i0, i1, e', -⟩ := C122_frame sp' mk' hr' hy oy
      unfold bivariate
      rw [e, e']
      exact ⟨rfl, rfl⟩
    · have e' := C122_outside sp' mk' hr' hy fy oy
      unfold bivariate
      rw [e, e']
      exact ⟨rfl, rfl⟩

/-- A grid of 0.1 degree from -90 to 90 on both axes, the values of which are the numbers of the columns. -/
def exGrid : Grid :=
  { x := ⟨1801, -90, div (sub 90 (-90)) (1801 - 1 : ℤ), div 1 (div (sub 90 (-90)) (1801 - 1 : ℤ)), true⟩,
    y := ⟨1801, -90, div (sub 90 (-90)) (1801 - 1 : ℤ), div 1 (div (sub 90 (-90)) (1801 - 1 : ℤ)), true⟩,
    arr := { shape := [1801, 1801], at' := fun idx => some ((idx.headD 0 % 2 : ℕ) : ℚ) } }

theorem exGrid_ok : OnRegular exGrid 1801 1801 := by
  have sp : Spacing (-90) 90 1801 :=
    ⟨isDouble_int (n := -90) (by norm_num), isDouble_int (n := 90) (by norm_num), by norm_num, by norm_num, by norm_num,
      (zpow_le_one_of_nonpos₀ (by norm_num) (by norm_num)).trans (by norm_num),
      le_trans (show |(90 : ℚ) - -90| ≤ 2 ^ (8 : ℤ) by norm_num) (zpow_le_zpow_right₀ (by norm_num) (by norm_num))⟩
  have mk : Reg.mk' (-90) 90 1801 = .ok exGrid.x := by decide +kernel
  refine ⟨⟨_, _, _, sp, mk, Or.inl rfl⟩, ⟨_, _, _, sp, mk, Or.inl rfl⟩, rfl, ?_⟩
  intro idx v hv
  cases hv
  have : (idx.headD 0 % 2 : ℕ) < 2 := Nat.mod_lt _ (by norm_num)
  have := isDouble_int (n := ((idx.headD 0 % 2 : ℕ) : ℤ)) (by rw [abs_of_nonneg (by omega)]; omega)
  exact_mod_cast this

/- Its values: a point of the grid, a point between, a point outside. -/
example : bivariate exGrid (exGrid.x.coord 901) (exGrid.y.coord 3) true = .ok (some 1) ∧
    bivariate exGrid 91 0 false = .ok none ∧ bivariate exGrid 91 0 true = .error .exn := by
  refine ⟨?_, ?_, ?_⟩ <;> decide +kernel

end Pyinterp.Double
