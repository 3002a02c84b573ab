import Verif.Lemmas.DoubleInterp
import Verif.Model.DoubleStats

/-
The update of the mean.
-/
namespace Pyinterp.Double

open Spec

theorem fl_nonpos {y : ℚ} (h : y ≤ 0) : fl y ≤ 0 := fl_le_of_double isDouble_zero h

theorem fl_half_le {m v : ℚ} (hm : IsDouble m) (hv : IsDouble v) (h : m ≤ v) : fl (fl (v - m) / 2) ≤ v - m := by
  obtain ⟨n, rfl⟩ := double_unit hm
  obtain ⟨k, rfl⟩ := double_unit hv
  have hp := two_zpow_pos (-1074)
  have hnk : n ≤ k := by
    have := le_of_mul_le_mul_right h hp
    exact_mod_cast this
  have hy : (k : ℚ) * 2 ^ (-1074 : ℤ) - n * 2 ^ (-1074 : ℤ) = ((k - n : ℤ) : ℚ) * 2 ^ (-1074 : ℤ) := by push_cast; ring
  rw [hy]
  set j := k - n with hj
  have hj0 : 0 ≤ j := by omega
  rcases le_or_gt j (2 ^ 53) with hs | hs
  · have hd : IsDouble ((j : ℚ) * 2 ^ (-1074 : ℤ)) := ⟨j, -1074, by rw [abs_of_nonneg hj0]; exact hs, le_rfl, rfl⟩
    rw [fl_double hd]
    apply fl_le_of_double hd
    have : 0 ≤ (j : ℚ) * 2 ^ (-1074 : ℤ) := mul_nonneg (by exact_mod_cast hj0) hp.le
    linarith
  · have hbig : (2 : ℚ) ^ (-1022 : ℤ) ≤ (j : ℚ) * 2 ^ (-1074 : ℤ) := by
      have h1 : (2 : ℚ) ^ (-1022 : ℤ) = 2 ^ (52 : ℤ) * 2 ^ (-1074 : ℤ) := by rw [← zpow_add₀ (by norm_num)]; norm_num
      rw [h1]
      apply mul_le_mul_of_nonneg_right _ hp.le
      have : ((2 ^ 53 : ℤ) : ℚ) ≤ j := by exact_mod_cast hs.le
      norm_num at this ⊢
      linarith
    have hpos : 0 < (j : ℚ) * 2 ^ (-1074 : ℤ) := lt_of_lt_of_le (two_zpow_pos _) hbig
    generalize (j : ℚ) * 2 ^ (-1074 : ℤ) = y at *
    have e1 := abs_le.1 (fl_rel (abs_of_pos hpos).le hbig)
    have h0 : 0 ≤ fl y := fl_nonneg hpos.le
    have b : |fl y / 2| ≤ y := by
      rw [abs_of_nonneg (by linarith)]
      norm_num at e1
      linarith
    have e2 := abs_le.1 (fl_rel b hbig)
    norm_num at e1 e2
    linarith

/-- The mean after a push is between the mean and the value. -/
theorem mean_between {m v w : ℚ} (hm : IsDouble m) (hv : IsDouble v) (hw : 2 ≤ w) :
    (m ≤ v → m ≤ add m (mul (sub v m) (div 1 w)) ∧ add m (mul (sub v m) (div 1 w)) ≤ v) ∧
    (v ≤ m → v ≤ add m (mul (sub v m) (div 1 w)) ∧ add m (mul (sub v m) (div 1 w)) ≤ m) := by
  have hhalf : IsDouble (1 / 2 : ℚ) := ⟨1, -1, by norm_num, by norm_num, by norm_num⟩
  have i0 : 0 ≤ div 1 w := fl_nonneg (by apply div_nonneg <;> linarith)
  have i1 : div 1 w ≤ 1 / 2 := by
    apply fl_le_of_double hhalf
    rw [div_le_div_iff₀ (by linarith) (by norm_num)]
    linarith
  have key : ∀ {m v : ℚ}, IsDouble m → IsDouble v → m ≤ v →
      m ≤ add m (mul (sub v m) (div 1 w)) ∧ add m (mul (sub v m) (div 1 w)) ≤ v := by
    intro m v hm hv h
    have d0 : 0 ≤ sub v m := fl_nonneg (by linarith)
    have a0 : 0 ≤ mul (sub v m) (div 1 w) := fl_nonneg (mul_nonneg d0 i0)
    have a1 : mul (sub v m) (div 1 w) ≤ v - m := by
      refine le_trans (fl_mono ?_) (fl_half_le hm hv h)
      rw [div_eq_mul_one_div]
      exact mul_le_mul_of_nonneg_left i1 d0
    exact ⟨le_fl_of_double hm (by linarith), fl_le_of_double hv (by linarith)⟩
  refine ⟨key hm hv, fun h => ?_⟩
  have hneg : ∀ {q : ℚ}, IsDouble q → IsDouble (-q) := by
    rintro q ⟨a, e, h1, h2, rfl⟩
    exact ⟨-a, e, by rwa [abs_neg], h2, by push_cast; ring⟩
  have := key (hneg hm) (hneg hv) (by linarith)
  have e1 : sub (-v) (-m) = -sub v m := by
    unfold sub; rw [← fl_neg]; congr 1; ring
  have e2 : mul (-sub v m) (div 1 w) = -mul (sub v m) (div 1 w) := by
    unfold mul; rw [← fl_neg]; congr 1; ring
  have e3 : add (-m) (-mul (sub v m) (div 1 w)) = -add m (mul (sub v m) (div 1 w)) := by
    unfold add; rw [← fl_neg]; congr 1; ring
  rw [e1, e2, e3] at this
  constructor <;> linarith [this.1, this.2]

/-- The increment of the second moment is not negative. -/
theorem mom2_nonneg {m v w : ℚ} (hm : IsDouble m) (hv : IsDouble v) (hw : 2 ≤ w) :
    0 ≤ mul (sub v m) (sub v (add m (mul (sub v m) (div 1 w)))) := by
  obtain ⟨h1, h2⟩ := mean_between hm hv hw
  apply fl_nonneg
  rcases le_total m v with h | h
  · exact mul_nonneg (fl_nonneg (by linarith)) (fl_nonneg (by linarith [(h1 h).2]))
  · exact mul_nonneg_of_nonpos_of_nonpos (fl_nonpos (by linarith)) (fl_nonpos (by linarith [(h2 h).1]))

/-- The error of one update of the mean. -/
theorem mean_step {m v M n : ℚ} (hM : 2 ^ (-900 : ℤ) ≤ M) (hm : |m| ≤ M) (hv : |v| ≤ M) (h2 : 2 ≤ n) (hn : n ≤ 2 ^ 53) :
    |add m (mul (sub v m) (div 1 n)) - (m + (v - m) / n)| ≤ (2 + 8 / n) * (M * 2 ^ (-53 : ℤ)) := by
  have hM0 : 0 < M := lt_of_lt_of_le (two_zpow_pos _) hM
  have hn0 : 0 < n := by linarith
  have hu : (2 : ℚ) ^ (-53 : ℤ) = 1 / 2 ^ 53 := by norm_num
  have hMs : (2 : ℚ) ^ (-1022 : ℤ) ≤ M := le_trans (zpow_le_zpow_right₀ (by norm_num) (by norm_num)) hM
  have hin : (2 : ℚ) ^ (-53 : ℤ) ≤ 1 / n := by
    rw [hu]
    exact one_div_le_one_div_of_le hn0 hn
  have e1 : |div 1 n - 1 / n| ≤ 1 / n * 2 ^ (-53 : ℤ) :=
    fl_rel (abs_of_pos (by positivity)).le (le_trans (zpow_le_zpow_right₀ (by norm_num) (by norm_num)) hin)
  have hvm : |v - m| ≤ 2 * M := by
    have a := abs_le.1 hm
    have b := abs_le.1 hv
    exact abs_le.2 ⟨by linarith, by linarith⟩
  have e2 : |sub v m - (v - m)| ≤ 2 * M * 2 ^ (-53 : ℤ) := fl_rel hvm (by linarith)
  have hb : (2 : ℚ) ^ (-1022 : ℤ) ≤ 3 * M * (1 / n) := by
    have h3 : (2 : ℚ) ^ (-1022 : ℤ) ≤ 2 ^ (-900 : ℤ) * 2 ^ (-53 : ℤ) := by
      rw [← zpow_add₀ (by norm_num)]
      exact zpow_le_zpow_right₀ (by norm_num) (by norm_num)
    refine h3.trans (mul_le_mul (by linarith) hin (two_zpow_pos _).le (by linarith))
  set i := div 1 n with hi
  set d := sub v m with hd
  set j : ℚ := 1 / n with hj
  have hj0 : 0 < j := by positivity
  have hj1 : j ≤ 1 / 2 := one_div_le_one_div_of_le (by norm_num) h2
  have hud : (0 : ℚ) < 2 ^ (-53 : ℤ) := two_zpow_pos _
  have hus : (2 : ℚ) ^ (-53 : ℤ) ≤ 1 / 100 := by rw [hu]; norm_num
  have hdn : (v - m) / n = (v - m) * j := by rw [hj]; ring
  have h8 : 8 / n = 8 * j := by rw [hj]; ring
  rw [hdn, h8]
  have rel : ∀ {y B : ℚ}, |y| ≤ B → 2 ^ (-1022 : ℤ) ≤ B → |fl y - y| ≤ B * 2 ^ (-53 : ℤ) := fl_rel
  generalize (2 : ℚ) ^ (-53 : ℤ) = u at *
  have dB : |d| ≤ 2 * M * (1 + u) := by
    have a := abs_le.1 e2
    have b := abs_le.1 hvm
    exact abs_le.2 ⟨by linarith, by linarith⟩
  have iB : |i| ≤ j * (1 + u) := by
    have a := abs_le.1 e1
    exact abs_le.2 ⟨by nlinarith, by linarith⟩
  have prod : |d * i| ≤ 3 * M * j := by
    rw [abs_mul]
    calc |d| * |i| ≤ (2 * M * (1 + u)) * (j * (1 + u)) := mul_le_mul dB iB (abs_nonneg _) (by positivity)
      _ = 2 * (1 + u) * (1 + u) * (M * j) := by ring
      _ ≤ 3 * (M * j) := by
        apply mul_le_mul_of_nonneg_right _ (by positivity)
        nlinarith
      _ = 3 * M * j := by ring
  have e3 : |mul d i - d * i| ≤ 3 * M * j * u := rel prod hb
  have e4 : |d * i - (v - m) * j| ≤ 5 * M * j * u := by
    have e : d * i - (v - m) * j = d * (i - j) + (d - (v - m)) * j := by ring
    rw [e]
    refine (abs_add_le _ _).trans ?_
    rw [abs_mul, abs_mul, abs_of_pos hj0]
    have t1 : |d| * |i - j| ≤ (2 * M * (1 + u)) * (j * u) := mul_le_mul dB e1 (abs_nonneg _) (by positivity)
    have t2 : |d - (v - m)| * j ≤ 2 * M * u * j := mul_le_mul_of_nonneg_right e2 hj0.le
    have t3 : (2 * M * (1 + u)) * (j * u) ≤ 3 * (M * j * u) := by
      have : (2 * M * (1 + u)) * (j * u) = 2 * (1 + u) * (M * j * u) := by ring
      rw [this]
      apply mul_le_mul_of_nonneg_right _ (by positivity)
      linarith
    linarith
  have e5 : |mul d i - (v - m) * j| ≤ 8 * (M * j * u) := by
    have a := abs_le.1 e3
    have b := abs_le.1 e4
    exact abs_le.2 ⟨by linarith, by linarith⟩
  have hull : |m + (v - m) * j| ≤ M := by
    have a := abs_le.1 hm
    have b := abs_le.1 hv
    have : m + (v - m) * j = m * (1 - j) + v * j := by ring
    rw [this]
    refine abs_le.2 ⟨?_, ?_⟩
    · nlinarith
    · nlinarith
  have mju : M * j * u ≤ M * (1 / 100) := by
    calc M * j * u ≤ M * 1 * (1 / 100) := by
          apply mul_le_mul _ hus hud.le (by positivity)
          exact mul_le_mul_of_nonneg_left (by linarith) hM0.le
      _ = _ := by ring
  have sB : |m + mul d i| ≤ 2 * M := by
    have a := abs_le.1 hull
    have b := abs_le.1 e5
    exact abs_le.2 ⟨by linarith, by linarith⟩
  have e6 : |add m (mul d i) - (m + mul d i)| ≤ 2 * M * u := rel sB (by linarith)
  have a := abs_le.1 e5
  have b := abs_le.1 e6
  exact abs_le.2 ⟨by linarith, by linarith⟩

/-- The error of one addition to the sum. -/
theorem sum_step {s S x M n : ℚ} (hM : 2 ^ (-900 : ℤ) ≤ M) (h1 : 1 ≤ n) (hn : n + 1 ≤ 2 ^ 53) (hS : |S| ≤ n * M) (hx : |x| ≤ M)
    (h : |s - S| ≤ n * (n + 1) * (M * 2 ^ (-53 : ℤ))) :
    |add s x - (S + x)| ≤ (n + 1) * (n + 1 + 1) * (M * 2 ^ (-53 : ℤ)) := by
  have hM0 : 0 < M := lt_of_lt_of_le (two_zpow_pos _) hM
  have hMs : (2 : ℚ) ^ (-1022 : ℤ) ≤ M := le_trans (zpow_le_zpow_right₀ (by norm_num) (by norm_num)) hM
  have hs : n * (n + 1) * (M * 2 ^ (-53 : ℤ)) ≤ n * M := by
    have : (n + 1) * (2 : ℚ) ^ (-53 : ℤ) ≤ 1 := by
      have : (2 : ℚ) ^ (-53 : ℤ) = 1 / 2 ^ 53 := by norm_num
      rw [this, mul_one_div, div_le_one (by norm_num)]
      exact hn
    calc n * (n + 1) * (M * 2 ^ (-53 : ℤ)) = n * M * ((n + 1) * 2 ^ (-53 : ℤ)) := by ring
      _ ≤ n * M * 1 := mul_le_mul_of_nonneg_left this (by positivity)
      _ = _ := by ring
  have a := abs_le.1 hS
  have b := abs_le.1 hx
  have c := abs_le.1 h
  have B : |s + x| ≤ 2 * (n + 1) * M := abs_le.2 ⟨by linarith, by linarith⟩
  have e : |add s x - (s + x)| ≤ 2 * (n + 1) * M * 2 ^ (-53 : ℤ) := fl_rel B (by nlinarith)
  have d := abs_le.1 e
  exact abs_le.2 ⟨by linarith, by linarith⟩

end Pyinterp.Double
