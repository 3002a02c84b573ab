import Verif.Model.Double
import Verif.Spec.Double
import Mathlib.Tactic.Linarith
import Mathlib.Tactic.FieldSimp
import Mathlib.Tactic.Ring
import Mathlib.Tactic.Positivity
import Mathlib.Tactic.NormNum

namespace Pyinterp.Double

open Spec

theorem rne_err (y : ℚ) : |(rne y : ℚ) - y| ≤ 1 / 2 := by
  have h0 := Int.floor_le y
  have h1 := Int.lt_floor_add_one y
  unfold rne
  split
  · rw [abs_le]; constructor <;> linarith
  · split
    · push_cast; rw [abs_le]; constructor <;> linarith
    · split
      · rw [abs_le]; constructor <;> linarith
      · push_cast; rw [abs_le]; constructor <;> linarith

theorem rne_cases (y : ℚ) : rne y = ⌊y⌋ ∨ rne y = ⌊y⌋ + 1 := by
  unfold rne
  split
  · exact Or.inl rfl
  · split
    · exact Or.inr rfl
    · split
      · exact Or.inl rfl
      · exact Or.inr rfl

theorem rne_int (n : ℤ) : rne (n : ℚ) = n := by
  unfold rne
  simp

theorem rne_mono {x y : ℚ} (h : x ≤ y) : rne x ≤ rne y := by
  have hf := Int.floor_le_floor h
  rcases lt_or_eq_of_le hf with hlt | heq
  · rcases rne_cases x with a | a <;> rcases rne_cases y with b | b <;> omega
  · unfold rne
    rw [heq]
    have h0 : x - ⌊y⌋ ≤ y - ⌊y⌋ := by linarith
    split_ifs <;> first | omega | (exfalso; linarith)

theorem fl_zero : fl 0 = 0 := by
  have : rne 0 = 0 := by simpa using rne_int 0
  unfold fl
  simp [this]

theorem two_zpow_pos (e : ℤ) : (0 : ℚ) < 2 ^ e := zpow_pos (by norm_num) e

/-- The error is at most half of the last bit. -/
theorem fl_err (x : ℚ) : |fl x - x| ≤ 2 ^ lastBit x / 2 := by
  have hp := two_zpow_pos (lastBit x)
  have h := rne_err (x / 2 ^ lastBit x)
  have e : fl x - x = ((rne (x / 2 ^ lastBit x) : ℚ) - x / 2 ^ lastBit x) * 2 ^ lastBit x := by
    unfold fl
    field_simp
  rw [e, abs_mul, abs_of_pos hp]
  calc _ ≤ 1 / 2 * (2 : ℚ) ^ lastBit x := mul_le_mul_of_nonneg_right h hp.le
    _ = _ := by ring

theorem lastBit_le {x : ℚ} {k : ℤ} (h0 : x ≠ 0) (hk : -1021 ≤ k) (h : |x| < 2 ^ k) : lastBit x ≤ k - 53 := by
  unfold lastBit
  have hpos : 0 < |x| := abs_pos.2 h0
  have := (Int.lt_zpow_iff_log_lt (b := 2) (by norm_num) hpos (x := k)).1 (by exact_mod_cast h)
  omega

theorem le_lastBit {x : ℚ} {k : ℤ} (h : (2 : ℚ) ^ k ≤ |x|) : k - 52 ≤ lastBit x := by
  unfold lastBit
  have hpos : 0 < |x| := lt_of_lt_of_le (two_zpow_pos k) h
  have := (Int.zpow_le_iff_le_log (b := 2) (by norm_num) hpos (x := k)).1 (by exact_mod_cast h)
  omega

/-- Multiples of a power of two that are not larger than 2^53 times this power are not changed. -/
theorem fl_exact {m e : ℤ} (hm : |m| ≤ 2 ^ 53) (he : -1074 ≤ e) : fl (m * 2 ^ e) = m * 2 ^ e := by
  rcases eq_or_ne m 0 with rfl | h0
  · simp [fl_zero]
  have hp := two_zpow_pos e
  have hne : (m : ℚ) * 2 ^ e ≠ 0 := mul_ne_zero (by exact_mod_cast h0) hp.ne'
  -- the last bit divides the number
  have key : ∃ n : ℤ, (m : ℚ) * 2 ^ e / 2 ^ lastBit (m * 2 ^ e) = n := by
    rcases lt_or_eq_of_le hm with hlt | heq
    · have habs : |(m : ℚ) * 2 ^ e| < 2 ^ (e + 53) := by
        rw [abs_mul, abs_of_pos hp, zpow_add₀ (by norm_num), mul_comm]
        refine mul_lt_mul_of_pos_left ?_ hp
        exact_mod_cast hlt
      have hl : lastBit (m * 2 ^ e) ≤ e := by
        have := lastBit_le (k := e + 53) hne (by omega) habs
        omega
      refine ⟨m * 2 ^ (e - lastBit (m * 2 ^ e)).toNat, ?_⟩
      push_cast
      rw [← zpow_natCast, Int.toNat_of_nonneg (by omega), zpow_sub₀ (by norm_num)]
      ring
    · have habs : |(m : ℚ) * 2 ^ e| < 2 ^ (e + 54) := by
        rw [abs_mul, abs_of_pos hp, zpow_add₀ (by norm_num), mul_comm]
        refine mul_lt_mul_of_pos_left ?_ hp
        have : |m| < 2 ^ 54 := by rw [heq]; norm_num
        exact_mod_cast this
      have hl : lastBit (m * 2 ^ e) ≤ e + 1 := by
        have := lastBit_le (k := e + 54) hne (by omega) habs
        omega
      have h2 : ∃ q, m = 2 * q := by
        have : m = 2 ^ 53 ∨ m = - 2 ^ 53 := by
          rcases abs_choice m with h | h <;> rw [h] at heq <;> omega
        rcases this with h | h
        · exact ⟨2 ^ 52, by rw [h]; norm_num⟩
        · exact ⟨-2 ^ 52, by rw [h]; norm_num⟩
      obtain ⟨q, hq⟩ := h2
      refine ⟨q * 2 ^ (e + 1 - lastBit (m * 2 ^ e)).toNat, ?_⟩
      push_cast
      rw [← zpow_natCast, Int.toNat_of_nonneg (by omega), zpow_sub₀ (by norm_num)]
      have hm' : (m : ℚ) = 2 * q := by exact_mod_cast hq
      conv_lhs => rw [show (m : ℚ) * 2 ^ e / 2 ^ lastBit (m * 2 ^ e) = (2 * q) * 2 ^ e / 2 ^ lastBit (m * 2 ^ e) by rw [← hm']]
      rw [zpow_add₀ (by norm_num)]
      ring
  obtain ⟨n, hn⟩ := key
  have hp' := two_zpow_pos (lastBit (m * 2 ^ e))
  rw [fl, hn, rne_int, ← hn]
  field_simp

theorem fl_double {x : ℚ} (h : IsDouble x) : fl x = x := by
  obtain ⟨m, e, hm, he, rfl⟩ := h
  exact fl_exact hm he

/-- `fl` gives doubles. -/
theorem isDouble_fl (x : ℚ) : IsDouble (fl x) := by
  refine ⟨rne (x / 2 ^ lastBit x), lastBit x, ?_, le_max_right _ _, rfl⟩
  have hp := two_zpow_pos (lastBit x)
  have hb : |x / 2 ^ lastBit x| ≤ ((2 ^ 53 : ℤ) : ℚ) := by
    rw [abs_div, abs_of_pos hp, div_le_iff₀ hp]
    rcases eq_or_ne x 0 with rfl | h0
    · rw [abs_zero]; exact mul_nonneg (by norm_num) hp.le
    have h1 := Int.lt_zpow_succ_log_self (b := 2) (by norm_num) |x|
    have h2 : Int.log 2 |x| + 1 ≤ 53 + lastBit x := by
      have : Int.log 2 |x| - 52 ≤ lastBit x := le_max_left _ _
      omega
    have h3 : (2 : ℚ) ^ (Int.log 2 |x| + 1) ≤ 2 ^ (53 + lastBit x) := zpow_le_zpow_right₀ (by norm_num) h2
    have h4 : (2 : ℚ) ^ (53 + lastBit x) = ((2 ^ 53 : ℤ) : ℚ) * 2 ^ lastBit x := by
      rw [zpow_add₀ (by norm_num)]
      norm_num
    have h1' : |x| < (2 : ℚ) ^ (Int.log 2 |x| + 1) := by exact_mod_cast h1
    linarith
  rw [abs_le] at hb ⊢
  constructor
  · have := rne_mono hb.1
    rw [show (-((2 ^ 53 : ℤ) : ℚ)) = (((-2 ^ 53 : ℤ)) : ℚ) by push_cast; ring, rne_int] at this
    exact this
  · have := rne_mono hb.2
    rwa [rne_int] at this

theorem rne_neg (y : ℚ) : rne (-y) = - rne y := by
  have h0 := Int.floor_le y
  have h1 := Int.lt_floor_add_one y
  rcases eq_or_lt_of_le h0 with he | hlt
  · rw [← he, rne_int, ← Int.cast_neg, rne_int]
  · have hfl : ⌊-y⌋ = -⌊y⌋ - 1 := by
      rw [Int.floor_eq_iff]
      push_cast
      constructor <;> linarith
    unfold rne
    rw [hfl]
    push_cast
    split_ifs <;> first | omega | (exfalso; linarith)

theorem lastBit_neg (x : ℚ) : lastBit (-x) = lastBit x := by simp [lastBit]

theorem fl_neg (x : ℚ) : fl (-x) = - fl x := by
  unfold fl
  rw [lastBit_neg, neg_div, rne_neg]
  push_cast
  ring

theorem fl_nonneg {x : ℚ} (h : 0 ≤ x) : 0 ≤ fl x := by
  have hp := two_zpow_pos (lastBit x)
  have := rne_mono (x := 0) (y := x / 2 ^ lastBit x) (by positivity)
  rw [show rne 0 = 0 by simpa using rne_int 0] at this
  unfold fl
  have : (0 : ℚ) ≤ (rne (x / 2 ^ lastBit x) : ℚ) := by exact_mod_cast this
  positivity

theorem fl_mono_pos {x y : ℚ} (h0 : 0 < x) (h : x ≤ y) : fl x ≤ fl y := by
  have hlog : Int.log 2 |x| ≤ Int.log 2 |y| := by
    rw [abs_of_pos h0, abs_of_pos (h0.trans_le h)]
    exact Int.log_mono_right h0 h
  have hl : lastBit x ≤ lastBit y := by
    unfold lastBit; omega
  rcases lt_or_eq_of_le hl with hlt | heq
  · -- a power of two between them
    have hy0 : 0 < y := h0.trans_le h
    have hxy : Int.log 2 |x| < Int.log 2 |y| := by unfold lastBit at hlt; omega
    have hly : lastBit y = Int.log 2 |y| - 52 := by unfold lastBit at hlt ⊢; omega
    have hge : -1022 ≤ Int.log 2 |y| := by unfold lastBit at hlt; omega
    have hx : x < 2 ^ (Int.log 2 |y|) := by
      have := (Int.lt_zpow_iff_log_lt (b := 2) (by norm_num) h0 (x := Int.log 2 |y|)).2 (by rwa [abs_of_pos h0] at hxy)
      exact_mod_cast this
    have hy : (2 : ℚ) ^ (Int.log 2 |y|) ≤ y := by
      have := Int.zpow_log_le_self (b := 2) (by norm_num) hy0
      rw [abs_of_pos hy0]
      exact_mod_cast this
    set k := Int.log 2 |y| with hk
    have e1 : fl y ≥ 2 ^ k := by
      have hp := two_zpow_pos (lastBit y)
      have : (2 : ℚ) ^ k / 2 ^ lastBit y = ((2 ^ 52 : ℤ) : ℚ) := by
        rw [← zpow_sub₀ (by norm_num), hly]
        norm_num
      have h2 := rne_mono (div_le_div_of_nonneg_right hy hp.le)
      rw [this, rne_int] at h2
      have h3 : ((2 ^ 52 : ℤ) : ℚ) ≤ (rne (y / 2 ^ lastBit y) : ℚ) := by exact_mod_cast h2
      rw [← this, div_le_iff₀ hp] at h3
      exact h3
    have e2 : fl x ≤ 2 ^ k := by
      have hp := two_zpow_pos (lastBit x)
      have hkl : 0 ≤ k - lastBit x := by omega
      have : (2 : ℚ) ^ k / 2 ^ lastBit x = ((2 ^ (k - lastBit x).toNat : ℤ) : ℚ) := by
        push_cast
        rw [← zpow_natCast, Int.toNat_of_nonneg hkl, zpow_sub₀ (by norm_num)]
      have h2 := rne_mono (div_le_div_of_nonneg_right hx.le hp.le)
      rw [this, rne_int] at h2
      have h3 : (rne (x / 2 ^ lastBit x) : ℚ) ≤ ((2 ^ (k - lastBit x).toNat : ℤ) : ℚ) := by exact_mod_cast h2
      rw [← this, le_div_iff₀ hp] at h3
      exact h3
    exact e2.trans e1
  · unfold fl
    rw [heq]
    have hp := two_zpow_pos (lastBit y)
    refine mul_le_mul_of_nonneg_right ?_ hp.le
    exact_mod_cast rne_mono (div_le_div_of_nonneg_right h hp.le)

theorem fl_mono {x y : ℚ} (h : x ≤ y) : fl x ≤ fl y := by
  rcases lt_trichotomy x 0 with hx | rfl | hx
  · rcases lt_or_ge y 0 with hy | hy
    · have := fl_mono_pos (x := -y) (y := -x) (by linarith) (by linarith)
      rw [fl_neg, fl_neg] at this
      linarith
    · have h1 := fl_nonneg (x := -x) (by linarith)
      rw [fl_neg] at h1
      have h2 := fl_nonneg hy
      linarith
  · rw [fl_zero]; exact fl_nonneg h
  · exact fl_mono_pos hx h

theorem fl_le_of_double {x d : ℚ} (hd : IsDouble d) (h : x ≤ d) : fl x ≤ d := by
  have := fl_mono h
  rwa [fl_double hd] at this

theorem le_fl_of_double {x d : ℚ} (hd : IsDouble d) (h : d ≤ x) : d ≤ fl x := by
  have := fl_mono h
  rwa [fl_double hd] at this

/-- A double is a multiple of its last bit. -/
theorem multiple_of_double {d : ℚ} (hd : IsDouble d) {e : ℤ} (he : e ≤ lastBit d) : ∃ n : ℤ, d = n * 2 ^ e := by
  have h := fl_double hd
  refine ⟨rne (d / 2 ^ lastBit d) * 2 ^ (lastBit d - e).toNat, ?_⟩
  push_cast
  rw [← zpow_natCast, Int.toNat_of_nonneg (by omega), zpow_sub₀ (by norm_num)]
  have hp := two_zpow_pos e
  conv_lhs => rw [← h, fl]
  field_simp

theorem no_double_between {x d : ℚ} (hd : IsDouble d) (h : d ≤ x) : d ≤ ⌊x / 2 ^ lastBit x⌋ * 2 ^ lastBit x := by
  have hp := two_zpow_pos (lastBit x)
  by_cases hl : lastBit x ≤ lastBit d
  · obtain ⟨n, hn⟩ := multiple_of_double hd hl
    rw [hn]
    refine mul_le_mul_of_nonneg_right ?_ hp.le
    have : n ≤ ⌊x / 2 ^ lastBit x⌋ := by
      rw [Int.le_floor, le_div_iff₀ hp, ← hn]
      exact h
    exact_mod_cast this
  · push Not at hl
    have hlog : Int.log 2 |d| < Int.log 2 |x| := by unfold lastBit at hl; omega
    have hlx : lastBit x = Int.log 2 |x| - 52 := by unfold lastBit at hl ⊢; omega
    rcases lt_trichotomy x 0 with hx | rfl | hx
    · exfalso
      have : Int.log 2 |x| ≤ Int.log 2 |d| := by
        refine Int.log_mono_right (abs_pos.2 hx.ne) ?_
        rw [abs_of_neg hx, abs_of_neg (by linarith)]
        linarith
      omega
    · simpa using h
    · have hx2 : (2 : ℚ) ^ (Int.log 2 |x|) ≤ x := by
        have := Int.zpow_log_le_self (b := 2) (by norm_num) hx
        rw [abs_of_pos hx]
        exact_mod_cast this
      have hd2 : d < 2 ^ (Int.log 2 |x|) := by
        rcases le_or_gt d 0 with h0 | h0
        · exact lt_of_le_of_lt h0 (two_zpow_pos _)
        · have := (Int.lt_zpow_iff_log_lt (b := 2) (by norm_num) h0 (x := Int.log 2 |x|)).2
            (by rwa [abs_of_pos h0] at hlog)
          exact_mod_cast this
      have e1 : (2 : ℚ) ^ (Int.log 2 |x|) = ((2 ^ 52 : ℤ) : ℚ) * 2 ^ lastBit x := by
        rw [hlx, zpow_sub₀ (by norm_num)]
        norm_num
        field_simp
      have e2 : (2 ^ 52 : ℤ) ≤ ⌊x / 2 ^ lastBit x⌋ := by
        rw [Int.le_floor, le_div_iff₀ hp, ← e1]
        exact hx2
      have e3 : ((2 ^ 52 : ℤ) : ℚ) ≤ (⌊x / 2 ^ lastBit x⌋ : ℚ) := by exact_mod_cast e2
      have := mul_le_mul_of_nonneg_right e3 hp.le
      rw [← e1] at this
      exact hd2.le.trans this

theorem fl_nearest_below {x d : ℚ} (hd : IsDouble d) (h : d ≤ x) : |fl x - x| ≤ |d - x| := by
  have hp := two_zpow_pos (lastBit x)
  have hb := no_double_between hd h
  have herr := fl_err x
  have hf0 : (⌊x / 2 ^ lastBit x⌋ : ℚ) * 2 ^ lastBit x ≤ x := by
    rw [← le_div_iff₀ hp]; exact Int.floor_le _
  rw [abs_of_nonpos (show d - x ≤ 0 by linarith)]
  rcases le_total (fl x) x with h' | h'
  · have := le_fl_of_double hd h
    rw [abs_of_nonpos (by linarith)]
    linarith
  · rw [abs_of_nonneg (by linarith)] at herr ⊢
    rcases rne_cases (x / 2 ^ lastBit x) with e | e
    · have : fl x = ⌊x / 2 ^ lastBit x⌋ * 2 ^ lastBit x := by unfold fl; rw [e]
      linarith
    · have : fl x = ⌊x / 2 ^ lastBit x⌋ * 2 ^ lastBit x + 2 ^ lastBit x := by
        unfold fl; rw [e]; push_cast; ring
      linarith

/-- No double is nearer than `fl x`. -/
theorem fl_nearest (x : ℚ) {d : ℚ} (hd : IsDouble d) : |fl x - x| ≤ |d - x| := by
  rcases le_total d x with h | h
  · exact fl_nearest_below hd h
  · have hd' : IsDouble (-d) := by
      obtain ⟨m, e, hm, he, rfl⟩ := hd
      exact ⟨-m, e, by rwa [abs_neg], he, by push_cast; ring⟩
    have := fl_nearest_below hd' (neg_le_neg h)
    rw [fl_neg, show - fl x - -x = -(fl x - x) by ring, show -d - -x = -(d - x) by ring, abs_neg, abs_neg] at this
    exact this

/-- The error on numbers below a power of two. -/
theorem fl_err_lt {y : ℚ} {k : ℤ} (hk : -1021 ≤ k) (h : |y| < 2 ^ k) : |fl y - y| ≤ 2 ^ (k - 54) := by
  rcases eq_or_ne y 0 with rfl | h0
  · rw [fl_zero]; simpa using (two_zpow_pos (k - 54)).le
  · have h1 := fl_err y
    have h2 : (2 : ℚ) ^ lastBit y ≤ 2 ^ (k - 53) := zpow_le_zpow_right₀ (by norm_num) (lastBit_le h0 hk h)
    have h3 : (2 : ℚ) ^ (k - 53) = 2 ^ (k - 54) * 2 := by
      rw [show k - 53 = k - 54 + 1 by ring, zpow_add₀ (by norm_num)]
      norm_num
    linarith

theorem isDouble_int {n : ℤ} (h : |n| ≤ 2 ^ 53) : IsDouble n := ⟨n, 0, h, by norm_num, by simp⟩

/-- The doubles below a bound, when it is a power of two away. -/
theorem double_multiple {d : ℚ} (hd : IsDouble d) {k : ℤ} (h : (2 : ℚ) ^ k ≤ |d|) : ∃ n : ℤ, d = n * 2 ^ (k - 52) :=
  multiple_of_double hd (le_lastBit h)

end Pyinterp.Double
