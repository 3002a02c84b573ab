import Verif.Lemmas.Double
import Verif.Model.DoubleAxis
import Mathlib.Tactic.FieldSimp
import Mathlib.Tactic.Linarith
import Mathlib.Tactic.Positivity
import Mathlib.Tactic.Ring
import Mathlib.Tactic.NormNum

/-
Error analysis of the regular axes of doubles.
-/
namespace Pyinterp.Double

open Spec

/-- The relative error of the rounding, for a bound that is not a subnormal number. -/
theorem fl_rel {y B : ℚ} (h : |y| ≤ B) (hB : 2 ^ (-1022 : ℤ) ≤ B) : |fl y - y| ≤ B * 2 ^ (-53 : ℤ) := by
  rcases lt_or_ge |y| (2 ^ (-1022 : ℤ)) with hy | hy
  · have h1 := fl_err_lt (y := y) (k := -1021) le_rfl (hy.trans (zpow_lt_zpow_right₀ (by norm_num) (by norm_num)))
    refine h1.trans ?_
    have : (2 : ℚ) ^ (-1021 - 54 : ℤ) = 2 ^ (-1022 : ℤ) * 2 ^ (-53 : ℤ) := by
      rw [← zpow_add₀ (by norm_num)]; norm_num
    rw [this]
    exact mul_le_mul_of_nonneg_right hB (two_zpow_pos _).le
  · have hpos : 0 < |y| := lt_of_lt_of_le (two_zpow_pos _) hy
    have hlog : -1022 ≤ Int.log 2 |y| := (Int.zpow_le_iff_le_log (b := 2) (by norm_num) hpos).1 (by exact_mod_cast hy)
    have hle : (2 : ℚ) ^ Int.log 2 |y| ≤ |y| := by
      have := Int.zpow_log_le_self (b := 2) (R := ℚ) (by norm_num) hpos
      exact_mod_cast this
    have hlb : lastBit y = Int.log 2 |y| - 52 := by unfold lastBit; omega
    have h1 := fl_err y
    rw [hlb] at h1
    have : (2 : ℚ) ^ (Int.log 2 |y| - 52) / 2 = 2 ^ Int.log 2 |y| * 2 ^ (-53 : ℤ) := by
      rw [div_eq_mul_inv, ← zpow_neg_one, ← zpow_add₀ (by norm_num), ← zpow_add₀ (by norm_num)]
      congr 1; ring
    rw [this] at h1
    exact h1.trans (mul_le_mul_of_nonneg_right (hle.trans h) (two_zpow_pos _).le)

theorem round_err (y : ℚ) : |(round y : ℚ) - y| ≤ 1 / 2 := by
  unfold round
  split
  · have h0 := Int.floor_le (y + 1 / 2)
    have h1 := Int.lt_floor_add_one (y + 1 / 2)
    rw [abs_le]; constructor <;> linarith
  · have h0 := Int.floor_le (-y + 1 / 2)
    have h1 := Int.lt_floor_add_one (-y + 1 / 2)
    push_cast
    rw [abs_le]; constructor <;> linarith

theorem round_eq {y : ℚ} {n : ℤ} (h : |y - n| < 1 / 2) : round y = n := by
  have h1 := round_err y
  have : |((round y - n : ℤ) : ℚ)| < 1 := by
    push_cast
    calc |(round y : ℚ) - n| = |((round y : ℚ) - y) + (y - n)| := by ring_nf
      _ ≤ _ := abs_add_le _ _
      _ < 1 := by linarith
  rw [← Int.cast_abs, ← Int.cast_one, Int.cast_lt, Int.abs_lt_one_iff] at this
  omega

theorem round_mono {x y : ℚ} (h : x ≤ y) : round x ≤ round y := by
  unfold round
  split
  · rw [if_pos (by linarith)]
    exact Int.floor_le_floor (by linarith)
  · split
    · have h1 : 0 ≤ ⌊-x + 1 / 2⌋ := Int.floor_nonneg.2 (by linarith)
      have h2 : 0 ≤ ⌊y + 1 / 2⌋ := Int.floor_nonneg.2 (by linarith)
      omega
    · have := Int.floor_le_floor (show -y + 1 / 2 ≤ -x + 1 / 2 by linarith)
      omega

/-- What the error analysis needs to know of a regular axis. -/
structure Sane (k : ℤ) (r : Reg) : Prop where
  size_pos : 2 ≤ r.size
  size_le : (r.size : ℚ) ≤ 2 ^ k
  start_double : IsDouble r.start
  start_le : |r.start| ≤ 2 ^ k * |r.step|
  step_ge : 2 ^ (-1000 : ℤ) ≤ |r.step|
  step_le : |r.step| ≤ 2 ^ (1000 : ℤ)
  inv_eq : r.inv = div 1 r.step

theorem Sane.mono {k l : ℤ} (h : k ≤ l) {r : Reg} (s : Sane k r) : Sane l r := by
  have hkl : (2 : ℚ) ^ k ≤ 2 ^ l := zpow_le_zpow_right₀ (by norm_num) h
  exact ⟨s.1, s.2.trans hkl, s.3, s.4.trans (mul_le_mul_of_nonneg_right hkl (abs_nonneg _)), s.5, s.6, s.7⟩

variable {r : Reg}

theorem Sane.pos {k : ℤ} (s : Sane k r) : 0 < |r.step| := lt_of_lt_of_le (two_zpow_pos _) s.step_ge

/-- The coordinates are those of the regular axis up to a fraction of the step. -/
theorem Sane.coord_err {k : ℤ} (hk0 : 0 ≤ k) (s : Sane k r) {i : ℤ} (h0 : 0 ≤ i) (h1 : i < r.size) :
    |r.coord i - (r.start + i * r.step)| ≤ 7 / 2 * (2 ^ k * 2 ^ (-53 : ℤ)) * |r.step| := by
  have hp := s.pos
  set t := |r.step| with ht
  set P : ℚ := 2 ^ k with hP
  have hP1 : 1 ≤ P := one_le_zpow₀ (by norm_num) hk0
  have hi0 : (0 : ℚ) ≤ i := by exact_mod_cast h0
  have hiP : (i : ℚ) ≤ P := by
    have : (i : ℚ) < r.size := by exact_mod_cast h1
    linarith [s.size_le]
  have hsub : (2 : ℚ) ^ (-1022 : ℤ) ≤ t :=
    (zpow_le_zpow_right₀ (by norm_num) (by norm_num)).trans s.step_ge
  have hPt : t ≤ P * t := by nlinarith
  have e1 : |mul i r.step - i * r.step| ≤ P * t * 2 ^ (-53 : ℤ) := by
    apply fl_rel
    · rw [abs_mul, abs_of_nonneg hi0]
      exact mul_le_mul_of_nonneg_right hiP hp.le
    · linarith
  have hmul : |mul i r.step| ≤ P * t + P * t * 2 ^ (-53 : ℤ) := by
    have h2 : |(i : ℚ) * r.step| ≤ P * t := by
      rw [abs_mul, abs_of_nonneg hi0]
      exact mul_le_mul_of_nonneg_right hiP hp.le
    calc |mul i r.step| = |(mul i r.step - i * r.step) + i * r.step| := by ring_nf
      _ ≤ _ := abs_add_le _ _
      _ ≤ _ := by linarith
  have e2 : |r.coord i - (r.start + mul i r.step)| ≤ (5 / 2 * (P * t)) * 2 ^ (-53 : ℤ) := by
    apply fl_rel
    · refine (abs_add_le _ _).trans ?_
      have hst : |r.start| ≤ P * t := s.start_le
      have h53 : (2 : ℚ) ^ (-53 : ℤ) ≤ 1 / 2 := by norm_num
      have : P * t * 2 ^ (-53 : ℤ) ≤ P * t * (1 / 2) := mul_le_mul_of_nonneg_left h53 (by positivity)
      refine (add_le_add hst hmul).trans ?_
      generalize P * t * 2 ^ (-53 : ℤ) = X at this ⊢
      generalize P * t = Y at this ⊢
      linarith
    · linarith
  calc |r.coord i - (r.start + i * r.step)| =
      |(r.coord i - (r.start + mul i r.step)) + (mul i r.step - i * r.step)| := by ring_nf
    _ ≤ _ := abs_add_le _ _
    _ ≤ 5 / 2 * (P * t) * 2 ^ (-53 : ℤ) + P * t * 2 ^ (-53 : ℤ) := add_le_add e2 e1
    _ = _ := by ring

/-- The quotient computed by `find_index`. -/
theorem Sane.quot_err {k : ℤ} (s : Sane k r) {c B : ℚ} (hB : 1 ≤ B) (h : |c - r.start| ≤ B * |r.step|) :
    |mul (sub c r.start) r.inv - (c - r.start) / r.step| ≤ B * 2 ^ (-51 : ℤ) := by
  have hp := s.pos
  have hne : r.step ≠ 0 := abs_pos.1 hp
  set t := |r.step| with ht
  set d := c - r.start with hd
  have hsub : (2 : ℚ) ^ (-1022 : ℤ) ≤ t :=
    (zpow_le_zpow_right₀ (by norm_num) (by norm_num)).trans s.step_ge
  have e1 : |sub c r.start - d| ≤ B * t * 2 ^ (-53 : ℤ) := fl_rel h (by nlinarith)
  have hinv : |r.inv - 1 / r.step| ≤ 1 / t * 2 ^ (-53 : ℤ) := by
    rw [s.inv_eq]
    apply fl_rel
    · rw [abs_div, abs_one]
    · rw [le_div_iff₀ hp]
      have h1 := mul_le_mul_of_nonneg_left s.step_le (two_zpow_pos (-1022 : ℤ)).le
      rw [← zpow_add₀ (by norm_num)] at h1
      refine h1.trans ?_
      norm_num
  have hinv' : |r.inv| ≤ 1 / t * (1 + 2 ^ (-53 : ℤ)) := by
    have h1 : |1 / r.step| = 1 / t := by rw [abs_div, abs_one]
    calc |r.inv| = |(r.inv - 1 / r.step) + 1 / r.step| := by ring_nf
      _ ≤ _ := abs_add_le _ _
      _ ≤ _ := by rw [h1]; linarith
  have e2 : |sub c r.start * r.inv - d / r.step| ≤ B * (5 / 2 * 2 ^ (-53 : ℤ)) := by
    have e : sub c r.start * r.inv - d / r.step = (sub c r.start - d) * r.inv + d * (r.inv - 1 / r.step) := by ring
    rw [e]
    refine (abs_add_le _ _).trans ?_
    rw [abs_mul, abs_mul]
    have a1 : |sub c r.start - d| * |r.inv| ≤ (B * t * 2 ^ (-53 : ℤ)) * (1 / t * (1 + 2 ^ (-53 : ℤ))) :=
      mul_le_mul e1 hinv' (abs_nonneg _) (by positivity)
    have a2 : |d| * |r.inv - 1 / r.step| ≤ (B * t) * (1 / t * 2 ^ (-53 : ℤ)) :=
      mul_le_mul h hinv (abs_nonneg _) (by positivity)
    have b1 : (B * t * 2 ^ (-53 : ℤ)) * (1 / t * (1 + 2 ^ (-53 : ℤ))) = B * (2 ^ (-53 : ℤ) * (1 + 2 ^ (-53 : ℤ))) := by
      field_simp
    have b2 : (B * t) * (1 / t * 2 ^ (-53 : ℤ)) = B * 2 ^ (-53 : ℤ) := by field_simp
    rw [b1] at a1; rw [b2] at a2
    norm_num at a1 a2 ⊢
    linarith
  have hq : |d / r.step| ≤ B := by rw [abs_div, div_le_iff₀ hp]; exact h
  have hy : |sub c r.start * r.inv| ≤ B * (5 / 4) := by
    calc |sub c r.start * r.inv| = |(sub c r.start * r.inv - d / r.step) + d / r.step| := by ring_nf
      _ ≤ _ := abs_add_le _ _
      _ ≤ _ := by norm_num at e2 ⊢; linarith
  have e3 : |mul (sub c r.start) r.inv - sub c r.start * r.inv| ≤ (B * (5 / 4)) * 2 ^ (-53 : ℤ) := by
    apply fl_rel hy
    have : (2 : ℚ) ^ (-1022 : ℤ) ≤ 1 := zpow_le_one_of_nonpos₀ (by norm_num) (by norm_num)
    linarith
  calc |mul (sub c r.start) r.inv - d / r.step| =
      |(mul (sub c r.start) r.inv - sub c r.start * r.inv) + (sub c r.start * r.inv - d / r.step)| := by ring_nf
    _ ≤ _ := abs_add_le _ _
    _ ≤ _ := by norm_num at e2 e3 ⊢; linarith

theorem coord_err49 (s : Sane 49 r) {i : ℤ} (h0 : 0 ≤ i) (h1 : i < r.size) :
    |r.coord i - (r.start + i * r.step)| ≤ 7 / 32 * |r.step| := by
  have h := s.coord_err (by norm_num) h0 h1
  refine h.trans (le_of_eq ?_)
  norm_num

/-- The coordinates are strictly monotone. -/
theorem coord_lt (s : Sane 49 r) {i j : ℤ} (h0 : 0 ≤ i) (hij : i < j) (h1 : j < r.size) :
    (0 < r.step → r.coord i < r.coord j) ∧ (r.step < 0 → r.coord j < r.coord i) := by
  have ei := abs_le.1 (coord_err49 s h0 (hij.trans h1))
  have ej := abs_le.1 (coord_err49 s (h0.trans hij.le) h1)
  have hd : (1 : ℚ) ≤ (j : ℚ) - i := by
    have : (i : ℚ) + 1 ≤ j := by exact_mod_cast hij
    linarith
  constructor
  · intro h
    rw [abs_of_pos h] at ei ej
    nlinarith
  · intro h
    rw [abs_of_neg h] at ei ej
    nlinarith

theorem coord_zero (s : Sane 49 r) : r.coord 0 = r.start := by
  unfold Reg.coord mul add
  simp only [Int.cast_zero, zero_mul, fl_zero, add_zero]
  exact fl_double s.start_double

/-- `find_index` at a coordinate of the axis. -/
theorem findIndex_coord (s : Sane 49 r) {i : ℤ} (h0 : 0 ≤ i) (h1 : i < r.size) :
    round (mul (sub (r.coord i) r.start) r.inv) = i := by
  have hp := s.pos
  have hne : r.step ≠ 0 := abs_pos.1 hp
  have e := coord_err49 s h0 h1
  have hi : (0 : ℚ) ≤ i := by exact_mod_cast h0
  have hi' : (i : ℚ) ≤ 2 ^ 49 := by
    have : (i : ℚ) < r.size := by exact_mod_cast h1
    have := s.size_le
    norm_num at this ⊢
    linarith
  have hb : |r.coord i - r.start| ≤ (2 ^ 49 + 1) * |r.step| := by
    have : r.coord i - r.start = (r.coord i - (r.start + i * r.step)) + i * r.step := by ring
    rw [this]
    refine (abs_add_le _ _).trans ?_
    rw [abs_mul, abs_of_nonneg hi]
    nlinarith
  have q := s.quot_err (by norm_num) hb
  apply round_eq
  have e' : |(r.coord i - r.start) / r.step - i| ≤ 7 / 32 := by
    have : (r.coord i - r.start) / r.step - i = (r.coord i - (r.start + i * r.step)) / r.step := by
      field_simp; ring
    rw [this, abs_div, div_le_iff₀ hp]
    exact e
  calc |mul (sub (r.coord i) r.start) r.inv - i| =
      |(mul (sub (r.coord i) r.start) r.inv - (r.coord i - r.start) / r.step) +
        ((r.coord i - r.start) / r.step - i)| := by ring_nf
    _ ≤ _ := abs_add_le _ _
    _ ≤ (2 ^ 49 + 1) * 2 ^ (-51 : ℤ) + 7 / 32 := add_le_add q e'
    _ < 1 / 2 := by norm_num

theorem double_unit {a : ℚ} (h : IsDouble a) : ∃ n : ℤ, a = n * 2 ^ (-1074 : ℤ) := by
  obtain ⟨m, e, -, he, rfl⟩ := h
  refine ⟨m * 2 ^ (e + 1074).toNat, ?_⟩
  push_cast
  rw [← zpow_natCast, Int.toNat_of_nonneg (by omega), mul_assoc, ← zpow_add₀ (by norm_num)]
  congr 2; ring

/-- The sign of a difference of doubles is exact (gradual underflow). -/
theorem sub_lt {a b : ℚ} (ha : IsDouble a) (hb : IsDouble b) (h : a < b) : sub a b < 0 := by
  obtain ⟨n, rfl⟩ := double_unit ha
  obtain ⟨m, rfl⟩ := double_unit hb
  have hp := two_zpow_pos (-1074)
  have hnm : n < m := by
    have := lt_of_mul_lt_mul_right h hp.le
    exact_mod_cast this
  have hq : ((n : ℚ) - m) ≤ -1 := by
    have : (n : ℚ) + 1 ≤ m := by exact_mod_cast hnm
    linarith
  have hd : IsDouble (-2 ^ (-1074 : ℤ)) := ⟨-1, -1074, by norm_num, le_rfl, by norm_num⟩
  have := fl_le_of_double hd (x := (n : ℚ) * 2 ^ (-1074 : ℤ) - m * 2 ^ (-1074 : ℤ)) (by
    rw [← sub_mul]
    have := mul_le_mul_of_nonneg_right hq hp.le
    linarith)
  unfold sub
  linarith

theorem sub_antisymm (a b : ℚ) : sub a b = -sub b a := by
  unfold sub
  rw [← fl_neg]
  congr 1; ring

theorem sub_neg_iff {a b : ℚ} (ha : IsDouble a) (hb : IsDouble b) : sub a b < 0 ↔ a < b := by
  refine ⟨fun h => ?_, sub_lt ha hb⟩
  by_contra hn
  rcases eq_or_lt_of_le (not_lt.1 hn) with rfl | hlt
  · simp [sub, fl_zero] at h
  · have := sub_lt hb ha hlt
    rw [sub_antisymm] at this
    linarith

theorem sub_zero_iff {a b : ℚ} (ha : IsDouble a) (hb : IsDouble b) : sub a b = 0 ↔ a = b := by
  constructor
  · intro h
    rcases lt_trichotomy a b with hlt | heq | hlt
    · exact absurd h (sub_lt ha hb hlt).ne
    · exact heq
    · have := sub_lt hb ha hlt
      rw [sub_antisymm, h] at this
      simp at this
  · rintro rfl
    simp [sub, fl_zero]

/-- `c` is between `a` and `b`, in either order. -/
def Btw (a c b : ℚ) : Prop := (a ≤ c ∧ c ≤ b) ∨ (b ≤ c ∧ c ≤ a)

theorem coord_dist (s : Sane 49 r) {i : ℤ} (h0 : 0 ≤ i) (h1 : i < r.size) :
    |r.coord i - r.start| ≤ (2 ^ 49 + 1) * |r.step| := by
  have hp := s.pos
  have e := coord_err49 s h0 h1
  have hi : (0 : ℚ) ≤ i := by exact_mod_cast h0
  have hi' : (i : ℚ) ≤ 2 ^ 49 := by
    have : (i : ℚ) < r.size := by exact_mod_cast h1
    have := s.size_le
    norm_num at this ⊢
    linarith
  have : r.coord i - r.start = (r.coord i - (r.start + i * r.step)) + i * r.step := by ring
  rw [this]
  refine (abs_add_le _ _).trans ?_
  rw [abs_mul, abs_of_nonneg hi]
  nlinarith

/-- The index found inside the axis. -/
theorem round_inside (s : Sane 49 r) {c : ℚ} (h : Btw r.start c r.back) :
    let i := round (mul (sub c r.start) r.inv)
    0 ≤ i ∧ i < r.size ∧ |c - (r.start + i * r.step)| ≤ (3 / 4 + 2 ^ (-51 : ℤ)) * |r.step| := by
  intro i
  have hp := s.pos
  have hne : r.step ≠ 0 := abs_pos.1 hp
  have hsz := s.size_pos
  have hback : round (mul (sub r.back r.start) r.inv) = r.size - 1 := findIndex_coord s (by omega) (by omega)
  have hd : |c - r.start| ≤ (2 ^ 49 + 1) * |r.step| := by
    have hb := coord_dist s (i := r.size - 1) (by omega) (by omega)
    refine le_trans ?_ hb
    change |c - r.start| ≤ |r.back - r.start|
    rcases h with ⟨a, b⟩ | ⟨a, b⟩
    · rw [abs_of_nonneg (by linarith), abs_of_nonneg (by linarith)]; linarith
    · rw [abs_of_nonpos (by linarith), abs_of_nonpos (by linarith)]; linarith
  have q := s.quot_err (by norm_num) hd
  have hr := round_err (mul (sub c r.start) r.inv)
  have hdist : |c - (r.start + i * r.step)| ≤ (3 / 4 + 2 ^ (-51 : ℤ)) * |r.step| := by
    have e : c - (r.start + i * r.step) = ((c - r.start) / r.step - i) * r.step := by field_simp; ring
    rw [e, abs_mul]
    refine mul_le_mul_of_nonneg_right ?_ hp.le
    calc |(c - r.start) / r.step - i| =
        |-(mul (sub c r.start) r.inv - (c - r.start) / r.step) + -((i : ℚ) - mul (sub c r.start) r.inv)| := by ring_nf
      _ ≤ _ := abs_add_le _ _
      _ ≤ (2 ^ 49 + 1) * 2 ^ (-51 : ℤ) + 1 / 2 := by rw [abs_neg, abs_neg]; exact add_le_add q hr
      _ = _ := by norm_num
  have hcmp := coord_lt s (i := 0) (j := r.size - 1) le_rfl (by omega) (by omega)
  rw [coord_zero s] at hcmp
  change (_ → r.start < r.back) ∧ (_ → r.back < r.start) at hcmp
  refine ⟨?_, ?_, hdist⟩
  · have : round 0 = 0 := by unfold round; norm_num
    rw [← this]
    apply round_mono
    unfold mul
    apply fl_nonneg
    rw [s.inv_eq]
    rcases lt_or_gt_of_ne hne with hs | hs
    · have h1 : c ≤ r.start := by have := hcmp.2 hs; rcases h with ⟨a, b⟩ | ⟨a, b⟩ <;> linarith
      have h2 : sub c r.start ≤ 0 := by
        rw [sub_antisymm]
        have := fl_nonneg (x := r.start - c) (by linarith)
        unfold sub; linarith
      have h3 : div 1 r.step ≤ 0 := by
        have := fl_nonneg (x := 1 / -r.step) (by apply div_nonneg <;> linarith)
        rw [div_neg, fl_neg] at this
        unfold div; linarith
      exact mul_nonneg_of_nonpos_of_nonpos h2 h3
    · have h1 : r.start ≤ c := by have := hcmp.1 hs; rcases h with ⟨a, b⟩ | ⟨a, b⟩ <;> linarith
      exact mul_nonneg (fl_nonneg (by linarith)) (fl_nonneg (by positivity))
  · have : i ≤ r.size - 1 := by
      rw [← hback]
      apply round_mono
      unfold mul
      apply fl_mono
      rw [s.inv_eq]
      rcases lt_or_gt_of_ne hne with hs | hs
      · have h1 : r.back ≤ c := by have := hcmp.2 hs; rcases h with ⟨a, b⟩ | ⟨a, b⟩ <;> linarith
        have h2 : sub r.back r.start ≤ sub c r.start := fl_mono (by linarith)
        have h3 : div 1 r.step ≤ 0 := by
          have := fl_nonneg (x := 1 / -r.step) (by apply div_nonneg <;> linarith)
          rw [div_neg, fl_neg] at this
          unfold div; linarith
        exact mul_le_mul_of_nonpos_right h2 h3
      · have h1 : c ≤ r.back := by have := hcmp.1 hs; rcases h with ⟨a, b⟩ | ⟨a, b⟩ <;> linarith
        exact mul_le_mul_of_nonneg_right (fl_mono (by linarith)) (fl_nonneg (by positivity))
    omega

theorem findIndex_ok (s : Sane 49 r) {c : ℚ} {b : Bool} {i : ℤ} (e : round (mul (sub c r.start) r.inv) = i)
    (h0 : 0 ≤ i) (h1 : i < r.size) : r.findIndex c b = .ok i := by
  have : (r.size : ℚ) ≤ (2 ^ 49 : ℤ) := by
    have := s.size_le
    norm_num at this ⊢
    exact this
  have : r.size ≤ 2 ^ 49 := by exact_mod_cast this
  unfold Reg.findIndex
  rw [e]
  simp only []
  rw [if_neg (by omega), if_neg (by omega), if_neg (by omega)]

/-- The two indexes that frame a coordinate. -/
theorem findIndexes_frame (s : Sane 49 r) (ha : r.asc = decide (0 < r.step)) {c : ℚ} (hc : IsDouble c)
    (h : Btw r.start c r.back) :
    ∃ i j : ℤ, r.findIndexes c = .ok (some (i, j)) ∧ (0 ≤ i ∧ i < r.size) ∧ (0 ≤ j ∧ j < r.size) ∧
      (j = i + 1 ∨ i = j + 1) ∧ Btw (r.coord i) c (r.coord j) := by
  obtain ⟨h0, h1, hd⟩ := round_inside s h
  have hne : r.step ≠ 0 := abs_pos.1 s.pos
  have hsz := s.size_pos
  set i := round (mul (sub c r.start) r.inv) with hi
  have hf := findIndex_ok s (b := false) hi.symm h0 h1
  have hcoord : IsDouble (r.coord i) := isDouble_fl _
  have hz := coord_zero s
  have hcmp := coord_lt s (i := 0) (j := r.size - 1) le_rfl (by omega) (by omega)
  rw [hz] at hcmp
  change (_ → r.start < r.back) ∧ (_ → r.back < r.start) at hcmp
  have hval : r.findIndexes c = .ok (
      let (j0, j1) : Int × Int :=
        if sub c (r.coord i) = 0 then (if i = r.size - 1 then (i - 1, i) else (i, i + 1))
        else if sub c (r.coord i) < 0 then (if r.asc then i - 1 else i + 1, i)
        else (i, if r.asc then i + 1 else i - 1)
      if 0 ≤ j0 ∧ j0 < r.size ∧ 0 ≤ j1 ∧ j1 < r.size then some (j0, j1) else none) := by
    unfold Reg.findIndexes
    rw [hf]
    change (if i = -1 then _ else _) = _
    rw [if_neg (by omega)]
    rfl
  rw [hval]
  simp only [sub_zero_iff hc hcoord, sub_neg_iff hc hcoord, ha]
  have hup : i + 1 < r.size → |r.coord (i + 1) - (r.start + (i + 1) * r.step)| ≤ 7 / 32 * |r.step| := by
    intro hh
    have := coord_err49 s (i := i + 1) (by omega) hh
    push_cast at this
    exact this
  have hdown : 1 ≤ i → |r.coord (i - 1) - (r.start + (i - 1) * r.step)| ≤ 7 / 32 * |r.step| := by
    intro hh
    have := coord_err49 s (i := i - 1) (by omega) (by omega)
    push_cast at this
    exact this
  rcases lt_trichotomy c (r.coord i) with hlt | heq | hgt
  · simp only [if_neg hlt.ne, if_pos hlt, decide_eq_true_eq]
    rcases lt_or_gt_of_ne hne with hs | hs
    · simp only [if_neg (not_lt.2 hs.le)]
      have hin : i + 1 < r.size := by
        by_contra hh
        have : i = r.size - 1 := by omega
        have hcb : c < r.back := by rw [this] at hlt; exact hlt
        have := hcmp.2 hs
        rcases h with ⟨a, b⟩ | ⟨a, b⟩ <;> linarith
      rw [if_pos (by omega)]
      refine ⟨_, _, rfl, by omega, by omega, by omega, Or.inl ⟨?_, hlt.le⟩⟩
      have e := abs_le.1 (hup hin)
      have d := abs_le.1 hd
      rw [abs_of_neg hs] at e d
      norm_num at d
      nlinarith
    · simp only [if_pos hs]
      have hin : 1 ≤ i := by
        by_contra hh
        have : i = 0 := by omega
        rw [this, hz] at hlt
        have := hcmp.1 hs
        rcases h with ⟨a, b⟩ | ⟨a, b⟩ <;> linarith
      rw [if_pos (by omega)]
      refine ⟨_, _, rfl, by omega, by omega, by omega, Or.inl ⟨?_, hlt.le⟩⟩
      have e := abs_le.1 (hdown hin)
      have d := abs_le.1 hd
      rw [abs_of_pos hs] at e d
      norm_num at d
      nlinarith
  · simp only [if_pos heq]
    by_cases hl : i = r.size - 1
    · simp only [if_pos hl]
      rw [if_pos (by omega)]
      refine ⟨_, _, rfl, by omega, by omega, by omega, ?_⟩
      have := coord_lt s (i := i - 1) (j := i) (by omega) (by omega) (by omega)
      rcases lt_or_gt_of_ne hne with hs | hs
      · exact Or.inr ⟨heq.ge, heq ▸ (this.2 hs).le⟩
      · exact Or.inl ⟨heq ▸ (this.1 hs).le, heq.le⟩
    · simp only [if_neg hl]
      rw [if_pos (by omega)]
      refine ⟨_, _, rfl, by omega, by omega, by omega, ?_⟩
      have := coord_lt s (i := i) (j := i + 1) (by omega) (by omega) (by omega)
      rcases lt_or_gt_of_ne hne with hs | hs
      · exact Or.inr ⟨heq ▸ (this.2 hs).le, heq.le⟩
      · exact Or.inl ⟨heq.ge, heq ▸ (this.1 hs).le⟩
  · simp only [if_neg hgt.ne', if_neg (not_lt.2 hgt.le), decide_eq_true_eq]
    rcases lt_or_gt_of_ne hne with hs | hs
    · simp only [if_neg (not_lt.2 hs.le)]
      have hin : 1 ≤ i := by
        by_contra hh
        have : i = 0 := by omega
        rw [this, hz] at hgt
        have := hcmp.2 hs
        rcases h with ⟨a, b⟩ | ⟨a, b⟩ <;> linarith
      rw [if_pos (by omega)]
      refine ⟨_, _, rfl, by omega, by omega, by omega, Or.inl ⟨hgt.le, ?_⟩⟩
      have e := abs_le.1 (hdown hin)
      have d := abs_le.1 hd
      rw [abs_of_neg hs] at e d
      norm_num at d
      nlinarith
    · simp only [if_pos hs]
      have hin : i + 1 < r.size := by
        by_contra hh
        have : i = r.size - 1 := by omega
        have hcb : r.back < c := by rw [this] at hgt; exact hgt
        have := hcmp.1 hs
        rcases h with ⟨a, b⟩ | ⟨a, b⟩ <;> linarith
      rw [if_pos (by omega)]
      refine ⟨_, _, rfl, by omega, by omega, by omega, Or.inl ⟨hgt.le, ?_⟩⟩
      have e := abs_le.1 (hup hin)
      have d := abs_le.1 hd
      rw [abs_of_pos hs] at e d
      norm_num at d
      nlinarith

theorem findIndexes_val {c : ℚ} {i : ℤ} (hf : r.findIndex c false = .ok i) (hi : i ≠ -1) :
    r.findIndexes c = .ok (
      let (j0, j1) : Int × Int :=
        if sub c (r.coord i) = 0 then (if i = r.size - 1 then (i - 1, i) else (i, i + 1))
        else if sub c (r.coord i) < 0 then (if r.asc then i - 1 else i + 1, i)
        else (i, if r.asc then i + 1 else i - 1)
      if 0 ≤ j0 ∧ j0 < r.size ∧ 0 ≤ j1 ∧ j1 < r.size then some (j0, j1) else none) := by
  unfold Reg.findIndexes
  rw [hf]
  change (if i = -1 then _ else _) = _
  rw [if_neg hi]
  rfl

/-- Outside of the axis. -/
theorem findIndexes_outside (s : Sane 49 r) (ha : r.asc = decide (0 < r.step)) {c : ℚ} (hc : IsDouble c)
    (h : ¬ Btw r.start c r.back) (hu : |round (mul (sub c r.start) r.inv)| < 2 ^ 63) :
    r.findIndexes c = .ok none := by
  have hne : r.step ≠ 0 := abs_pos.1 s.pos
  have hsz := s.size_pos
  have hback : round (mul (sub r.back r.start) r.inv) = r.size - 1 := findIndex_coord s (by omega) (by omega)
  have hz := coord_zero s
  have hcmp := coord_lt s (i := 0) (j := r.size - 1) le_rfl (by omega) (by omega)
  rw [hz] at hcmp
  change (_ → r.start < r.back) ∧ (_ → r.back < r.start) at hcmp
  set i := round (mul (sub c r.start) r.inv) with hi
  have hu' := abs_lt.1 hu
  have r0 : round 0 = 0 := by unfold round; norm_num
  -- the side on which the coordinate lies
  have side : (i ≤ 0 ∧ (0 < r.step → c < r.start) ∧ (r.step < 0 → r.start < c)) ∨
      (r.size - 1 ≤ i ∧ (0 < r.step → r.back < c) ∧ (r.step < 0 → c < r.back)) := by
    rcases lt_or_gt_of_ne hne with hs | hs
    · have hinv : r.inv ≤ 0 := by
        rw [s.inv_eq]
        have := fl_nonneg (x := 1 / -r.step) (by apply div_nonneg <;> linarith)
        rw [div_neg, fl_neg] at this
        unfold div; linarith
      have := hcmp.2 hs
      rcases lt_or_ge r.start c with h1 | h1
      · refine Or.inl ⟨?_, fun h => by linarith, fun _ => h1⟩
        rw [← r0]
        apply round_mono
        have : mul (sub c r.start) r.inv ≤ fl 0 := fl_mono (mul_nonpos_of_nonneg_of_nonpos (fl_nonneg (by linarith)) hinv)
        rwa [fl_zero] at this
      · have h2 : c < r.back := by
          by_contra hh
          exact h (Or.inr ⟨not_lt.1 hh, h1⟩)
        refine Or.inr ⟨?_, fun h => by linarith, fun _ => h2⟩
        rw [← hback]
        exact round_mono (fl_mono (mul_le_mul_of_nonpos_right (fl_mono (by linarith)) hinv))
    · have hinv : 0 ≤ r.inv := by
        rw [s.inv_eq]
        exact fl_nonneg (by positivity)
      have := hcmp.1 hs
      rcases lt_or_ge c r.start with h1 | h1
      · refine Or.inl ⟨?_, fun _ => h1, fun h => by linarith⟩
        rw [← r0]
        apply round_mono
        have h3 : sub c r.start ≤ 0 := by
          have : sub c r.start ≤ fl 0 := fl_mono (by linarith)
          rwa [fl_zero] at this
        have : mul (sub c r.start) r.inv ≤ fl 0 := fl_mono (mul_nonpos_of_nonpos_of_nonneg h3 hinv)
        rwa [fl_zero] at this
      · have h2 : r.back < c := by
          by_contra hh
          exact h (Or.inl ⟨h1, not_lt.1 hh⟩)
        refine Or.inr ⟨?_, fun _ => h2, fun h => by linarith⟩
        rw [← hback]
        exact round_mono (fl_mono (mul_le_mul_of_nonneg_right (fl_mono (by linarith)) hinv))
  by_cases hin : i < 0 ∨ r.size ≤ i
  · have hf : r.findIndex c false = .ok (-1) := by
      unfold Reg.findIndex
      simp only [← hi]
      rw [if_neg (by omega)]
      rcases hin with h1 | h1
      · rw [if_pos h1]; rfl
      · rw [if_neg (by omega), if_pos h1]; rfl
    unfold Reg.findIndexes
    rw [hf]
    rfl
  · have hf : r.findIndex c false = .ok i := findIndex_ok s hi.symm (by omega) (by omega)
    rw [findIndexes_val hf (by omega)]
    have hcoord : IsDouble (r.coord i) := isDouble_fl _
    simp only [sub_zero_iff hc hcoord, sub_neg_iff hc hcoord, ha]
    rcases side with ⟨h1, h2, h3⟩ | ⟨h1, h2, h3⟩
    · have i0 : i = 0 := by omega
      rw [i0, hz]
      rcases lt_or_gt_of_ne hne with hs | hs
      · have := h3 hs
        simp only [if_neg this.ne', if_neg (not_lt.2 this.le), decide_eq_true_eq, if_neg (not_lt.2 hs.le)]
        rw [if_neg (by omega)]
      · have := h2 hs
        simp only [if_neg this.ne, if_pos this, decide_eq_true_eq, if_pos hs]
        rw [if_neg (by omega)]
    · have i0 : i = r.size - 1 := by omega
      have hb : r.coord (r.size - 1) = r.back := rfl
      rw [i0, hb]
      rcases lt_or_gt_of_ne hne with hs | hs
      · have := h3 hs
        simp only [if_neg this.ne, if_pos this, decide_eq_true_eq, if_neg (not_lt.2 hs.le)]
        rw [if_neg (by omega)]
      · have := h2 hs
        simp only [if_neg this.ne', if_neg (not_lt.2 this.le), decide_eq_true_eq, if_pos hs]
        rw [if_neg (by omega)]

end Pyinterp.Double
