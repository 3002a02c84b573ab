import Verif.Lemmas.DoubleAxis

/-
C122: regular axes of doubles, with the rounding of every operation.
-/
namespace Pyinterp.Double

open Spec

/-- The step of an axis is the exact one up to the rounding of two operations. -/
theorem step_err {start stop : ℚ} {num : ℤ} (h : Spacing start stop num) :
    |div (sub stop start) (num - 1 : ℤ) - (stop - start) / (num - 1)| ≤
      |stop - start| / (num - 1) * (5 / 2 * 2 ^ (-53 : ℤ)) := by
  have hn : (1 : ℚ) ≤ (num : ℚ) - 1 := by
    have : ((2 : ℤ) : ℚ) ≤ num := by exact_mod_cast h.two_le
    push_cast at this; linarith
  have hn' : (num : ℚ) - 1 ≤ 2 ^ 47 := by
    have : (num : ℚ) ≤ ((2 ^ 47 : ℤ) : ℚ) := by exact_mod_cast h.num_le
    push_cast at this; linarith
  have hn0 : (0 : ℚ) < (num : ℚ) - 1 := by linarith
  push_cast
  set N : ℚ := (num : ℚ) - 1
  set d := stop - start
  have e1 : |sub stop start - d| ≤ |d| * 2 ^ (-53 : ℤ) :=
    fl_rel le_rfl ((zpow_le_zpow_right₀ (by norm_num) (by norm_num)).trans h.range_ge)
  have hD : |sub stop start| ≤ |d| * (5 / 4) := by
    calc |sub stop start| = |(sub stop start - d) + d| := by ring_nf
      _ ≤ _ := abs_add_le _ _
      _ ≤ |d| * 2 ^ (-53 : ℤ) + |d| := by linarith
      _ ≤ _ := by
        have := abs_nonneg d
        norm_num; linarith
  have e2 : |div (sub stop start) N - sub stop start / N| ≤ (|d| * (5 / 4) / N) * 2 ^ (-53 : ℤ) := by
    apply fl_rel
    · rw [abs_div, abs_of_pos hn0]
      exact div_le_div_of_nonneg_right hD hn0.le
    · rw [le_div_iff₀ hn0]
      have h1 := h.range_ge
      have h2 : (2 : ℚ) ^ (-1022 : ℤ) * N ≤ 2 ^ (-1022 : ℤ) * 2 ^ (47 : ℤ) :=
        mul_le_mul_of_nonneg_left (by exact_mod_cast hn') (two_zpow_pos _).le
      rw [← zpow_add₀ (by norm_num)] at h2
      have h3 : (2 : ℚ) ^ (-1022 + 47 : ℤ) ≤ 2 ^ (-900 : ℤ) := zpow_le_zpow_right₀ (by norm_num) (by norm_num)
      have h4 : |d| ≤ |d| * (5 / 4) := by have := abs_nonneg d; linarith
      exact h2.trans (h3.trans (h1.trans h4))
  have e3 : |sub stop start / N - d / N| ≤ |d| / N * 2 ^ (-53 : ℤ) := by
    rw [← sub_div, abs_div, abs_of_pos hn0, div_le_iff₀ hn0]
    have : |d| / N * 2 ^ (-53 : ℤ) * N = |d| * 2 ^ (-53 : ℤ) := by field_simp
    rw [this]
    exact e1
  calc |div (sub stop start) N - d / N| =
      |(div (sub stop start) N - sub stop start / N) + (sub stop start / N - d / N)| := by ring_nf
    _ ≤ _ := abs_add_le _ _
    _ ≤ _ := add_le_add e2 e3
    _ ≤ |d| / N * (5 / 2 * 2 ^ (-53 : ℤ)) := by
      have hX : 0 ≤ |d| / N := by positivity
      have : |d| * (5 / 4) / N = |d| / N * (5 / 4) := by ring
      rw [this]
      generalize |d| / N = X at *
      norm_num
      linarith

/-- The axes that are built are handled by the error analysis. -/
theorem mk_sane {start stop : ℚ} {num : ℤ} (h : Spacing start stop num) :
    ∃ r, Reg.mk' start stop num = .ok r ∧ Sane 48 r ∧ r.asc = decide (0 < r.step) ∧ r.start = start ∧ r.size = num ∧
      r.step = div (sub stop start) (num - 1 : ℤ) ∧ (0 < r.step ↔ start < stop) := by
  have e := step_err h
  have hn : (1 : ℚ) ≤ (num : ℚ) - 1 := by
    have : ((2 : ℤ) : ℚ) ≤ num := by exact_mod_cast h.two_le
    push_cast at this; linarith
  have hn' : (num : ℚ) - 1 ≤ 2 ^ 47 := by
    have : (num : ℚ) ≤ ((2 ^ 47 : ℤ) : ℚ) := by exact_mod_cast h.num_le
    push_cast at this; linarith
  have hn0 : (0 : ℚ) < (num : ℚ) - 1 := by linarith
  have htwo := h.two_le
  have hd0 : 0 < |stop - start| := lt_of_lt_of_le (two_zpow_pos _) h.range_ge
  have hne : start ≠ stop := by
    intro hh
    rw [hh] at hd0
    simp at hd0
  set step := div (sub stop start) (num - 1 : ℤ) with hstep
  set N : ℚ := (num : ℚ) - 1
  set d := stop - start with hd
  have hXpos : 0 < |d| / N := by positivity
  have eq1 : |d / N| = |d| / N := by rw [abs_div, abs_of_pos hn0]
  have hlow : |d| / N * (1 / 2) ≤ |step| := by
    have h1 : |d / N| ≤ |d / N - step| + |step| := by
      calc |d / N| = |(d / N - step) + step| := by ring_nf
        _ ≤ _ := abs_add_le _ _
    rw [abs_sub_comm, eq1] at h1
    generalize |d| / N = X at *
    norm_num at e
    linarith
  have hhigh : |step| ≤ |d| / N * 2 := by
    have h1 : |step| ≤ |step - d / N| + |d / N| := by
      calc |step| = |(step - d / N) + d / N| := by ring_nf
        _ ≤ _ := abs_add_le _ _
    rw [eq1] at h1
    generalize |d| / N = X at *
    norm_num at e
    linarith
  have hX1 : 2 ^ (-947 : ℤ) ≤ |d| / N := by
    rw [le_div_iff₀ hn0]
    have h2 : (2 : ℚ) ^ (-947 : ℤ) * N ≤ 2 ^ (-947 : ℤ) * 2 ^ (47 : ℤ) :=
      mul_le_mul_of_nonneg_left (by exact_mod_cast hn') (two_zpow_pos _).le
    rw [← zpow_add₀ (by norm_num)] at h2
    exact h2.trans h.range_ge
  have hX2 : |d| / N ≤ 2 ^ (900 : ℤ) := (div_le_self (abs_nonneg _) hn).trans h.range_le
  set asc := (if num < 2 then true else decide (add start (mul (0 : ℤ) step) < add start (mul (1 : ℤ) step))) with hasc
  refine ⟨{ size := num, start := start, step := step, inv := div 1 step, asc := asc }, ?_, ?_⟩
  · unfold Reg.mk'
    rw [if_neg (by omega), if_neg hne, if_neg (by omega)]
  · have s48 : Sane 48 { size := num, start := start, step := step, inv := div 1 step, asc := asc } := by
      refine ⟨htwo, ?_, h.start_double, ?_, ?_, ?_, rfl⟩
      · change (num : ℚ) ≤ 2 ^ (48 : ℤ)
        have : (num : ℚ) ≤ ((2 ^ 47 : ℤ) : ℚ) := by exact_mod_cast h.num_le
        push_cast at this
        norm_num at this ⊢
        linarith
      · change |start| ≤ 2 ^ (48 : ℤ) * |step|
        have h1 : |start| ≤ 2 ^ 47 * (|d| / N) := by
          rw [← mul_div_assoc, le_div_iff₀ hn0]
          exact h.start_le
        norm_num at h1 ⊢
        linarith
      · change 2 ^ (-1000 : ℤ) ≤ |step|
        have h1 : (2 : ℚ) ^ (-1000 : ℤ) ≤ 2 ^ (-947 : ℤ) * (1 / 2) := by
          rw [show (1 : ℚ) / 2 = 2 ^ (-1 : ℤ) by norm_num, ← zpow_add₀ (by norm_num)]
          exact zpow_le_zpow_right₀ (by norm_num) (by norm_num)
        linarith
      · change |step| ≤ 2 ^ (1000 : ℤ)
        have h1 : (2 : ℚ) ^ (900 : ℤ) * 2 ≤ 2 ^ (1000 : ℤ) := by
          rw [show (2 : ℚ) ^ (900 : ℤ) * 2 = 2 ^ (901 : ℤ) by
            rw [← zpow_add_one₀ (by norm_num)]; norm_num]
          exact zpow_le_zpow_right₀ (by norm_num) (by norm_num)
        refine hhigh.trans ((mul_le_mul_of_nonneg_right hX2 (by norm_num)).trans h1)
    refine ⟨s48, ?_, rfl, rfl, rfl, ?_⟩
    · have hl := coord_lt (s48.mono (by norm_num)) (i := 0) (j := 1) le_rfl (by norm_num) (show 1 < num by omega)
      change asc = decide (0 < step)
      rw [hasc, if_neg (by omega)]
      apply decide_eq_decide.2
      have hsne : step ≠ 0 := abs_pos.1 s48.pos
      rcases lt_or_gt_of_ne hsne with hs | hs
      · exact iff_of_false (not_lt.2 (hl.2 hs).le) (by linarith)
      · exact iff_of_true (hl.1 hs) hs
    · change 0 < step ↔ start < stop
      have e' := abs_le.1 e
      constructor
      · intro hs
        by_contra hh
        have hdn : d ≤ 0 := by rw [hd]; linarith
        rw [abs_of_nonpos hdn] at e' hXpos
        have : -d / N = -(d / N) := by ring
        rw [this] at e' hXpos
        generalize d / N = X at *
        norm_num at e'
        linarith
      · intro hh
        have hdn : 0 < d := by rw [hd]; linarith
        rw [abs_of_pos hdn] at e' hXpos
        generalize d / N = X at *
        norm_num at e'
        linarith

theorem flip_sane {r : Reg} (s : Sane 48 r) : Sane 49 r.flip := by
  have s49 := s.mono (show (48 : ℤ) ≤ 49 by norm_num)
  have hsz := s.size_pos
  have hle : (r.size : ℚ) ≤ 2 ^ (48 : ℤ) := s.size_le
  have hp := s.pos
  refine ⟨hsz, hle.trans (zpow_le_zpow_right₀ (by norm_num) (by norm_num)), isDouble_fl _, ?_, ?_, ?_, ?_⟩
  · change |r.back| ≤ 2 ^ (49 : ℤ) * |-r.step|
    rw [abs_neg]
    have e := coord_err49 s49 (i := r.size - 1) (by omega) (by omega)
    change |r.back - _| ≤ _ at e
    push_cast at e
    have h1 : |((r.size : ℚ) - 1) * r.step| ≤ (2 ^ (48 : ℤ) - 1) * |r.step| := by
      have : (2 : ℚ) ≤ r.size := by exact_mod_cast hsz
      rw [abs_mul, abs_of_nonneg (by linarith)]
      exact mul_le_mul_of_nonneg_right (by linarith) hp.le
    have h2 := s.start_le
    calc |r.back| = |(r.back - (r.start + ((r.size : ℚ) - 1) * r.step)) + (r.start + ((r.size : ℚ) - 1) * r.step)| := by ring_nf
      _ ≤ _ := abs_add_le _ _
      _ ≤ 7 / 32 * |r.step| + (2 ^ (48 : ℤ) * |r.step| + (2 ^ (48 : ℤ) - 1) * |r.step|) :=
        add_le_add e ((abs_add_le _ _).trans (add_le_add h2 h1))
      _ ≤ _ := by norm_num; linarith
  · change _ ≤ |-r.step|
    rw [abs_neg]; exact s.step_ge
  · change |-r.step| ≤ _
    rw [abs_neg]; exact s.step_le
  · change -r.inv = div 1 (-r.step)
    rw [s.inv_eq]
    unfold div
    rw [div_neg, fl_neg]

/-- An axis and the same axis flipped. -/
theorem built_sane {start stop : ℚ} {num : ℤ} (h : Spacing start stop num) {r r' : Reg}
    (hr : Reg.mk' start stop num = .ok r) (hr' : r' = r ∨ r' = r.flip) :
    Sane 49 r' ∧ r'.asc = decide (0 < r'.step) ∧ r'.size = num := by
  obtain ⟨r0, e, s, a, -, hs, -, -⟩ := mk_sane h
  rw [hr] at e
  cases e
  rcases hr' with rfl | rfl
  · exact ⟨s.mono (by norm_num), a, hs⟩
  · refine ⟨flip_sane s, ?_, hs⟩
    change (!r.asc) = decide (0 < -r.step)
    have hne : r.step ≠ 0 := abs_pos.1 s.pos
    rw [a]
    rcases lt_or_gt_of_ne hne with h1 | h1
    · rw [decide_eq_false (by linarith), decide_eq_true (by linarith)]; rfl
    · rw [decide_eq_true h1, decide_eq_false (by linarith)]; rfl

/-- **C122**: the axis of such bounds exists, its size and its first value are exact, its last value is the one given up to the
rounding of a few operations. -/
theorem C122_bounds {start stop : ℚ} {num : ℤ} (h : Spacing start stop num) :
    ∃ r, Reg.mk' start stop num = .ok r ∧ r.size = num ∧ r.coord 0 = start ∧ (r.asc = true ↔ start < stop) ∧
      |r.back - stop| ≤ (|stop - start| + |stop|) * 2 ^ (-50 : ℤ) := by
  obtain ⟨r, e, s, a, hst, hs, hstep, hup⟩ := mk_sane h
  have s49 := s.mono (show (48 : ℤ) ≤ 49 by norm_num)
  refine ⟨r, e, hs, by rw [coord_zero s49, hst], by rw [a]; simpa using hup, ?_⟩
  have he := step_err h
  rw [← hstep] at he
  have hn0 : (0 : ℚ) < (num : ℚ) - 1 := by
    have : ((2 : ℤ) : ℚ) ≤ num := by exact_mod_cast h.two_le
    push_cast at this; linarith
  set N : ℚ := (num : ℚ) - 1 with hN
  set d := stop - start with hd
  have hd0 : 2 ^ (-900 : ℤ) ≤ |d| := h.range_ge
  have hd1 : (2 : ℚ) ^ (-1022 : ℤ) ≤ |d| := (zpow_le_zpow_right₀ (by norm_num) (by norm_num)).trans hd0
  have hdp : 0 < |d| := lt_of_lt_of_le (two_zpow_pos _) hd0
  -- the product
  have e1 : |N * r.step - d| ≤ |d| * (5 / 2 * 2 ^ (-53 : ℤ)) := by
    have : N * r.step - d = N * (r.step - d / N) := by field_simp
    rw [this, abs_mul, abs_of_pos hn0]
    have := mul_le_mul_of_nonneg_left he hn0.le
    refine this.trans (le_of_eq ?_)
    field_simp
  have b1 : |N * r.step| ≤ |d| * (5 / 4) := by
    calc |N * r.step| = |(N * r.step - d) + d| := by ring_nf
      _ ≤ _ := abs_add_le _ _
      _ ≤ _ := by norm_num at e1 ⊢; linarith
  have e2 : |mul N r.step - N * r.step| ≤ |d| * (5 / 4) * 2 ^ (-53 : ℤ) := fl_rel b1 (by linarith)
  have e3 : |mul N r.step - d| ≤ |d| * 2 ^ (-51 : ℤ) := by
    calc |mul N r.step - d| = |(mul N r.step - N * r.step) + (N * r.step - d)| := by ring_nf
      _ ≤ _ := abs_add_le _ _
      _ ≤ _ := by norm_num at e1 e2 ⊢; linarith
  have b2 : |start + mul N r.step| ≤ |d| + |stop| := by
    calc |start + mul N r.step| = |(mul N r.step - d) + stop| := by rw [hd]; ring_nf
      _ ≤ _ := abs_add_le _ _
      _ ≤ _ := by norm_num at e3 ⊢; linarith
  have e4 : |add start (mul N r.step) - (start + mul N r.step)| ≤ (|d| + |stop|) * 2 ^ (-53 : ℤ) :=
    fl_rel b2 (by have := abs_nonneg stop; linarith)
  have hb : r.back = add start (mul N r.step) := by
    unfold Reg.back Reg.coord
    rw [hst, hs]
    push_cast
    rfl
  rw [hb]
  calc |add start (mul N r.step) - stop| =
      |(add start (mul N r.step) - (start + mul N r.step)) + (mul N r.step - d)| := by rw [hd]; ring_nf
    _ ≤ _ := abs_add_le _ _
    _ ≤ _ := by
      have := abs_nonneg stop
      norm_num at e3 e4 ⊢; linarith

/-- **C122**: the coordinates of a regular axis, flipped or not, are strictly monotone in the direction that `is_ascending`
gives. -/
theorem C122_monotone {start stop : ℚ} {num : ℤ} (h : Spacing start stop num) {r r' : Reg}
    (hr : Reg.mk' start stop num = .ok r) (hr' : r' = r ∨ r' = r.flip) {i j : ℤ} (h0 : 0 ≤ i) (hij : i < j)
    (h1 : j < num) :
    (r'.asc = true → r'.coord i < r'.coord j) ∧ (r'.asc = false → r'.coord j < r'.coord i) := by
  obtain ⟨s, a, hs⟩ := built_sane h hr hr'
  have hl := coord_lt s h0 hij (hs ▸ h1)
  have hne : r'.step ≠ 0 := abs_pos.1 s.pos
  constructor
  · intro ha
    rw [a] at ha
    exact hl.1 (by simpa using ha)
  · intro ha
    rw [a] at ha
    exact hl.2 (lt_of_le_of_ne (by simpa using ha) hne)

/-- **C122**: the search of a coordinate of the axis gives its index, bounded or not. -/
theorem C122_round_trip {start stop : ℚ} {num : ℤ} (h : Spacing start stop num) {r r' : Reg}
    (hr : Reg.mk' start stop num = .ok r) (hr' : r' = r ∨ r' = r.flip) {i : ℤ} (h0 : 0 ≤ i) (h1 : i < num) (b : Bool) :
    r'.findIndex (r'.coord i) b = .ok i := by
  obtain ⟨s, -, hs⟩ := built_sane h hr hr'
  have h1' : i < r'.size := hs ▸ h1
  exact findIndex_ok s (findIndex_coord s h0 h1') h0 h1'

/-- **C122**: a coordinate (a double) between the first and the last coordinates of the axis is framed by the two consecutive
coordinates of which `find_indexes` gives the indexes; the comparison is that of the doubles, without tolerance. -/
theorem C122_frame {start stop : ℚ} {num : ℤ} (h : Spacing start stop num) {r r' : Reg}
    (hr : Reg.mk' start stop num = .ok r) (hr' : r' = r ∨ r' = r.flip) {c : ℚ} (hc : IsDouble c)
    (hin : (r'.coord 0 ≤ c ∧ c ≤ r'.coord (num - 1)) ∨ (r'.coord (num - 1) ≤ c ∧ c ≤ r'.coord 0)) :
    ∃ i j : ℤ, r'.findIndexes c = .ok (some (i, j)) ∧ (0 ≤ i ∧ i < num) ∧ (0 ≤ j ∧ j < num) ∧
      (j = i + 1 ∨ i = j + 1) ∧
      ((r'.coord i ≤ c ∧ c ≤ r'.coord j) ∨ (r'.coord j ≤ c ∧ c ≤ r'.coord i)) := by
  obtain ⟨s, a, hs⟩ := built_sane h hr hr'
  have hb : Btw r'.start c r'.back := by
    unfold Btw Reg.back
    rw [hs, ← coord_zero s]
    exact hin
  have := findIndexes_frame s a hc hb
  rw [hs] at this
  exact this

/-- An integer near `Q`, brought between 0 and `n - 1`. -/
theorem clamp_nearest {Q δ : ℚ} {k : ℤ} (h : |Q - k| ≤ 1 / 2 + δ) (hδ : 0 ≤ δ) (n : ℤ) :
    (k < 0 → ∀ j : ℤ, 0 ≤ j → j < n → |Q - (0 : ℤ)| ≤ |Q - j| + 2 * δ) ∧
    (n ≤ k → ∀ j : ℤ, 0 ≤ j → j < n → |Q - (n - 1 : ℤ)| ≤ |Q - j| + 2 * δ) ∧
    (∀ j : ℤ, 0 ≤ j → j < n → |Q - k| ≤ |Q - j| + 2 * δ) := by
  have ha := abs_le.1 h
  refine ⟨?_, ?_, ?_⟩
  · intro hk j h0 _
    have hj : (0 : ℚ) ≤ j := by exact_mod_cast h0
    have hk1 : (k : ℚ) ≤ -1 := by exact_mod_cast (show k ≤ -1 by omega)
    have := neg_abs_le (Q - j)
    rw [Int.cast_zero, sub_zero]
    rcases le_total Q 0 with hq | hq
    · rw [abs_of_nonpos hq]; linarith
    · rw [abs_of_nonneg hq]; have := abs_nonneg (Q - j); linarith
  · intro hk j _ h1
    have hj : (j : ℚ) ≤ n - 1 := by
      have : (j : ℚ) + 1 ≤ n := by exact_mod_cast h1
      linarith
    have hk1 : (n : ℚ) ≤ k := by exact_mod_cast hk
    have := le_abs_self (Q - j)
    push_cast
    rcases le_total Q (n - 1) with hq | hq
    · rw [abs_of_nonpos (by linarith)]; have := abs_nonneg (Q - j); linarith
    · rw [abs_of_nonneg (by linarith)]; linarith
  · intro j _ _
    rcases lt_trichotomy j k with hj | rfl | hj
    · have : (j : ℚ) + 1 ≤ k := by exact_mod_cast hj
      have := le_abs_self (Q - j)
      linarith
    · linarith
    · have : (k : ℚ) + 1 ≤ j := by exact_mod_cast hj
      have := neg_abs_le (Q - j)
      linarith

/-- **C122**: outside of the axis `find_index` gives the nearest bound, or -1 when it is not bounded; inside the coordinate
(computed without rounding) of the index is the nearest one up to a fraction of the step, that is 2^-50 times the number of steps
between the first coordinate and the one that is searched. -/
theorem C122_nearest {start stop : ℚ} {num : ℤ} (h : Spacing start stop num) {r r' : Reg}
    (hr : Reg.mk' start stop num = .ok r) (hr' : r' = r ∨ r' = r.flip) {c B : ℚ} (hB : 1 ≤ B) (hB' : B ≤ 2 ^ 61)
    (hc : |c - r'.start| ≤ B * |r'.step|) :
    ∃ i : ℤ, r'.findIndex c true = .ok i ∧ 0 ≤ i ∧ i < num ∧
      (∀ j : ℤ, 0 ≤ j → j < num →
        |c - (r'.start + i * r'.step)| ≤ |c - (r'.start + j * r'.step)| + B * 2 ^ (-50 : ℤ) * |r'.step|) ∧
      (r'.findIndex c false = .ok i ∨ (r'.findIndex c false = .ok (-1) ∧ (i = 0 ∨ i = num - 1))) := by
  obtain ⟨s, -, hs⟩ := built_sane h hr hr'
  have hp := s.pos
  have hne : r'.step ≠ 0 := abs_pos.1 hp
  have q := s.quot_err hB hc
  have hre := round_err (mul (sub c r'.start) r'.inv)
  have htwo := h.two_le
  set Q := (c - r'.start) / r'.step with hQ
  set y := mul (sub c r'.start) r'.inv with hy
  set k := round y with hk
  have hQB : |Q| ≤ B := by rw [hQ, abs_div, div_le_iff₀ hp]; exact hc
  have hkB : |(k : ℚ)| ≤ B * (3 / 2) + 1 := by
    calc |(k : ℚ)| = |((k : ℚ) - y) + ((y - Q) + Q)| := by ring_nf
      _ ≤ _ := abs_add_le _ _
      _ ≤ 1 / 2 + (B * 2 ^ (-51 : ℤ) + B) := add_le_add hre ((abs_add_le _ _).trans (add_le_add q hQB))
      _ ≤ _ := by norm_num; linarith
  have hk63 : ¬ (k < -2 ^ 63 ∨ 2 ^ 63 ≤ k) := by
    have h1 : |(k : ℚ)| < 2 ^ 63 := by norm_num at hB' ⊢; linarith
    rw [abs_lt] at h1
    have h2 : ((-2 ^ 63 : ℤ) : ℚ) < k := by push_cast; linarith
    have h3 : (k : ℚ) < ((2 ^ 63 : ℤ) : ℚ) := by push_cast; linarith
    have h2' : -2 ^ 63 < k := by exact_mod_cast h2
    have h3' : k < 2 ^ 63 := by exact_mod_cast h3
    omega
  have dist : ∀ j : ℤ, |c - (r'.start + j * r'.step)| = |Q - j| * |r'.step| := by
    intro j
    rw [← abs_mul]
    congr 1
    rw [hQ]; field_simp; ring
  have hqa := abs_le.1 q
  have hra := abs_le.1 hre
  have hδ : |Q - k| ≤ 1 / 2 + B * 2 ^ (-51 : ℤ) := by
    calc |Q - k| = |-((k : ℚ) - y) + -(y - Q)| := by ring_nf
      _ ≤ _ := abs_add_le _ _
      _ ≤ _ := by rw [abs_neg, abs_neg]; exact add_le_add hre q
  have hδ0 : 0 ≤ B * 2 ^ (-51 : ℤ) := by positivity
  have key : ∀ i : ℤ, (∀ j : ℤ, 0 ≤ j → j < num → |Q - i| ≤ |Q - j| + 2 * (B * 2 ^ (-51 : ℤ))) →
      ∀ j : ℤ, 0 ≤ j → j < num →
        |c - (r'.start + i * r'.step)| ≤ |c - (r'.start + j * r'.step)| + B * 2 ^ (-50 : ℤ) * |r'.step| := by
    intro i hi j h0 h1
    have : B * 2 ^ (-50 : ℤ) = 2 * (B * 2 ^ (-51 : ℤ)) := by norm_num; ring
    rw [dist, dist, ← add_mul, this]
    exact mul_le_mul_of_nonneg_right (hi j h0 h1) hp.le
  have fi : ∀ b, r'.findIndex c b = if k < 0 then .ok (if b then 0 else -1)
      else if num ≤ k then .ok (if b then num - 1 else -1) else .ok k := by
    intro b
    unfold Reg.findIndex
    simp only [← hy, ← hk]
    rw [if_neg hk63, hs]
  obtain ⟨n1, n2, n3⟩ := clamp_nearest hδ hδ0 num
  rcases lt_or_ge k 0 with hneg | hpos
  · exact ⟨0, by rw [fi, if_pos hneg]; rfl, le_rfl, by omega, key 0 (n1 hneg),
      Or.inr ⟨by rw [fi, if_pos hneg]; rfl, Or.inl rfl⟩⟩
  · rcases lt_or_ge k num with hlt | hge
    · have e : ∀ b, r'.findIndex c b = .ok k := by
        intro b; rw [fi, if_neg (by omega), if_neg (by omega)]
      exact ⟨k, e _, hpos, hlt, key k n3, Or.inl (e _)⟩
    · exact ⟨num - 1, by rw [fi, if_neg (by omega), if_pos hge]; rfl, by omega, by omega, key _ (n2 hge),
        Or.inr ⟨by rw [fi, if_neg (by omega), if_pos hge]; rfl, Or.inr rfl⟩⟩

/-- **C122**: a coordinate (a double) that is not between the first and the last coordinates, as doubles, is framed by nothing. -/
theorem C122_outside {start stop : ℚ} {num : ℤ} (h : Spacing start stop num) {r r' : Reg}
    (hr : Reg.mk' start stop num = .ok r) (hr' : r' = r ∨ r' = r.flip) {c : ℚ} (hc : IsDouble c)
    (hb : |c - r'.start| ≤ 2 ^ 61 * |r'.step|)
    (hout : ¬ ((r'.coord 0 ≤ c ∧ c ≤ r'.coord (num - 1)) ∨ (r'.coord (num - 1) ≤ c ∧ c ≤ r'.coord 0))) :
    r'.findIndexes c = .ok none := by
  obtain ⟨s, a, hs⟩ := built_sane h hr hr'
  have hp := s.pos
  refine findIndexes_outside s a hc ?_ ?_
  · intro hbt
    apply hout
    unfold Btw Reg.back at hbt
    rw [hs, ← coord_zero s] at hbt
    exact hbt
  · have q := s.quot_err (show (1 : ℚ) ≤ 2 ^ 61 by norm_num) hb
    have hre := round_err (mul (sub c r'.start) r'.inv)
    have hQB : |(c - r'.start) / r'.step| ≤ 2 ^ 61 := by rw [abs_div, div_le_iff₀ hp]; exact hb
    have hk : |((round (mul (sub c r'.start) r'.inv) : ℤ) : ℚ)| < 2 ^ 63 := by
      set y := mul (sub c r'.start) r'.inv
      calc |((round y : ℤ) : ℚ)| = |((round y : ℚ) - y) + ((y - (c - r'.start) / r'.step) + (c - r'.start) / r'.step)| := by ring_nf
        _ ≤ _ := abs_add_le _ _
        _ ≤ 1 / 2 + (2 ^ 61 * 2 ^ (-51 : ℤ) + 2 ^ 61) := add_le_add hre ((abs_add_le _ _).trans (add_le_add q hQB))
        _ < _ := by norm_num
    exact_mod_cast hk

/- The latitudes of a grid of 0.1 degree: 1801 values from -90 to 90. -/
example : Spacing (-90) 90 1801 :=
  ⟨isDouble_int (n := -90) (by norm_num), isDouble_int (n := 90) (by norm_num), by norm_num, by norm_num, by norm_num,
    (zpow_le_one_of_nonpos₀ (by norm_num) (by norm_num)).trans (by norm_num),
    le_trans (show |(90 : ℚ) - -90| ≤ 2 ^ (8 : ℤ) by norm_num) (zpow_le_zpow_right₀ (by norm_num) (by norm_num))⟩

/- A coordinate inside of this axis, increasing or flipped. -/
example : (Reg.mk' (-90) 90 1801).bind (fun r => r.findIndexes (fl (45.05))) = .ok (some (1350, 1351)) ∧
    (Reg.mk' (-90) 90 1801).bind (fun r => r.flip.findIndexes (fl (45.05))) = .ok (some (450, 449)) := by
  constructor <;> decide +kernel

/-- The values of `numpy.linspace(start, stop, num)`: the last one is `stop`. -/
def linspace (start stop : ℚ) (num : Nat) : List ℚ :=
  (List.range (num - 1)).map (fun i => add (mul (i : ℚ) (div (sub stop start) ((num - 1 : ℕ) : ℚ))) start) ++ [stop]

/-- **C122, what is false**: the last value given is not a coordinate of the axis. With the 40 latitudes from -90 to 90 of
`numpy.linspace(-90, 90, 40)` the last coordinate of the axis is 89.99999999999997 and the latitude 90, which the user gave, is
outside: the interpolation of a grid at its own last latitude is undefined (NaN, or an error with `bounds_error`). -/
theorem C122_last_value_false :
    ∃ r, fromValues (linspace (-90) 90 40) (fl (1 / 1000000)) = some (.ok r) ∧ (linspace (-90) 90 40)[39]? = some 90 ∧
      r.size = 40 ∧ r.coord 39 = 90 - 1 / 2 ^ 45 ∧ r.findIndexes 90 = .ok none ∧ r.findIndex 90 false = .ok 39 := by
  refine ⟨⟨40, -90, div 180 39, div 1 (div 180 39), true⟩, ?_, ?_, rfl, ?_, ?_, ?_⟩ <;> decide +kernel

/-- **C122, what is false**: pickling a regular axis does not give the same axis, because the step is computed again from the
last coordinate. Witness: 8 values from 39.9 to -72.9. -/
theorem C122_pickle_false :
    ∃ r r', Reg.mk' (fl 39.9) (fl (-72.9)) 8 = .ok r ∧ r.pickle = .ok r' ∧ r.beq r' = false ∧ r.coord 1 ≠ r'.coord 1 := by
  refine ⟨⟨8, fl 39.9, div (sub (fl (-72.9)) (fl 39.9)) 7, div 1 (div (sub (fl (-72.9)) (fl 39.9)) 7), false⟩,
    ⟨8, fl 39.9, div (sub (add (fl 39.9) (mul 7 (div (sub (fl (-72.9)) (fl 39.9)) 7))) (fl 39.9)) 7,
      div 1 (div (sub (add (fl 39.9) (mul 7 (div (sub (fl (-72.9)) (fl 39.9)) 7))) (fl 39.9)) 7), false⟩, ?_, ?_, ?_, ?_⟩ <;>
    decide +kernel

/-- **C122, what is false**: flipping an axis twice does not give the same axis. Witness: 0.1 and 0.7, the first coordinate of
which becomes 0.09999999999999998. -/
theorem C122_flip_false :
    ∃ r, Reg.mk' (fl 0.1) (fl 0.7) 2 = .ok r ∧ r.flip.flip.beq r = false ∧ r.flip.flip.start < r.start := by
  refine ⟨⟨2, fl 0.1, sub (fl 0.7) (fl 0.1), div 1 (sub (fl 0.7) (fl 0.1)), true⟩, ?_, ?_, ?_⟩ <;> decide +kernel

end Pyinterp.Double
