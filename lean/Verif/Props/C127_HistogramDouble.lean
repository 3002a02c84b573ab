import Verif.Lemmas.DoubleHistogram

/-
C127: streaming histograms with the rounding of every operation.
-/
namespace Pyinterp.Double

open Spec Pyinterp Histo

namespace Histo

theorem foldl_weights (l : List HBin) : ∀ a : ℕ, (∀ b ∈ l, ∃ k : ℕ, 1 ≤ k ∧ b.weight = k) →
    (a : ℚ) + (l.map (·.weight)).sum ≤ 2 ^ 53 →
    l.foldl (fun a b => add a b.weight) (a : ℚ) = a + (l.map (·.weight)).sum := by
  induction l with
  | nil => intro a _ _; simp
  | cons b l ih =>
    intro a hw hs
    obtain ⟨k, k1, ek⟩ := hw b (by simp)
    simp only [List.map_cons, List.sum_cons] at hs ⊢
    have hl : 0 ≤ (l.map (·.weight)).sum := List.sum_nonneg (by
      intro x hx
      obtain ⟨c, hc, rfl⟩ := List.mem_map.1 hx
      obtain ⟨m, _, em⟩ := hw c (by simp [hc])
      rw [em]; positivity)
    have : a + k ≤ 2 ^ 53 := by
      have : (a : ℚ) + k ≤ 2 ^ 53 := by rw [← ek]; linarith
      exact_mod_cast this
    rw [List.foldl_cons, ek, nat_add this, ih (a + k) (fun c hc => hw c (by simp [hc])) (by
      push_cast; rw [← ek]; linarith)]
    push_cast
    ring

theorem sumOfWeights_eq {lo hi δ : ℚ} {xs : List ℚ} {cap : ℕ} {h : Histo} (g : Good lo hi δ xs cap h) (hn : xs.length ≤ 2 ^ 53) :
    h.sumOfWeights = xs.length := by
  obtain ⟨t, ht⟩ := g.inv
  have := foldl_weights h.bins 0 ht.weight (by rw [ht.total]; simpa using (by exact_mod_cast hn : (xs.length : ℚ) ≤ 2 ^ 53))
  unfold sumOfWeights
  rw [ht.total] at this
  simpa using this

/-- The numerator and the denominator of the mean. -/
theorem mean_fold {M : ℚ} (hM : 2 ^ (-1000 : ℤ) ≤ M) {n : ℕ} (hn : n ≤ 2 ^ 48) (l : List HBin) :
    ∀ (s P : ℚ) (w : ℕ), (∀ b ∈ l, ∃ k : ℕ, 1 ≤ k ∧ b.weight = k) → (∀ b ∈ l, |b.value| ≤ 2 * M) →
      (w : ℚ) + (l.map (·.weight)).sum ≤ n → |P| ≤ 2 * M * w → |s - P| ≤ 8 * M * n * 2 ^ (-53 : ℤ) * w →
      ∃ r, l.foldl (fun a b => (add a.1 (mul b.weight b.value), add a.2 b.weight)) ((s, (w : ℚ)) : ℚ × ℚ) =
          (r, (w : ℚ) + (l.map (·.weight)).sum) ∧
        |r - (P + (l.map fun b => b.value * b.weight).sum)| ≤
          8 * M * n * 2 ^ (-53 : ℤ) * (w + (l.map (·.weight)).sum) ∧
        |P + (l.map fun b => b.value * b.weight).sum| ≤ 2 * M * (w + (l.map (·.weight)).sum) := by
  have hM0 : 0 < M := lt_of_lt_of_le (two_zpow_pos _) hM
  have hM' : (2 : ℚ) ^ (-1022 : ℤ) ≤ M := le_trans (zpow_le_zpow_right₀ (by norm_num) (by norm_num)) hM
  have hu0 : (0 : ℚ) < 2 ^ (-53 : ℤ) := two_zpow_pos _
  have hu2 : (2 : ℚ) ^ (-53 : ℤ) ≤ 1 / 2 := by norm_num
  have hnu : (n : ℚ) * 2 ^ (-53 : ℤ) ≤ 1 / 32 := by
    have : (n : ℚ) ≤ 2 ^ 48 := by exact_mod_cast hn
    calc (n : ℚ) * 2 ^ (-53 : ℤ) ≤ 2 ^ 48 * 2 ^ (-53 : ℤ) := by gcongr
      _ = 1 / 32 := by norm_num
  obtain ⟨u, hu⟩ : ∃ u : ℚ, u = 2 ^ (-53 : ℤ) := ⟨_, rfl⟩
  rw [← hu] at hu0 hu2 hnu ⊢
  induction l with
  | nil => intro s P w _ _ _ hP h; exact ⟨s, by simp, by simpa using h, by simpa using hP⟩
  | cons b l ih =>
    intro s P w hw hv hs hP h
    obtain ⟨k, k1, ek⟩ := hw b (by simp)
    have vb := hv b (by simp)
    simp only [List.map_cons, List.sum_cons] at hs ⊢
    have hl : 0 ≤ (l.map (·.weight)).sum := List.sum_nonneg (by
      intro x hx
      obtain ⟨c, hc, rfl⟩ := List.mem_map.1 hx
      obtain ⟨m, _, em⟩ := hw c (by simp [hc])
      rw [em]; positivity)
    have hwk : (w : ℚ) + k ≤ n := by rw [← ek]; linarith
    have hwk' : w + k ≤ n := by exact_mod_cast hwk
    have hK : (1 : ℚ) ≤ k := by exact_mod_cast k1
    have hW : (0 : ℚ) ≤ w := by positivity
    rw [List.foldl_cons]
    dsimp only
    rw [ek, nat_add (by omega : w + k ≤ 2 ^ 53)]
    have bk : |(k : ℚ) * b.value| ≤ 2 * M * k := by
      rw [abs_mul, abs_of_nonneg (by linarith : (0 : ℚ) ≤ k), mul_comm]; gcongr
    have e1 : |mul (k : ℚ) b.value - k * b.value| ≤ 2 * M * k * u := by rw [hu]; exact fl_rel bk (by nlinarith)
    have hst : |s + mul (k : ℚ) b.value| ≤ 4 * M * n := by
      have : s + mul (k : ℚ) b.value = (s - P) + P + (mul (k : ℚ) b.value - k * b.value) + k * b.value := by ring
      rw [this]
      refine (abs_add_le _ _).trans (le_trans (add_le_add ((abs_add_le _ _).trans (add_le_add (abs_add_le _ _) le_rfl)) le_rfl) ?_)
      have f1 : 8 * M * n * u * w ≤ M * w := by
        have : 8 * M * n * u * w = 8 * (M * w) * (n * u) := by ring
        rw [this]
        have f0 : 0 ≤ M * w := by positivity
        have := mul_le_mul_of_nonneg_left hnu f0
        linarith
      have f2 : 2 * M * k * u ≤ M * k := by
        have h2 : 0 ≤ M * k := by positivity
        have := mul_le_mul_of_nonneg_left hu2 h2
        linarith
      have f3 : M * w + M * k ≤ M * n := by nlinarith
      have f4 : 0 ≤ M * w := by positivity
      have f5 : 0 ≤ M * k := by positivity
      linarith
    have e2 : |add s (mul (k : ℚ) b.value) - (s + mul (k : ℚ) b.value)| ≤ 4 * M * n * u := by
      rw [hu]
      refine fl_rel hst ?_
      have : (1 : ℚ) ≤ n := by linarith
      nlinarith
    set s' := add s (mul (k : ℚ) b.value)
    have hs' : |s' - (P + b.value * k)| ≤ 8 * M * n * u * ((w + k : ℕ) : ℚ) := by
      have : s' - (P + b.value * k) =
          (s' - (s + mul (k : ℚ) b.value)) + (mul (k : ℚ) b.value - k * b.value) + (s - P) := by ring
      rw [this]
      refine (abs_add_le _ _).trans (le_trans (add_le_add ((abs_add_le _ _).trans (add_le_add e2 e1)) h) ?_)
      push_cast
      have g0 : 0 ≤ M * u := by positivity
      have hn1 : (1 : ℚ) ≤ n := by linarith
      have g1 : 4 * M * n * u ≤ 4 * M * n * u * k := le_mul_of_one_le_right (by positivity) hK
      have g2 : 2 * M * k * u ≤ 2 * M * k * u * n := le_mul_of_one_le_right (by positivity) hn1
      have g3 : 0 ≤ M * n * u * k := by positivity
      nlinarith
    have hP' : |P + b.value * k| ≤ 2 * M * ((w + k : ℕ) : ℚ) := by
      refine (abs_add_le _ _).trans ?_
      rw [mul_comm b.value]
      push_cast
      linarith
    obtain ⟨r, er, h1, h2⟩ := ih s' (P + b.value * k) (w + k) (fun c hc => hw c (by simp [hc])) (fun c hc => hv c (by simp [hc]))
      (by push_cast; rw [← ek]; linarith) hP' hs'
    refine ⟨r, ?_, ?_, ?_⟩
    · rw [er]; push_cast; rw [add_assoc]
    · rw [← add_assoc P, ← add_assoc (w : ℚ)]; push_cast at h1; exact h1
    · rw [← add_assoc P, ← add_assoc (w : ℚ)]; push_cast at h2; exact h2

theorem Inv.small {lo hi M : ℚ} (hr : Range lo hi M) {xs : List ℚ} {t : ℕ} {l : List HBin} (hn : xs.length ≤ 2 ^ 48)
    (h : Inv lo hi (16 * (M * 2 ^ (-53 : ℤ))) xs t l) :
    t * (16 * (M * 2 ^ (-53 : ℤ))) ≤ xs.length * (M * 2 ^ (-49 : ℤ)) ∧ xs.length * (M * 2 ^ (-49 : ℤ)) ≤ M := by
  have hM0 : 0 < M := lt_of_lt_of_le (two_zpow_pos _) hr.M_ge
  have ht : (t : ℚ) ≤ xs.length := by
    have := h.size
    exact_mod_cast (by omega : t ≤ xs.length)
  have hx : (xs.length : ℚ) ≤ 2 ^ 48 := by exact_mod_cast hn
  have e : (16 : ℚ) * (M * 2 ^ (-53 : ℤ)) = M * 2 ^ (-49 : ℤ) := by
    have : (2 : ℚ) ^ (-49 : ℤ) = 16 * 2 ^ (-53 : ℤ) := by norm_num
    rw [this]; ring
  rw [e]
  constructor
  · gcongr
  · have : (2 : ℚ) ^ 48 * (M * 2 ^ (-49 : ℤ)) ≤ M := by
      have : (2 : ℚ) ^ 48 * (M * 2 ^ (-49 : ℤ)) = M / 2 := by
        rw [show (2 : ℚ) ^ (-49 : ℤ) = 1 / 2 ^ 49 by norm_num]; ring
      rw [this]
      linarith
    refine le_trans ?_ this
    gcongr

theorem Inv.bound {lo hi M : ℚ} (hr : Range lo hi M) {xs : List ℚ} {t : ℕ} {l : List HBin} (hn : xs.length ≤ 2 ^ 48)
    (h : Inv lo hi (16 * (M * 2 ^ (-53 : ℤ))) xs t l) {b : HBin} (hb : b ∈ l) : |b.value| ≤ 2 * M := by
  obtain ⟨_, h1, h2⟩ := h.value b hb
  obtain ⟨h3, h4⟩ := h.small hr hn
  have := abs_le.1 hr.lo_le
  have := abs_le.1 hr.hi_le
  rw [abs_le]
  constructor <;> linarith

end Histo

/-! ### The book-keeping -/

/-- Whatever the calls (pushes of doubles, merges, changes of the number of bins, clears), the program neither fails nor reads
outside the bins, and the number of samples, the sum of the weights and the smallest sample are exact. -/
theorem C127_bookkeeping {lo hi M : ℚ} (hr : Range lo hi M) (c : Calls) (hc : c.Within lo hi (2 ^ 48)) :
    ∃ h, c.run = .ok h ∧ h.count = c.samples.length ∧ h.sumOfWeights = c.samples.length ∧ h.bins.length ≤ c.capacity ∧
      (∀ b ∈ h.bins, ∃ k : ℕ, 1 ≤ k ∧ b.weight = k) ∧
      (c.samples ≠ [] → h.min ∈ c.samples ∧ ∀ x ∈ c.samples, h.min ≤ x) := by
  obtain ⟨hn, h, e, g⟩ := good_run hr c hc
  obtain ⟨t, ht⟩ := g.inv
  refine ⟨h, e, g.count, sumOfWeights_eq g (hn.trans (by norm_num)), g.size, ht.weight, fun hne => ⟨?_, g.min_le⟩⟩
  rcases g.min_mem with h1 | ⟨h1, _⟩
  · exact h1
  · exact absurd h1 hne

/-- The largest sample is exact when some sample is at least the least positive normal double. -/
theorem C127_max_partial {lo hi M : ℚ} (hr : Range lo hi M) (c : Calls) (hc : c.Within lo hi (2 ^ 48))
    (hp : ∃ x ∈ c.samples, minDouble ≤ x) : ∃ h, c.run = .ok h ∧ h.max ∈ c.samples ∧ ∀ x ∈ c.samples, x ≤ h.max := by
  obtain ⟨_, h, e, g⟩ := good_run hr c hc
  refine ⟨h, e, ?_, g.max_ge⟩
  rcases g.max_mem with h1 | h1
  · exact h1
  · obtain ⟨x, hx, h2⟩ := hp
    have := g.max_ge x hx
    rw [h1] at this ⊢
    rwa [le_antisymm h2 this]

/-- The values of the bins leave the range of the samples by `n M 2^-49` at most. -/
theorem C127_hull {lo hi M : ℚ} (hr : Range lo hi M) (c : Calls) (hc : c.Within lo hi (2 ^ 48)) :
    ∃ h, c.run = .ok h ∧ ∀ b ∈ h.bins, lo - c.samples.length * (M * 2 ^ (-49 : ℤ)) ≤ b.value ∧
      b.value ≤ hi + c.samples.length * (M * 2 ^ (-49 : ℤ)) := by
  obtain ⟨hn, h, e, g⟩ := good_run hr c hc
  obtain ⟨t, ht⟩ := g.inv
  refine ⟨h, e, fun b hb => ?_⟩
  obtain ⟨_, h1, h2⟩ := ht.value b hb
  obtain ⟨h3, _⟩ := ht.small hr hn
  constructor <;> linarith

/-! ### The mean -/

/-- The mean of the histogram is the mean of the samples up to `n M 2^-48`, however the samples were merged into bins. -/
theorem C127_mean {lo hi M : ℚ} (hr : Range lo hi M) (c : Calls) (hc : c.Within lo hi (2 ^ 48)) (hne : c.samples ≠ []) :
    ∃ h m, c.run = .ok h ∧ h.mean = some m ∧
      |m - c.samples.sum / c.samples.length| ≤ c.samples.length * (M * 2 ^ (-48 : ℤ)) := by
  obtain ⟨hn, h, e, g⟩ := good_run hr c hc
  obtain ⟨t, ht⟩ := g.inv
  set xs := c.samples
  have hM0 : 0 < M := lt_of_lt_of_le (two_zpow_pos _) hr.M_ge
  have hM' : (2 : ℚ) ^ (-1022 : ℤ) ≤ M := le_trans (zpow_le_zpow_right₀ (by norm_num) (by norm_num)) hr.M_ge
  have hN : (1 : ℚ) ≤ xs.length := by exact_mod_cast List.length_pos_of_ne_nil hne
  obtain ⟨r, er, h1, h2⟩ := mean_fold hr.M_ge hn h.bins 0 0 0 ht.weight (fun b hb => ht.bound hr hn hb)
    (by rw [ht.total]; simp) (by simp) (by simp)
  simp only [Nat.cast_zero, zero_add] at er h1 h2
  rw [ht.total] at er h1 h2
  refine ⟨h, div r xs.length, e, ?_, ?_⟩
  · unfold Histo.mean
    rw [er]
    dsimp only
    rw [if_neg (by linarith)]
  set S := (h.bins.map fun b => b.value * b.weight).sum
  have hs := ht.sum
  have ht' : (t : ℚ) ≤ xs.length := by
    have := ht.size
    exact_mod_cast (by omega : t ≤ xs.length)
  have hnu : (xs.length : ℚ) * 2 ^ (-53 : ℤ) ≤ 1 / 32 := by
    have : (xs.length : ℚ) ≤ 2 ^ 48 := by exact_mod_cast hn
    calc (xs.length : ℚ) * 2 ^ (-53 : ℤ) ≤ 2 ^ 48 * 2 ^ (-53 : ℤ) := by gcongr
      _ = 1 / 32 := by norm_num
  set N : ℚ := (xs.length : ℚ)
  have hN0 : 0 < N := by linarith
  have e48 : (2 : ℚ) ^ (-48 : ℤ) = 32 * 2 ^ (-53 : ℤ) := by norm_num
  rw [e48]
  have hu0 : (0 : ℚ) < 2 ^ (-53 : ℤ) := two_zpow_pos _
  obtain ⟨u, hu⟩ : ∃ u : ℚ, u = 2 ^ (-53 : ℤ) := ⟨_, rfl⟩
  rw [← hu] at hu0 hnu h1 hs ⊢
  have hrN : |r / N| ≤ 4 * M := by
    rw [abs_div, abs_of_pos hN0, div_le_iff₀ hN0]
    have : r = (r - S) + S := by ring
    rw [this]
    refine (abs_add_le _ _).trans ((add_le_add h1 h2).trans ?_)
    have : 8 * M * N * u * N = 8 * (M * N) * (N * u) := by ring
    rw [this]
    have f0 : 0 ≤ M * N := by positivity
    have := mul_le_mul_of_nonneg_left hnu f0
    linarith
  have e1 : |div r N - r / N| ≤ 4 * M * u := by rw [hu]; exact fl_rel hrN (by linarith)
  have e2 : |r / N - S / N| ≤ 8 * M * N * u := by
    rw [← sub_div, abs_div, abs_of_pos hN0, div_le_iff₀ hN0]
    exact h1
  have e3 : |S / N - xs.sum / N| ≤ t * (16 * (M * u)) := by
    rw [← sub_div, abs_div, abs_of_pos hN0, div_le_iff₀ hN0]
    refine hs.trans (le_of_eq (by ring))
  have : div r N - xs.sum / N = (div r N - r / N) + (r / N - S / N) + (S / N - xs.sum / N) := by ring
  rw [this]
  refine (abs_add_le _ _).trans (le_trans (add_le_add ((abs_add_le _ _).trans (add_le_add e1 e2)) e3) ?_)
  have g0 : 0 ≤ M * u := by positivity
  have g1 : t * (16 * (M * u)) ≤ N * (16 * (M * u)) := by gcongr
  have g2 : 4 * M * u ≤ 4 * M * u * N := le_mul_of_one_le_right (by positivity) hN
  nlinarith

/-! ### The quantiles -/

namespace Histo

/-- The difference of two doubles is exact when they are within a factor of two of each other (Sterbenz). -/
theorem exact_sub {a b : ℚ} (ha : IsDouble a) (hb : IsDouble b) (h1 : b ≤ a) (h2 : a ≤ 2 * b) : sub a b = a - b := by
  rcases eq_or_lt_of_le (show 0 ≤ b by linarith) with h0 | h0
  · have : a = 0 := by linarith
    rw [this, ← h0]
    unfold sub
    rw [sub_zero, fl_zero]
  have hl : lastBit b ≤ lastBit a := by
    unfold lastBit
    have : Int.log 2 |b| ≤ Int.log 2 |a| := by
      rw [abs_of_pos h0, abs_of_pos (by linarith : 0 < a)]
      exact Int.log_mono_right h0 h1
    omega
  obtain ⟨n, hn⟩ := multiple_of_double hb (le_refl (lastBit b))
  obtain ⟨m, hm⟩ := multiple_of_double ha hl
  have pe := two_zpow_pos (lastBit b)
  have hb2 : b < 2 ^ (lastBit b + 53) := by
    have h2 : b < (2 : ℚ) ^ (Int.log 2 |b| + 1) := by
      rw [abs_of_pos h0]
      have := Int.lt_zpow_succ_log_self (b := 2) (by norm_num) b
      simpa using this
    refine lt_of_lt_of_le h2 (zpow_le_zpow_right₀ (by norm_num) ?_)
    unfold lastBit
    omega
  have hn2 : n < 2 ^ 53 := by
    have : (n : ℚ) < 2 ^ 53 := by
      rw [zpow_add₀ (by norm_num)] at hb2
      by_contra hc
      push Not at hc
      have e : (2 : ℚ) ^ (53 : ℤ) = 2 ^ 53 := by norm_num
      rw [e] at hb2
      have := mul_le_mul_of_nonneg_right hc pe.le
      rw [← hn] at this
      linarith
    exact_mod_cast this
  have hmn : (m - n : ℤ) ≤ n := by
    have : (m : ℚ) - n ≤ n := by
      by_contra hc
      push Not at hc
      have : (n : ℚ) * 2 ^ lastBit b < ((m : ℚ) - n) * 2 ^ lastBit b := by gcongr
      rw [← hn, sub_mul, ← hm, ← hn] at this
      linarith
    exact_mod_cast this
  have hmn0 : 0 ≤ (m - n : ℤ) := by
    have : (n : ℚ) ≤ m := by
      by_contra hc
      push Not at hc
      have : (m : ℚ) * 2 ^ lastBit b < (n : ℚ) * 2 ^ lastBit b := by gcongr
      rw [← hm, ← hn] at this
      linarith
    have : n ≤ m := by exact_mod_cast this
    omega
  unfold sub
  have := fl_exact (m := m - n) (e := lastBit b) (by rw [abs_of_nonneg hmn0]; omega) (by unfold lastBit; omega)
  have e : a - b = ((m - n : ℤ) : ℚ) * 2 ^ lastBit b := by
    rw [Int.cast_sub, sub_mul, ← hm, ← hn]
  rw [e]
  exact this

/-- The rounding of the interpolation between two values. -/
theorem between_err {part whole a b L H M : ℚ} (hM : 2 ^ (-1000 : ℤ) ≤ M) (h0 : 0 ≤ part) (h1 : part ≤ whole) (hw : 0 < whole)
    (ha : L ≤ a ∧ a ≤ H) (hb : L ≤ b ∧ b ≤ H) (hL : |L| ≤ 2 * M) (hH : |H| ≤ 2 * M) :
    (L - 32 * (M * 2 ^ (-53 : ℤ)) ≤ between part whole a b ∧ between part whole a b ≤ H + 32 * (M * 2 ^ (-53 : ℤ))) ∧
      |between part whole a b - (a + part / whole * (b - a))| ≤ 32 * (M * 2 ^ (-53 : ℤ)) := by
  have hM0 : 0 < M := lt_of_lt_of_le (two_zpow_pos _) hM
  have hM' : (2 : ℚ) ^ (-1022 : ℤ) ≤ M := le_trans (zpow_le_zpow_right₀ (by norm_num) (by norm_num)) hM
  have hq : 0 ≤ part / whole ∧ part / whole ≤ 1 := ⟨by positivity, by rw [div_le_one hw]; exact h1⟩
  obtain ⟨r0, r1⟩ := fl_unit hq.1 hq.2
  obtain ⟨l1, l2⟩ := abs_le.1 hL
  obtain ⟨l3, l4⟩ := abs_le.1 hH
  have hu : (2 : ℚ) ^ (-53 : ℤ) ≤ 1 / 16 := by norm_num
  have hu0 : (0 : ℚ) < 2 ^ (-53 : ℤ) := two_zpow_pos _
  obtain ⟨u, hu'⟩ : ∃ u : ℚ, u = 2 ^ (-53 : ℤ) := ⟨_, rfl⟩
  rw [← hu'] at hu0 hu ⊢
  unfold between
  have ed : div part whole = fl (part / whole) := rfl
  rw [ed]
  set r := fl (part / whole)
  have d1 : |b - a| ≤ 4 * M := by rw [abs_le]; constructor <;> linarith
  have e1 : |sub b a - (b - a)| ≤ 4 * M * u := by rw [hu']; exact fl_rel d1 (by linarith)
  set d := sub b a
  have hd : |d| ≤ 5 * M := by
    have : d = (d - (b - a)) + (b - a) := by ring
    rw [this]
    refine (abs_add_le _ _).trans ((add_le_add e1 d1).trans ?_)
    have : M * u ≤ M * (1 / 16) := mul_le_mul_of_nonneg_left hu hM0.le
    nlinarith
  have d2 : |r * d| ≤ 5 * M := by
    rw [abs_mul, abs_of_nonneg r0]
    nlinarith [abs_nonneg d]
  have e2 : |mul r d - r * d| ≤ 5 * M * u := by rw [hu']; exact fl_rel d2 (by linarith)
  set p := mul r d
  have hp : |a + p| ≤ 8 * M := by
    have : a + p = a + (p - r * d) + r * d := by ring
    rw [this]
    refine (abs_add_le _ _).trans (le_trans (add_le_add ((abs_add_le _ _).trans (add_le_add (b := 2 * M) ?_ e2)) d2) ?_)
    · rw [abs_le]; constructor <;> linarith
    · have : M * u ≤ M * (1 / 16) := mul_le_mul_of_nonneg_left hu hM0.le
      nlinarith
  have e3 : |add a p - (a + p)| ≤ 8 * M * u := by rw [hu']; exact fl_rel hp (by linarith)
  have e4 : |r * d - r * (b - a)| ≤ 4 * M * u := by
    rw [← mul_sub, abs_mul, abs_of_nonneg r0]
    nlinarith [abs_nonneg (d - (b - a))]
  have hc : L ≤ a + r * (b - a) ∧ a + r * (b - a) ≤ H := by constructor <;> nlinarith
  have e5 : |r - part / whole| ≤ 1 * u := by
    rw [hu']
    exact fl_rel (by rw [abs_of_nonneg hq.1]; exact hq.2) small_le_one
  have e6 : |r * (b - a) - part / whole * (b - a)| ≤ 4 * M * u := by
    rw [← sub_mul, abs_mul]
    calc |r - part / whole| * |b - a| ≤ (1 * u) * (4 * M) := mul_le_mul e5 d1 (abs_nonneg _) (by linarith)
      _ = 4 * M * u := by ring
  obtain ⟨f1, f2⟩ := abs_le.1 e2
  obtain ⟨f3, f4⟩ := abs_le.1 e3
  obtain ⟨f5, f6⟩ := abs_le.1 e4
  obtain ⟨f7, f8⟩ := abs_le.1 e6
  have : 0 ≤ M * u := by positivity
  refine ⟨⟨by linarith, by linarith⟩, ?_⟩
  rw [abs_le]
  constructor <;> linarith

/-- The sum of the half weights between the middle of the first bin and the middle of the last one. -/
def span : HBin → List HBin → ℚ
  | _, [] => 0
  | a, b :: l => (a.weight + b.weight) / 2 + span b l

theorem span_eq (l : List HBin) : ∀ a : HBin,
    span a l = ((a :: l).map (·.weight)).sum - a.weight / 2 - ((a :: l).getLast (List.cons_ne_nil _ _)).weight / 2 := by
  induction l with
  | nil => intro a; simp [span]; ring
  | cons b l ih =>
    intro a
    unfold span
    rw [ih b, List.getLast_cons (List.cons_ne_nil b l)]
    simp only [List.map_cons, List.sum_cons]
    ring

theorem middles_back (l : List HBin) : ∀ (a : HBin) (s : ℚ), ∃ pre, middles s (a :: l) =
    pre ++ [(s + ((a :: l).map (·.weight)).sum - ((a :: l).getLast (List.cons_ne_nil _ _)).weight / 2,
      ((a :: l).getLast (List.cons_ne_nil _ _)).value)] := by
  induction l with
  | nil =>
    intro a s
    refine ⟨[], ?_⟩
    simp [middles]
    ring
  | cons b l ih =>
    intro a s
    obtain ⟨pre, h⟩ := ih b (s + a.weight)
    refine ⟨(s + a.weight / 2, a.value) :: pre, ?_⟩
    unfold middles
    rw [h, List.getLast_cons (List.cons_ne_nil b l), List.map_cons (a := a), List.sum_cons (a := a.weight), ← add_assoc s]
    rfl

/-- The search of the two bins stays inside them, because the subtractions are exact. -/
theorem quantileLoop_ok {L H M : ℚ} (hM : 2 ^ (-1000 : ℤ) ≤ M) (hL : |L| ≤ 2 * M) (hH : |H| ≤ 2 * M) {e : ℤ} (e0 : -1074 ≤ e)
    (e1 : e ≤ -1) (l : List HBin) : ∀ (a : HBin) (m : ℕ) (s : ℚ), m ≤ 2 ^ 53 → (m : ℚ) * 2 ^ e < span a l → 0 < m →
      (∀ b ∈ a :: l, (∃ k : ℕ, 1 ≤ k ∧ b.weight = k) ∧ L ≤ b.value ∧ b.value ≤ H) →
      ((a :: l).map (·.weight)).sum ≤ 2 ^ 53 →
      ∃ r, quantileLoop ((m : ℚ) * 2 ^ e) (a :: l) = .ok r ∧
        (L - 32 * (M * 2 ^ (-53 : ℤ)) ≤ r ∧ r ≤ H + 32 * (M * 2 ^ (-53 : ℤ))) ∧
        ∃ y, OnProfile (middles s (a :: l)) (s + a.weight / 2 + m * 2 ^ e) y ∧ |r - y| ≤ 32 * (M * 2 ^ (-53 : ℤ)) := by
  induction l with
  | nil =>
    intro a m s _ h hm _ _
    unfold span at h
    have : (0 : ℚ) < m * 2 ^ e := by have := two_zpow_pos e; positivity
    linarith
  | cons b l ih =>
    intro a m s hm h m0 hw hs
    obtain ⟨⟨j, j1, ej⟩, av⟩ := hw a (by simp)
    obtain ⟨⟨k, k1, ek⟩, bv⟩ := hw b (by simp)
    simp only [List.map_cons, List.sum_cons] at hs
    have hl : 0 ≤ (l.map (·.weight)).sum := List.sum_nonneg (by
      intro x hx
      obtain ⟨c, hc, rfl⟩ := List.mem_map.1 hx
      obtain ⟨⟨m, _, em⟩, _⟩ := hw c (by simp [hc])
      rw [em]; positivity)
    have hjk : j + k ≤ 2 ^ 53 := by
      have : (j : ℚ) + k ≤ 2 ^ 53 := by rw [← ej, ← ek]; linarith
      exact_mod_cast this
    have hh : mul (add a.weight b.weight) (1 / 2) = ((j + k : ℕ) : ℚ) / 2 := by
      rw [ej, ek, nat_add hjk, nat_half hjk]
    have pe := two_zpow_pos e
    unfold quantileLoop
    rw [hh]
    -- the half weight is a multiple of the unit of `qw`
    obtain ⟨f, hf⟩ : ∃ f : ℕ, (1 : ℚ) / 2 = f * 2 ^ e := by
      refine ⟨2 ^ (-1 - e).toNat, ?_⟩
      have : ((2 ^ (-1 - e).toNat : ℕ) : ℚ) = 2 ^ (-1 - e) := by
        push_cast
        rw [← zpow_natCast, Int.toNat_of_nonneg (by omega)]
      rw [this, ← zpow_add₀ (by norm_num)]
      norm_num
    have hhalf : ((j + k : ℕ) : ℚ) / 2 = (((j + k) * f : ℕ) : ℚ) * 2 ^ e := by
      rw [div_eq_mul_one_div, hf]; push_cast; ring
    split
    · rename_i hp
      have hlt : (j + k) * f < m := by
        by_contra hc
        have hc' : m ≤ (j + k) * f := by omega
        have : sub ((m : ℚ) * 2 ^ e) (((j + k : ℕ) : ℚ) / 2) ≤ 0 := by
          refine fl_nonpos ?_
          rw [hhalf]
          have : (m : ℚ) ≤ (((j + k) * f : ℕ) : ℚ) := by exact_mod_cast hc'
          nlinarith
        linarith
      have ex : sub ((m : ℚ) * 2 ^ e) (((j + k : ℕ) : ℚ) / 2) = ((m - (j + k) * f : ℕ) : ℚ) * 2 ^ e := by
        unfold sub
        rw [hhalf, ← sub_mul, ← Nat.cast_sub hlt.le]
        have := fl_exact (m := ((m - (j + k) * f : ℕ) : ℤ)) (e := e) (by
          rw [abs_of_nonneg (by positivity)]
          exact_mod_cast (by omega : m - (j + k) * f ≤ 2 ^ 53)) e0
        simpa using this
      rw [ex]
      have := ih b (m - (j + k) * f) (s + a.weight) (by omega) ?_ (by omega)
        (fun c hc => hw c (by simp only [List.mem_cons] at hc ⊢; tauto)) ?_
      · obtain ⟨r, er, hr, y, ⟨pre, post, p0, p1, el, h1, h2, h3, h4⟩, hy⟩ := this
        refine ⟨r, er, hr, y, ⟨(s + a.weight / 2, a.value) :: pre, post, p0, p1, ?_, h1, ?_⟩, hy⟩
        · unfold middles; rw [el]; rfl
        · have ex' : s + a.weight + b.weight / 2 + ((m - (j + k) * f : ℕ) : ℚ) * 2 ^ e = s + a.weight / 2 + m * 2 ^ e := by
            rw [Nat.cast_sub hlt.le, sub_mul, ← hhalf, ej, ek]; push_cast; ring
          rw [ex'] at h2 h3 h4
          exact ⟨h2, h3, h4⟩
      · rw [Nat.cast_sub hlt.le, sub_mul, ← hhalf]
        unfold span at h
        rw [ej, ek] at h
        push_cast
        linarith
      · simp only [List.map_cons, List.sum_cons]
        have : (0 : ℚ) ≤ a.weight := by rw [ej]; positivity
        linarith
    · rename_i hp
      refine ⟨_, rfl, ?_⟩
      have hle : (m : ℚ) * 2 ^ e ≤ ((j + k : ℕ) : ℚ) / 2 := by
        by_contra hc
        push Not at hc
        apply hp
        have d1 : IsDouble ((m : ℚ) * 2 ^ e) := ⟨m, e, by rw [abs_of_nonneg (by positivity)]; exact_mod_cast hm, e0, by simp⟩
        have d2 : IsDouble (((j + k : ℕ) : ℚ) / 2) := by rw [← nat_half hjk]; exact isDouble_fl _
        have := sub_lt d2 d1 hc
        rw [sub_antisymm]
        linarith
      have hpos : (0 : ℚ) < ((j + k : ℕ) : ℚ) / 2 := by
        have : 0 < j + k := by omega
        have : (0 : ℚ) < ((j + k : ℕ) : ℚ) := by exact_mod_cast this
        linarith
      obtain ⟨b1, b2⟩ := between_err hM (by positivity) hle hpos av bv hL hH
      refine ⟨b1, _, ⟨[], middles (s + a.weight + b.weight) l, (s + a.weight / 2, a.value),
        (s + a.weight + b.weight / 2, b.value), rfl, ?_, ?_, ?_, ?_⟩, b2⟩
      · dsimp only; rw [ej, ek]; push_cast at hpos; linarith
      · have : (0 : ℚ) ≤ m * 2 ^ e := by positivity
        dsimp only; linarith
      · dsimp only; rw [ej, ek]; push_cast at hle; linarith
      · dsimp only
        rw [ej, ek]
        congr 3
        · ring
        · push_cast; ring

end Histo

/-- The two claims about quantiles. -/
theorem quantile_all {lo hi M : ℚ} (hr : Range lo hi M) (hp : minDouble ≤ hi) (c : Calls) (hc : c.Within lo hi (2 ^ 48))
    (hne : c.samples ≠ []) {q : ℚ} (q0 : 0 ≤ q) (q1 : q ≤ 1) :
    ∃ h r, c.run = .ok h ∧ h.quantile q = .ok (some r) ∧
      (lo - (c.samples.length + 2) * (M * 2 ^ (-49 : ℤ)) ≤ r ∧ r ≤ hi + (c.samples.length + 2) * (M * 2 ^ (-49 : ℤ))) ∧
      ∃ x y, |x - c.samples.length * q| ≤ c.samples.length * 2 ^ (-53 : ℤ) ∧ OnProfile (profile h) x y ∧
        |r - y| ≤ M * 2 ^ (-48 : ℤ) := by
  obtain ⟨hn, h, e, g⟩ := good_run hr c hc
  obtain ⟨t, ht⟩ := g.inv
  have sw := sumOfWeights_eq g (hn.trans (by norm_num))
  have hmin : h.min ∈ c.samples := by
    rcases g.min_mem with h1 | ⟨h1, _⟩
    · exact h1
    · exact absurd h1 hne
  have hmax : h.max ≤ hi := by
    rcases g.max_mem with h1 | h1
    · exact (g.mem _ h1).2.2
    · rw [h1]; exact hp
  have hmax' : lo ≤ h.max := le_trans (g.mem _ hmin).2.1 (g.max_ge _ hmin)
  have hM0 : 0 < M := lt_of_lt_of_le (two_zpow_pos _) hr.M_ge
  set xs := c.samples
  obtain ⟨s1, s2⟩ := ht.small hr hn
  have e49 : (2 : ℚ) ^ (-49 : ℤ) = 16 * 2 ^ (-53 : ℤ) := by norm_num
  set L := lo - xs.length * (M * 2 ^ (-49 : ℤ)) with hL'
  set H := hi + xs.length * (M * 2 ^ (-49 : ℤ)) with hH'
  have x0 : 0 ≤ xs.length * (M * 2 ^ (-49 : ℤ)) := by positivity
  have hL : |L| ≤ 2 * M := by
    have := abs_le.1 hr.lo_le
    rw [abs_le]; constructor <;> linarith
  have hH : |H| ≤ 2 * M := by
    have := abs_le.1 hr.hi_le
    rw [abs_le]; constructor <;> linarith
  have vals : ∀ b ∈ h.bins, (∃ k : ℕ, 1 ≤ k ∧ b.weight = k) ∧ L ≤ b.value ∧ b.value ≤ H := by
    intro b hb
    obtain ⟨_, h1, h2⟩ := ht.value b hb
    exact ⟨ht.weight b hb, by linarith, by linarith⟩
  have key : ∃ r, h.quantile q = .ok (some r) ∧ (L - 32 * (M * 2 ^ (-53 : ℤ)) ≤ r ∧ r ≤ H + 32 * (M * 2 ^ (-53 : ℤ))) ∧
      ∃ y, OnProfile (profile h) (mul (xs.length : ℚ) q) y ∧ |r - y| ≤ 32 * (M * 2 ^ (-53 : ℤ)) := by
    have tot := ht.total
    have bne := g.nonempty hne
    obtain ⟨front, tl, hb⟩ : ∃ front tl, h.bins = front :: tl := by
      cases hb : h.bins with
      | nil => exact absurd hb bne
      | cons a l => exact ⟨a, l, rfl⟩
    have epr : profile h = (0, h.min) :: (middles 0 (front :: tl) ++ [((xs.length : ℚ), h.max)]) := by
      unfold profile; rw [hb]; rw [hb] at tot; rw [tot]
    rw [epr]
    unfold Histo.quantile
    rw [hb] at vals tot ⊢
    dsimp only
    rw [if_neg (by push Not; exact ⟨q0, q1⟩), sw]
    obtain ⟨⟨j, j1, ej⟩, fv⟩ := vals front (by simp)
    set back := (front :: tl).getLast (List.cons_ne_nil _ _) with hback
    obtain ⟨⟨k, k1, ek⟩, bv⟩ := vals back (List.getLast_mem _)
    have nn : ∀ x ∈ (front :: tl).map (·.weight), 0 ≤ x := by
      intro x hx
      obtain ⟨c, hc, rfl⟩ := List.mem_map.1 hx
      obtain ⟨⟨m, _, em⟩, _⟩ := vals c hc
      rw [em]; positivity
    have hjn : j ≤ xs.length := by
      have : (j : ℚ) ≤ xs.length := by
        rw [← tot, ← ej]; exact List.single_le_sum nn _ (List.mem_map.2 ⟨front, by simp, rfl⟩)
      exact_mod_cast this
    have hkn : k ≤ xs.length := by
      have : (k : ℚ) ≤ xs.length := by
        rw [← tot, ← ek]; exact List.single_le_sum nn _ (List.mem_map.2 ⟨back, List.getLast_mem _, rfl⟩)
      exact_mod_cast this
    have hN : (xs.length : ℚ) ≤ 2 ^ 48 := by exact_mod_cast hn
    have hj : mul front.weight (1 / 2) = (j : ℚ) / 2 := by rw [ej]; exact nat_half (by omega)
    have hk : mul back.weight (1 / 2) = (k : ℚ) / 2 := by rw [ek]; exact nat_half (by omega)
    have hJ : (1 : ℚ) ≤ j := by exact_mod_cast j1
    have hK : (1 : ℚ) ≤ k := by exact_mod_cast k1
    have dN : IsDouble (xs.length : ℚ) := by
      have : IsDouble (((xs.length : ℕ) : ℤ) : ℚ) := isDouble_int (by
        rw [abs_of_nonneg (by positivity)]; exact_mod_cast hn.trans (by norm_num))
      exact_mod_cast this
    have w0 : 0 ≤ mul (xs.length : ℚ) q := fl_nonneg (by positivity)
    have w1 : mul (xs.length : ℚ) q ≤ xs.length := fl_le_of_double dN (mul_le_of_le_one_right (by positivity) q1)
    have dw : IsDouble (mul (xs.length : ℚ) q) := isDouble_fl _
    rw [hj, hk]
    set w := mul (xs.length : ℚ) q
    have hr' : sub (xs.length : ℚ) ((k : ℚ) / 2) = ((2 * xs.length - k : ℕ) : ℚ) / 2 := by
      have : (xs.length : ℚ) - (k : ℚ) / 2 = ((2 * xs.length - k : ℕ) : ℚ) * (1 / 2) := by
        rw [Nat.cast_sub (by omega)]; push_cast; ring
      unfold sub
      rw [this, ← nat_half (by omega)]
      rfl
    have hr'' : ((2 * xs.length - k : ℕ) : ℚ) / 2 = xs.length - (k : ℚ) / 2 := by
      rw [Nat.cast_sub (by omega)]; push_cast; ring
    split
    · rename_i hle
      have mn := g.mem _ hmin
      obtain ⟨b1, b2⟩ := between_err hr.M_ge w0 hle (by linarith) ⟨by linarith [mn.2.1], by linarith [mn.2.2]⟩ fv hL hH
      refine ⟨_, rfl, b1, _, ⟨[], middles (0 + front.weight) tl ++ [((xs.length : ℚ), h.max)], (0, h.min),
        (0 + front.weight / 2, front.value), rfl, ?_, w0, ?_, ?_⟩, b2⟩
      · dsimp only; rw [ej]; linarith
      · dsimp only; rw [ej]; linarith
      · dsimp only; rw [ej]; congr 3 <;> ring
    · rename_i hgt
      push Not at hgt
      rw [hr', hr'']
      split
      · rename_i hle
        have dk : IsDouble ((k : ℚ) / 2) := by
          rw [← nat_half (by omega : k ≤ 2 ^ 53)]
          exact isDouble_fl _
        obtain ⟨b1, b2⟩ := between_err (part := sub w (xs.length - (k : ℚ) / 2)) (whole := (k : ℚ) / 2) (b := h.max) hr.M_ge
          (fl_nonneg (by linarith)) (fl_le_of_double dk (by linarith)) (by linarith) bv ⟨by linarith, by linarith⟩ hL hH
        -- the subtraction is exact
        have exs : sub w (xs.length - (k : ℚ) / 2) = w - (xs.length - (k : ℚ) / 2) := by
          refine exact_sub dw ?_ hle ?_
          · rw [← hr'', ← nat_half (by omega : 2 * xs.length - k ≤ 2 ^ 53)]
            exact isDouble_fl _
          · have : (k : ℚ) ≤ xs.length := by exact_mod_cast hkn
            linarith
        obtain ⟨pre, epre⟩ := middles_back tl front 0
        refine ⟨_, rfl, b1, _, ⟨(0, h.min) :: pre, [], ((xs.length : ℚ) - (k : ℚ) / 2, back.value), ((xs.length : ℚ), h.max), ?_, ?_,
          hle, w1, ?_⟩, b2⟩
        · rw [epre, tot, ← hback, ek, zero_add]; simp
        · dsimp only; linarith
        · dsimp only; rw [exs]; congr 3; ring
      · rename_i hlt
        push Not at hlt
        -- the granularity of the weighted quantile
        have hw : 1 / 2 < w := by linarith
        have wpos : 0 < w := by linarith
        set p := Int.log 2 w with hp'
        have p1 : (2 : ℚ) ^ p ≤ w := by have := Int.zpow_log_le_self (b := 2) (by norm_num) wpos; simpa using this
        have p2 : w < (2 : ℚ) ^ (p + 1) := by have := Int.lt_zpow_succ_log_self (b := 2) (by norm_num) w; simpa using this
        have p3 : -1 ≤ p := by
          by_contra hc
          have : (2 : ℚ) ^ (p + 1) ≤ 2 ^ (-1 : ℤ) := zpow_le_zpow_right₀ (by norm_num) (by omega)
          have e : (2 : ℚ) ^ (-1 : ℤ) = 1 / 2 := by norm_num
          rw [e] at this
          linarith
        have p4 : p ≤ 48 := by
          by_contra hc
          have : (2 : ℚ) ^ (49 : ℤ) ≤ 2 ^ p := zpow_le_zpow_right₀ (by norm_num) (by omega)
          have e : (2 : ℚ) ^ (49 : ℤ) = 2 * 2 ^ 48 := by norm_num
          rw [e] at this
          linarith
        obtain ⟨m, hm⟩ := double_multiple dw (k := p) (by rw [abs_of_pos wpos]; exact p1)
        have pe := two_zpow_pos (p - 52)
        have m0 : 0 < m := by
          have : (0 : ℚ) < m := by
            by_contra hc
            push Not at hc
            have : w ≤ 0 := by rw [hm]; nlinarith
            linarith
          exact_mod_cast this
        have m1 : m < 2 ^ 53 := by
          have : (m : ℚ) < 2 ^ 53 := by
            by_contra hc
            push Not at hc
            have e : (2 : ℚ) ^ (p + 1) = 2 ^ 53 * 2 ^ (p - 52) := by
              rw [← zpow_natCast, ← zpow_add₀ (by norm_num)]; congr 1; push_cast; ring
            have : (2 : ℚ) ^ (p + 1) ≤ w := by rw [hm, e]; gcongr
            linarith
          exact_mod_cast this
        obtain ⟨f, hf⟩ : ∃ f : ℕ, (1 : ℚ) / 2 = f * 2 ^ (p - 52) := by
          refine ⟨2 ^ (-1 - (p - 52)).toNat, ?_⟩
          have : ((2 ^ (-1 - (p - 52)).toNat : ℕ) : ℚ) = 2 ^ (-1 - (p - 52)) := by
            push_cast
            rw [← zpow_natCast, Int.toNat_of_nonneg (by omega)]
          rw [this, ← zpow_add₀ (by norm_num)]
          norm_num
        have hhalf : (j : ℚ) / 2 = ((j * f : ℕ) : ℚ) * 2 ^ (p - 52) := by
          rw [div_eq_mul_one_div, hf]; push_cast; ring
        obtain ⟨mm, rfl⟩ : ∃ mm : ℕ, m = mm := ⟨m.toNat, by omega⟩
        have hmm : mm ≤ 2 ^ 53 := by exact_mod_cast m1.le
        have hlt' : j * f < mm := by
          have : ((j * f : ℕ) : ℚ) < mm := by
            by_contra hc
            push Not at hc
            have : w ≤ (j : ℚ) / 2 := by
              rw [hhalf, hm]
              exact mul_le_mul_of_nonneg_right (by exact_mod_cast hc) pe.le
            linarith
          exact_mod_cast this
        have ex : sub w ((j : ℚ) / 2) = ((mm - j * f : ℕ) : ℚ) * 2 ^ (p - 52) := by
          unfold sub
          rw [hhalf, hm]
          have := fl_exact (m := ((mm - j * f : ℕ) : ℤ)) (e := p - 52) (by
            rw [abs_of_nonneg (by positivity)]
            exact_mod_cast (by omega : mm - j * f ≤ 2 ^ 53)) (by omega)
          rw [← sub_mul]
          rw [show (((mm : ℤ) : ℚ) - ((j * f : ℕ) : ℚ)) = (((mm - j * f : ℕ) : ℤ) : ℚ) by
            rw [Int.cast_natCast, Int.cast_natCast, Nat.cast_sub hlt'.le]]
          rw [this]
          simp
        have hsp : ((mm - j * f : ℕ) : ℚ) * 2 ^ (p - 52) < span front tl := by
          rw [span_eq, tot, ← hback, ej, ek, Nat.cast_sub hlt'.le, sub_mul, ← hhalf]
          have : ((mm : ℕ) : ℚ) * 2 ^ (p - 52) = w := by rw [hm]; simp
          rw [this]
          linarith
        obtain ⟨r, er, r1, y, ⟨pre, post, k0, k1', el, o1, o2⟩, hy⟩ := quantileLoop_ok hr.M_ge hL hH (e := p - 52) (by omega) (by omega) tl front (mm - j * f) 0 (by omega)
          hsp (by omega) vals (by rw [tot]; linarith)
        refine ⟨r, ?_, r1, y, ⟨(0, h.min) :: pre, post ++ [((xs.length : ℚ), h.max)], k0, k1', ?_, o1, ?_⟩, hy⟩
        · rw [ex, er]
          rfl
        · rw [el]; simp
        · have ew : 0 + front.weight / 2 + ((mm - j * f : ℕ) : ℚ) * 2 ^ (p - 52) = w := by
            rw [Nat.cast_sub hlt'.le, sub_mul, ← hhalf, ej]
            have : ((mm : ℕ) : ℚ) * 2 ^ (p - 52) = w := by rw [hm]; simp
            rw [this]; ring
          rw [ew] at o2
          exact o2
  obtain ⟨r, er, ⟨r1, r2⟩, y, hy, ey⟩ := key
  refine ⟨h, r, e, er, ⟨?_, ?_⟩, mul (xs.length : ℚ) q, y, ?_, hy, ?_⟩
  · rw [e49] at hL' ⊢; linarith
  · rw [e49] at hH' ⊢; linarith
  · have hN1 : (1 : ℚ) ≤ xs.length := by exact_mod_cast List.length_pos_of_ne_nil hne
    refine fl_rel ?_ (le_trans small_le_one hN1)
    rw [abs_of_nonneg (by positivity)]
    exact mul_le_of_le_one_right (by positivity) q1
  · refine ey.trans (le_of_eq ?_)
    rw [show (2 : ℚ) ^ (-48 : ℤ) = 32 * 2 ^ (-53 : ℤ) by norm_num]
    ring

/-- The quantiles of a histogram of samples of weight 1 exist and lie in the range of the samples up to `(n + 2) M 2^-49`. The
hypothesis on `hi` is about the maximum of the histogram, which is wrong when every sample is below the least normal double. -/
theorem C127_quantile {lo hi M : ℚ} (hr : Range lo hi M) (hp : minDouble ≤ hi) (c : Calls) (hc : c.Within lo hi (2 ^ 48))
    (hne : c.samples ≠ []) {q : ℚ} (q0 : 0 ≤ q) (q1 : q ≤ 1) :
    ∃ h r, c.run = .ok h ∧ h.quantile q = .ok (some r) ∧
      lo - (c.samples.length + 2) * (M * 2 ^ (-49 : ℤ)) ≤ r ∧ r ≤ hi + (c.samples.length + 2) * (M * 2 ^ (-49 : ℤ)) := by
  obtain ⟨h, r, h1, h2, h3, _⟩ := quantile_all hr hp c hc hne q0 q1
  exact ⟨h, r, h1, h2, h3⟩

/-- The quantile `q` is read on the broken line through the middles of the bins, at the weight `n q` up to its rounding; the value
read is exact up to `M 2^-48`. -/
theorem C127_quantile_value {lo hi M : ℚ} (hr : Range lo hi M) (hp : minDouble ≤ hi) (c : Calls) (hc : c.Within lo hi (2 ^ 48))
    (hne : c.samples ≠ []) {q : ℚ} (q0 : 0 ≤ q) (q1 : q ≤ 1) :
    ∃ h r x y, c.run = .ok h ∧ h.quantile q = .ok (some r) ∧ |x - c.samples.length * q| ≤ c.samples.length * 2 ^ (-53 : ℤ) ∧
      OnProfile (profile h) x y ∧ |r - y| ≤ M * 2 ^ (-48 : ℤ) := by
  obtain ⟨h, r, h1, h2, _, x, y, h3⟩ := quantile_all hr hp c hc hne q0 q1
  exact ⟨h, r, x, y, h1, h2, h3⟩

/-- The quantile 0 is the smallest sample exactly. -/
theorem C127_quantile_zero {lo hi M : ℚ} (hr : Range lo hi M) (c : Calls) (hc : c.Within lo hi (2 ^ 48)) (hne : c.samples ≠ []) :
    ∃ h m, c.run = .ok h ∧ h.quantile 0 = .ok (some m) ∧ m ∈ c.samples ∧ ∀ x ∈ c.samples, m ≤ x := by
  obtain ⟨hn, h, e, g⟩ := good_run hr c hc
  obtain ⟨t, ht⟩ := g.inv
  have hmin : h.min ∈ c.samples := by
    rcases g.min_mem with h1 | ⟨h1, _⟩
    · exact h1
    · exact absurd h1 hne
  refine ⟨h, h.min, e, ?_, hmin, g.min_le⟩
  obtain ⟨front, tl, hb⟩ : ∃ front tl, h.bins = front :: tl := by
    cases hb : h.bins with
    | nil => exact absurd hb (g.nonempty hne)
    | cons a l => exact ⟨a, l, rfl⟩
  obtain ⟨j, j1, ej⟩ := ht.weight front (by rw [hb]; simp)
  unfold Histo.quantile
  rw [hb]
  dsimp only
  have z : mul h.sumOfWeights 0 = 0 := by unfold mul; rw [mul_zero, fl_zero]
  rw [if_neg (by norm_num), z, if_pos (by rw [ej]; exact fl_nonneg (by positivity))]
  have : between 0 (mul front.weight (1 / 2)) h.min front.value = h.min := by
    unfold between
    have : div 0 (mul front.weight (1 / 2)) = 0 := by unfold div; rw [zero_div, fl_zero]
    rw [this]
    unfold mul add
    rw [zero_mul, fl_zero, add_zero]
    exact fl_double (g.mem _ hmin).1
  rw [this]

/-! ### What rounding breaks -/

/-- With three weighted samples a quantile reads outside the bins: 0.2 + 0.5 + 0.4 and the quantile 9/11. -/
theorem C127_quantile_weights_false :
    (Histo.pushWeighted (Histo.make 100) [(0, fl (1 / 5)), (1, fl (1 / 2)), (2, fl (2 / 5))]).bind
      (fun h => h.quantile (fl (8181818181818181 / 10000000000000000))) = .error .ub := by
  decide +kernel

/-- The same number three times, in one bin: the bin, the mean and the median are larger than the number. -/
theorem C127_hull_false :
    ∃ h m, ((Calls.make 1).pushes (List.replicate 3 (fl (1 / 10)))).run = .ok h ∧ h.mean = some m ∧
      h.quantile (1 / 2) = .ok (some m) ∧ h.max = fl (1 / 10) ∧ h.max < m :=
  ⟨⟨1, 3, fl (1 / 10), fl (1 / 10), [⟨7205759403792795 / 72057594037927936, 3⟩]⟩, 7205759403792795 / 72057594037927936,
    by decide +kernel, by decide +kernel, by decide +kernel, rfl, by decide +kernel⟩

/-- The same number four times, in two bins: the bins are not in increasing order. -/
theorem C127_sorted_false :
    ((Calls.make 2).pushes (List.replicate 4 (fl (1 / 10)))).run.map
      (fun h => h.bins.map fun b => decide (fl (1 / 10) < b.value)) = .ok [true, false] := by
  decide +kernel

/-! ### A concrete case -/

/-- Two histograms, one of two bins and one of one bin, merged, then resized. -/
def exCalls : Calls := .resize (.merge ((Calls.make 2).pushes [1, 3 / 2, 4, 1 / 4]) ((Calls.make 1).pushes [2, 1])) 2

theorem exCalls_range : Range 0 4 4 where
  le := by norm_num
  lo_le := by norm_num
  hi_le := by norm_num
  M_ge := le_trans (zpow_le_one_of_nonpos₀ (by norm_num) (by norm_num)) (by norm_num)
  M_le := by
    have : (2 : ℚ) ^ (2 : ℤ) ≤ 2 ^ (900 : ℤ) := zpow_le_zpow_right₀ (by norm_num) (by norm_num)
    norm_num at this ⊢
    exact this

theorem dyadic (m : ℤ) (e : ℕ) (hm : |m| ≤ 2 ^ 53) (he : e ≤ 1074) {x : ℚ} (h : x = m / 2 ^ e) : IsDouble x :=
  ⟨m, -e, hm, by omega, by rw [h, zpow_neg, zpow_natCast]; rfl⟩

theorem exCalls_within : exCalls.Within 0 4 (2 ^ 48) := by
  have d1 : IsDouble 1 := isDouble_one
  have d2 : IsDouble 2 := dyadic 2 0 (by norm_num) (by norm_num) (by norm_num)
  have d3 : IsDouble (3 / 2) := dyadic 3 1 (by norm_num) (by norm_num) (by norm_num)
  have d4 : IsDouble 4 := dyadic 4 0 (by norm_num) (by norm_num) (by norm_num)
  have d5 : IsDouble (1 / 4) := dyadic 1 2 (by norm_num) (by norm_num) (by norm_num)
  simp only [exCalls, Calls.Within, Calls.pushes, List.foldl, Calls.samples]
  simp only [d1, d2, d3, d4, d5]
  norm_num

theorem exCalls_samples : exCalls.samples = [1, 3 / 2, 4, 1 / 4, 2, 1] := rfl

example : ∃ h, exCalls.run = .ok h ∧ h.count = 6 ∧ h.sumOfWeights = 6 ∧ h.bins.length ≤ 2 ∧
    (∀ b ∈ h.bins, ∃ k : ℕ, 1 ≤ k ∧ b.weight = k) ∧
    (exCalls.samples ≠ [] → h.min ∈ exCalls.samples ∧ ∀ x ∈ exCalls.samples, h.min ≤ x) :=
  C127_bookkeeping exCalls_range exCalls exCalls_within

example : ∃ h, exCalls.run = .ok h ∧ h.max ∈ exCalls.samples ∧ ∀ x ∈ exCalls.samples, x ≤ h.max :=
  C127_max_partial exCalls_range exCalls exCalls_within ⟨1, by simp [exCalls_samples], by decide +kernel⟩

example := C127_hull exCalls_range exCalls exCalls_within

example := C127_mean exCalls_range exCalls exCalls_within (by simp [exCalls_samples])

example := C127_quantile exCalls_range (by decide +kernel) exCalls exCalls_within (by simp [exCalls_samples]) (q := 1 / 3) (by norm_num)
  (by norm_num)

example := C127_quantile_value exCalls_range (by decide +kernel) exCalls exCalls_within (by simp [exCalls_samples]) (q := 1 / 3)
  (by norm_num) (by norm_num)

example := C127_quantile_zero exCalls_range exCalls exCalls_within (by simp [exCalls_samples])

example : (Calls.merge ((Calls.make 2).pushes [1, 4, 1 / 4]) ((Calls.make 1).pushes [5, 8])).run.map
    (fun h => (h.count, h.min, h.max, h.mean, (h.quantile (1 / 2)).toOption)) =
      .ok (5, 1 / 4, 8, some (fl (73 / 20)), some (some (fl (73 / 20)))) := by decide +kernel

end Pyinterp.Double
