import Mathlib.Data.Rat.Floor
import Verif.Lemmas.Statistics

/-
C34, C35: descriptive statistics. Samples are pairs (value, weight).
-/
namespace Pyinterp.Stats

open Spec

set_option linter.unusedSectionVars false

variable {K : Type} [Field K] [LinearOrder K] [IsStrictOrderedRing K]

/-- C34: after any sequence of samples with positive weights, the count, the sum of the
weights, the sum, the mean, the central moments and the extremes (of weight times
value) equal the defining sums. -/
theorem C34_exact (s : List (K × K)) (hp : ∀ x ∈ s, 0 < x.2) (hs : s ≠ []) :
    ∃ a, ofSamples s = .ok a ∧ a.count = s.length ∧ a.sumOfWeights = totalWeight s ∧
      a.sum = weightedSum s ∧ getMean a = some (weightedSum s / totalWeight s) ∧
      a.mom2 = centralSum 2 (weightedSum s / totalWeight s) s ∧
      a.mom3 = centralSum 3 (weightedSum s / totalWeight s) s ∧
      a.mom4 = centralSum 4 (weightedSum s / totalWeight s) s ∧
      (∃ mn, getMin a = some mn ∧ (∃ x ∈ s, mn = x.2 * x.1) ∧ ∀ x ∈ s, mn ≤ x.2 * x.1) ∧
      (∃ mx, getMax a = some mx ∧ (∃ x ∈ s, mx = x.2 * x.1) ∧ ∀ x ∈ s, x.2 * x.1 ≤ mx) := by
  obtain ⟨a, e, m, ex⟩ := ofSamples_spec s hp
  have h0 := raw_zero_pos hs hp
  have hc : a.count ≠ 0 := by rw [m.count]; exact (List.length_pos_iff.2 hs).ne'
  have hmean : a.mean = weightedSum s / totalWeight s := by
    rw [← raw_one, ← raw_zero, eq_div_iff h0.ne', m.mean]
  refine ⟨a, e, m.count, by rw [m.weight, raw_zero], by rw [m.sum, raw_one], ?_, ?_, ?_, ?_, ?_, ?_⟩
  · unfold getMean; rw [if_neg hc, hmean]
  · rw [← hmean, central2, m.m2, m.mean]; ring
  · rw [← hmean, central3, m.m3, m.m2, m.mean]; ring
  · rw [← hmean, central4, m.m4, m.m3, m.m2, m.mean]; ring
  · exact ⟨a.min, by unfold getMin; rw [if_neg hc], (ex hs).min⟩
  · exact ⟨a.max, by unfold getMax; rw [if_neg hc], (ex hs).max⟩

example : (∀ x ∈ [((1 : ℚ), (2 : ℚ)), (4, 1), (-3, 5)], 0 < x.2) ∧
    ofSamples [((1 : ℚ), (2 : ℚ)), (4, 1), (-3, 5)] =
      .ok ⟨3, 8, -9 / 8, -15, 4, -9, 423 / 8, 3867 / 32, 405741 / 512⟩ := by
  constructor
  · decide +kernel
  · decide +kernel

/-- C34: the unweighted statistics are those of the samples with weight 1. -/
theorem C34_unweighted (s : List K) :
    ofSamples (s.map fun v => (v, 1)) = .ok (ofValues s) := ofValues_eq s

/-- C34: without samples every statistic is NaN and the count is 0. -/
theorem C34_empty : (empty : Acc K).count = 0 ∧ getMean (empty : Acc K) = none ∧
    getMin (empty : Acc K) = none ∧ getMax (empty : Acc K) = none ∧
    kurtosis (empty : Acc K) = none ∧ ∀ ddof, 0 ≤ ddof → variance (empty : Acc K) ddof = none := by
  refine ⟨rfl, rfl, rfl, rfl, by simp [kurtosis, empty], ?_⟩
  intro ddof h
  have h' : (0 : K) ≤ (ddof : K) := by exact_mod_cast h
  exact if_pos (show (0 : K) - (ddof : K) ≤ 0 by linarith)

/-- C34: variance and kurtosis are the usual ratios of central moments. -/
theorem C34_variance_kurtosis (s : List (K × K)) (hp : ∀ x ∈ s, 0 < x.2) (hs : s ≠ []) :
    ∃ a, ofSamples s = .ok a ∧
      (∀ ddof : ℤ, variance a ddof = if totalWeight s ≤ ddof then none
        else some (centralSum 2 (weightedSum s / totalWeight s) s / (totalWeight s - ddof))) ∧
      kurtosis a = if centralSum 2 (weightedSum s / totalWeight s) s = 0 then none
        else some (centralSum 4 (weightedSum s / totalWeight s) s / totalWeight s /
          (centralSum 2 (weightedSum s / totalWeight s) s / totalWeight s) ^ 2 - 3) := by
  obtain ⟨a, e, _, w, _, _, m2, m3, m4, _⟩ := C34_exact s hp hs
  have h0 : totalWeight s ≠ 0 := by rw [← raw_zero]; exact (raw_zero_pos hs hp).ne'
  refine ⟨a, e, ?_, ?_⟩
  · intro ddof
    unfold variance
    rw [w, m2]
    simp only [sub_nonpos]
  · unfold kurtosis
    rw [w, m2, m4]
    split
    · rfl
    · next h =>
      congr 1
      field_simp

/-- C34: the skewness is the third central moment over the power 3/2 of the second
one. -/
theorem C34_skewness (s : List (ℝ × ℝ)) (hp : ∀ x ∈ s, 0 < x.2) (hs : s ≠ []) :
    ∃ a, ofSamples s = .ok a ∧
      skewness a = if centralSum 2 (weightedSum s / totalWeight s) s = 0 then none
        else some (centralSum 3 (weightedSum s / totalWeight s) s / totalWeight s /
          (centralSum 2 (weightedSum s / totalWeight s) s / totalWeight s) ^ (3 / 2 : ℝ)) := by
  obtain ⟨a, e, _, w, _, _, m2, m3, m4, _⟩ := C34_exact s hp hs
  have h0 : 0 < totalWeight s := by rw [← raw_zero]; exact raw_zero_pos hs hp
  have hnn : 0 ≤ centralSum 2 (weightedSum s / totalWeight s) s := by
    unfold centralSum
    apply List.sum_nonneg
    intro y hy
    obtain ⟨x, hx, rfl⟩ := List.mem_map.1 hy
    exact mul_nonneg (hp x hx).le (sq_nonneg _)
  refine ⟨a, e, ?_⟩
  unfold skewness
  rw [w, m2, m3]
  split
  · rfl
  · next h =>
    congr 1
    have hpos : 0 < centralSum 2 (weightedSum s / totalWeight s) s := lt_of_le_of_ne hnn (Ne.symm h)
    rw [Real.div_rpow hnn h0.le]
    have h1 : totalWeight s ^ (3 / 2 : ℝ) = totalWeight s * Real.sqrt (totalWeight s) := by
      rw [Real.sqrt_eq_rpow, show (3 / 2 : ℝ) = 1 + 1 / 2 by norm_num, Real.rpow_add h0,
        Real.rpow_one]
    rw [h1]
    have h2 : (0 : ℝ) < centralSum 2 (weightedSum s / totalWeight s) s ^ (3 / 2 : ℝ) :=
      Real.rpow_pos_of_pos hpos _
    have h3 : 0 < Real.sqrt (totalWeight s) := Real.sqrt_pos.2 h0
    field_simp

example : (∀ x ∈ [((1 : ℝ), (2 : ℝ)), (4, 1)], 0 < x.2) := by
  intro x hx
  simp only [List.mem_cons, List.not_mem_nil, or_false] at hx
  rcases hx with rfl | rfl <;> norm_num

/-- C34, what is false: with weights, `min` and `max` are extremes of weight times
value, not of the values. -/
theorem C34_weighted_extremes_false :
    ∃ a : Acc ℚ, ofSamples [(10, 2), (12, 1)] = .ok a ∧ getMin a = some 12 ∧ getMax a = some 20 :=
  ⟨⟨2, 3, 32 / 3, 12, 20, 32, 8 / 3, 16 / 9, 32 / 9⟩, by decide +kernel, by decide +kernel,
    by decide +kernel⟩

/-! ### C35 -/

/-- C35: merging the statistics of two non-empty data sets gives exactly the
accumulators of one pass over the concatenation. -/
theorem C35_merge (s t : List (K × K)) (hps : ∀ x ∈ s, 0 < x.2) (hpt : ∀ x ∈ t, 0 < x.2)
    (hs : s ≠ []) (ht : t ≠ []) :
    ∃ a b c, ofSamples s = .ok a ∧ ofSamples t = .ok b ∧ merge a b = .ok c ∧
      ofSamples (s ++ t) = .ok c := by
  obtain ⟨a, ea, ma, xa⟩ := ofSamples_spec s hps
  obtain ⟨b, eb, mb, xb⟩ := ofSamples_spec t hpt
  have hpst : ∀ x ∈ s ++ t, 0 < x.2 := fun x hx =>
    (List.mem_append.1 hx).elim (hps x) (hpt x)
  obtain ⟨d, ed, md, xd⟩ := ofSamples_spec (s ++ t) hpst
  have h1 := raw_zero_pos hs hps
  have h2 := raw_zero_pos ht hpt
  obtain ⟨c, ec, mc⟩ := moments_merge ma mb (by linarith)
  have xc := extremes_merge (xa hs) (xb ht) ec
  have hst : s ++ t ≠ [] := by simp [hs]
  refine ⟨a, b, c, ea, eb, ec, ?_⟩
  rw [ed, unique (raw_zero_pos hst hpst).ne' mc xc md (xd hst)]

/-- C35: any number of non-empty chunks, merged one after the other, give the
statistics of one pass. -/
theorem C35_chunks (first : List (K × K)) (chunks : List (List (K × K)))
    (hp : ∀ c ∈ first :: chunks, c ≠ [] ∧ ∀ x ∈ c, 0 < x.2) :
    ∃ a, ofSamples first = .ok a ∧
      (chunks.foldlM (fun acc c => do
        let b ← ofSamples c
        merge acc b) a) = ofSamples (first ++ chunks.flatten) := by
  induction chunks using List.reverseRecOn with
  | nil =>
    obtain ⟨a, ea, _, _⟩ := ofSamples_spec first (hp first (by simp)).2
    exact ⟨a, ea, by simp only [List.foldlM_nil, List.flatten_nil, List.append_nil, ea]; rfl⟩
  | append_singleton cs c ih =>
    obtain ⟨a, ea, e⟩ := ih fun d hd => hp d (by
      rcases List.mem_cons.1 hd with h | h <;> simp [h])
    refine ⟨a, ea, ?_⟩
    have h1 : first ++ cs.flatten ≠ [] := by
      have := (hp first (by simp)).1
      simp [this]
    have h2 : ∀ x ∈ first ++ cs.flatten, 0 < x.2 := by
      intro x hx
      rcases List.mem_append.1 hx with hx | hx
      · exact (hp first (by simp)).2 x hx
      · obtain ⟨d, hd, hx⟩ := List.mem_flatten.1 hx
        exact (hp d (by simp [hd])).2 x hx
    obtain ⟨a', b', c', q1, q2, q3, q4⟩ := C35_merge (first ++ cs.flatten) c h2
      (hp c (by simp)).2 h1 (hp c (by simp)).1
    rw [List.foldlM_append, e, q1]
    simp only [bind, Except.bind, List.foldlM_cons, List.foldlM_nil, q2, q3, pure, Except.pure]
    rw [List.flatten_append, ← List.append_assoc]
    simp only [List.flatten_cons, List.flatten_nil, List.append_nil]
    exact q4.symm

example : ∃ a, ofSamples [((1 : ℚ), (2 : ℚ))] = .ok a ∧ ∃ b, ofSamples [((4 : ℚ), (1 : ℚ)), (-3, 5)] = .ok b ∧
    merge a b = .ok ⟨3, 8, -9 / 8, -15, 4, -9, 423 / 8, 3867 / 32, 405741 / 512⟩ :=
  ⟨⟨1, 2, 1, 2, 2, 2, 0, 0, 0⟩, by decide +kernel,
    ⟨2, 6, -11 / 6, -15, 4, -11, 245 / 6, 1715 / 9, 84035 / 72⟩,
    by decide +kernel, by decide +kernel⟩

/-- C35: when one of the two data sets is empty (all its values are NaN), the count,
the weights, the sum, the mean and the moments are still those of the other one. -/
theorem C35_merge_empty_partial (s : List (K × K)) (hps : ∀ x ∈ s, 0 < x.2) (hs : s ≠ []) :
    ∃ a b c, ofSamples s = .ok a ∧ merge a empty = .ok b ∧ merge empty a = .ok c ∧
      (∀ d : Acc K, d = b ∨ d = c → d.count = a.count ∧ d.sumOfWeights = a.sumOfWeights ∧
        d.sum = a.sum ∧ d.mean = a.mean ∧ d.mom2 = a.mom2 ∧ d.mom3 = a.mom3 ∧ d.mom4 = a.mom4) ∧
      b.min = min a.min 0 ∧ b.max = max a.max 0 ∧ c.min = min 0 a.min ∧ c.max = max 0 a.max := by
  obtain ⟨a, ea, ma, xa⟩ := ofSamples_spec s hps
  have h1 := raw_zero_pos hs hps
  have hw : a.sumOfWeights ≠ 0 := by rw [ma.weight]; exact h1.ne'
  have hmin : ∀ x y : K, (if x < y then x else y) = min y x := by
    intro x y
    split
    · next h => rw [min_eq_right h.le]
    · next h => rw [min_eq_left (not_lt.1 h)]
  have hmax : ∀ x y : K, (if y < x then x else y) = max y x := by
    intro x y
    split
    · next h => rw [max_eq_right h.le]
    · next h => rw [max_eq_left (not_lt.1 h)]
  refine ⟨a, _, _, ea, by simp only [merge, empty, add_zero, if_neg hw]; rfl,
    by simp only [merge, empty, zero_add, if_neg hw]; rfl, ?_, hmin _ _, hmax _ _, hmin _ _,
    hmax _ _⟩
  rintro d (rfl | rfl)
  · simp
  · simp only [zero_add, mul_zero, zero_mul, sub_zero, add_zero, true_and]
    refine ⟨?_, ?_⟩
    · field_simp
    · simp

/-- C35, what is false: with an empty side the minimum and the maximum become 0 when 0
is beyond the samples, and merging two empty accumulators gives NaN, which then stays
in every later merge. -/
theorem C35_merge_empty_false :
    (∃ a c : Acc ℚ, ofSamples [(5, 1)] = .ok a ∧ merge empty a = .ok c ∧ getMin a = some 5 ∧
      getMin c = some 0) ∧
    merge (empty : Acc K) empty = .error .nan := by
  refine ⟨⟨⟨1, 1, 5, 5, 5, 5, 0, 0, 0⟩, ⟨1, 1, 5, 0, 5, 5, 0, 0, 0⟩, by decide +kernel,
    by decide +kernel, by decide +kernel, by decide +kernel⟩, ?_⟩
  unfold merge empty
  simp

end Pyinterp.Stats
