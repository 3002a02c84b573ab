import Mathlib.Data.Rat.Floor
import Verif.Lemmas.StreamingHistogram

/-
C30 - C33, C62: streaming histogram. `Reach num B h s` (Spec/Histogram.lean): `h` is
obtained by any sequence of calls that gave it the samples `s`.
-/
namespace Pyinterp.Streaming

open Spec

set_option linter.unusedSectionVars false

variable {K : Type} [Field K] [LinearOrder K] [IsStrictOrderedRing K]

/-- C30: at most `bin_count` bins, in increasing order, with positive weights, whose
values are in the range of the samples; the count, the sum of the weights and the
weighted sum of the values are those of the samples. -/
theorem C30_bookkeeping (num : Numeric K) (B : K) (hf : Fits num B) (h : Hist K)
    (s : List (K × K)) (hr : Reach num B h s) :
    h.bins.length ≤ h.binCount ∧ h.bins.Pairwise (fun a b => a.value ≤ b.value) ∧
    (∀ b ∈ h.bins, 0 < b.weight) ∧
    (∀ lo hi : K, (∀ x ∈ s, lo ≤ x.1 ∧ x.1 ≤ hi) → ∀ b ∈ h.bins, lo ≤ b.value ∧ b.value ≤ hi) ∧
    h.count = s.length ∧ sumOfWeights h = totalWeight s ∧
    (h.bins.map fun b => b.weight * b.value).sum = weightedSum s := by
  have i := inv_reach num B hf h s hr
  refine ⟨i.size, i.sorted, i.pos, i.range, i.count, by rw [sumOfWeights_eq, i.weight], ?_⟩
  rw [← i.sum]
  simp only [weightedSum, asSamples, List.map_map]
  rfl

/-- C30: the mean is the exact mean of the samples, NaN when there is none. -/
theorem C30_mean (num : Numeric K) (B : K) (hf : Fits num B) (h : Hist K)
    (s : List (K × K)) (hr : Reach num B h s) :
    mean h = if s = [] then none else some (weightedSum s / totalWeight s) := by
  have i := inv_reach num B hf h s hr
  unfold mean
  rw [moment_eq, i.weight, centralSum_one, i.sum]
  by_cases hs : s = []
  · subst hs; simp [totalWeight]
  · rw [if_neg hs, if_neg (totalWeight_pos hs fun x hx => (i.bound x hx).2).ne']

/-- C30: pushing, merging and resizing never fail on a histogram that keeps at least
one bin. -/
theorem C30_total (num : Numeric K) (B : K) (hf : Fits num B) (h o : Hist K)
    (s t : List (K × K)) (hr : Reach num B h s) (ho : Reach num B o t) :
    (∀ v w, |v| ≤ B → 0 < w → ∃ h', push num h v w = .ok h' ∧ h'.binCount = h.binCount) ∧
    (∃ h', merge num h o = .ok h' ∧ h'.binCount = h.binCount) ∧
    (∀ n, 1 ≤ n → ∃ h', resize num h n = .ok h' ∧ h'.binCount = n) := by
  have i := inv_reach num B hf h s hr
  have j := inv_reach num B hf o t ho
  refine ⟨?_, ?_, ?_⟩
  · intro v w hv hw
    obtain ⟨h', e, _, c⟩ := inv_push num B hf h s i v w hv hw
    exact ⟨h', e, c⟩
  · obtain ⟨h', e, _, c⟩ := inv_merge num B hf h o s t i j
    exact ⟨h', e, c⟩
  · intro n hn
    obtain ⟨h', e, _, c⟩ := inv_resize num B hf h s i n hn
    exact ⟨h', e, c⟩

/-- the parameters of the examples -/
def exNum : Numeric ℚ := ⟨10 ^ 200, 1 / 10 ^ 200, id⟩

example : Fits exNum 1000 := by unfold Fits exNum; norm_num

/-- Three samples in two bins, a merge. -/
example : ∃ h, Reach exNum 1000 h [(1, 1), (10, 1), (2, 3)] ∧
    h.bins = [⟨7 / 4, 4⟩, ⟨10, 1⟩] := by
  have h1 := Reach.push (h' := ⟨false, 2, 1, 1, 1, [⟨1, 1⟩]⟩) 1 1
    (Reach.new (num := exNum) (B := 1000) 2 (by norm_num))
    (by norm_num) (by norm_num) (by decide +kernel)
  have h2 := Reach.push (h' := ⟨false, 2, 2, 1, 10, [⟨1, 1⟩, ⟨10, 1⟩]⟩) 10 1 h1
    (by norm_num) (by norm_num) (by decide +kernel)
  have h3 := Reach.push (h' := ⟨false, 2, 3, 1, 10, [⟨7 / 4, 4⟩, ⟨10, 1⟩]⟩) 2 3 h2
    (by norm_num) (by norm_num) (by decide +kernel)
  exact ⟨_, h3, rfl⟩

/-- C30, boundary: a histogram without bins (`resize(0)`, `bin_count = 0`) reads
outside of its bins as soon as it holds a value. -/
theorem C30_zero_bins (num : Numeric K) (v w : K) :
    push num (make num 0 false) v w = .error .ub ∧
    ∀ h : Hist K, ∀ b, h.bins = [b] → resize num h 0 = .error .ub := by
  constructor
  · unfold push updateBins trim make
    simp [bind, Except.bind, trimLoop, minIndex, minDifference]
  · intro h b hb
    unfold resize trim
    simp [bind, Except.bind, trimLoop, minIndex, minDifference, hb]

/-- C30, boundary: two values whose difference is not less than the largest number are
never merged: the code reads outside of the bins (values ±1.7e308 in `double`). -/
theorem C30_huge_values :
    ∃ h : Hist ℚ, push exNum (make exNum 1 false) (-10 ^ 200) 1 = .ok h ∧
      push exNum h (10 ^ 200) 1 = .error .ub := by
  refine ⟨⟨false, 1, 1, -10 ^ 200, 1 / 10 ^ 200, [⟨-10 ^ 200, 1⟩]⟩, by decide +kernel,
    by decide +kernel⟩

/-- C30: the two bins that are merged when there are too many are neighbours whose
values are the closest. -/
theorem C30_closest (num : Numeric K) (B : K) (hf : Fits num B) (l : List (Bin K))
    (h2 : 2 ≤ l.length) (hr : ∀ b ∈ l, -B ≤ b.value ∧ b.value ≤ B) :
    ∃ j, minIndex num false l = .ok (some j) ∧ ∃ hj : j + 1 < l.length,
      ∀ i (hi : i + 1 < l.length), l[j + 1].value - l[j].value ≤ l[i + 1].value - l[i].value :=
  minIndex_spec num B hf.1 l h2 hr

example : minIndex exNum false [⟨1, 1⟩, ⟨5, 1⟩, ⟨6, 1⟩] = .ok (some 1) := by decide +kernel

/-! ### C31 -/

/-- C31: merging two histograms gives the bookkeeping of all the samples. -/
theorem C31_merge (num : Numeric K) (B : K) (hf : Fits num B) (h o : Hist K)
    (s t : List (K × K)) (hr : Reach num B h s) (ho : Reach num B o t) :
    ∃ h', merge num h o = .ok h' ∧ h'.count = h.count + o.count ∧
      sumOfWeights h' = sumOfWeights h + sumOfWeights o ∧
      (h'.bins.map fun b => b.weight * b.value).sum =
        (h.bins.map fun b => b.weight * b.value).sum +
        (o.bins.map fun b => b.weight * b.value).sum ∧
      h'.bins.length ≤ h.binCount ∧ h'.bins.Pairwise (fun a b => a.value ≤ b.value) ∧
      h'.min = min h.min o.min ∧ h'.max = max h.max o.max := by
  obtain ⟨h', e, _, c⟩ := inv_merge num B hf h o s t (inv_reach num B hf h s hr)
    (inv_reach num B hf o t ho)
  have hr' := Reach.merge hr ho e
  obtain ⟨a1, a2, _, _, a5, a6, a7⟩ := C30_bookkeeping num B hf h' _ hr'
  obtain ⟨_, _, _, _, b5, b6, b7⟩ := C30_bookkeeping num B hf h _ hr
  obtain ⟨_, _, _, _, c5, c6, c7⟩ := C30_bookkeeping num B hf o _ ho
  have hA := sums_append s t
  refine ⟨h', e, ?_, ?_, ?_, by rw [← c]; exact a1, a2, ?_, ?_⟩
  · rw [a5, b5, c5, List.length_append]
  · rw [a6, b6, c6, hA.1]
  · rw [a7, b7, c7, hA.2.1]
  · unfold merge trim at e
    simp only [bind, Except.bind, pure, Except.pure] at e
    split at e
    · cases e
    · split at e
      · cases e
      · cases e
        simp only
        split
        · next hlt => rw [min_eq_right hlt.le]
        · next hlt => rw [min_eq_left (not_lt.1 hlt)]
  · unfold merge trim at e
    simp only [bind, Except.bind, pure, Except.pure] at e
    split at e
    · cases e
    · split at e
      · cases e
      · cases e
        simp only
        split
        · next hlt => rw [max_eq_right hlt.le]
        · next hlt => rw [max_eq_left (not_lt.1 hlt)]

example : ∃ h, merge exNum ⟨false, 2, 1, 1, 1, [⟨1, 1⟩]⟩ ⟨false, 3, 2, 0, 4, [⟨0, 1⟩, ⟨4, 2⟩]⟩ = .ok h ∧
    h = ⟨false, 2, 3, 0, 4, [⟨1 / 2, 2⟩, ⟨4, 2⟩]⟩ := ⟨_, by decide +kernel, rfl⟩

/-! ### C32 -/

/-- C32: with unit weights, `min()` is the smallest sample. -/
theorem C32_min (num : Numeric K) (B : K) (hf : Fits num B) (h : Hist K)
    (s : List (K × K)) (hr : Reach num B h s) (hu : ∀ x ∈ s, x.2 = 1) (hs : s ≠ []) :
    ∃ m, getMin h = some m ∧ (∃ x ∈ s, x.1 = m) ∧ ∀ x ∈ s, m ≤ x.1 := by
  have i := inv_reach num B hf h s hr
  obtain ⟨q1, q2, q3⟩ := i.min
  refine ⟨h.min, ?_, ?_, ?_⟩
  · unfold getMin
    rw [if_pos (by rw [i.count]; exact (List.length_pos_iff.2 hs).ne')]
  · rcases q1 with e | ⟨x, hx, e⟩
    · exfalso
      obtain ⟨x, hx⟩ := List.exists_mem_of_ne_nil s hs
      have h1 := q3 x hx
      have h2 := (abs_le.1 (i.bound x hx).1).2
      rw [hu x hx, one_mul, e] at h1
      have := hf.1
      have := hf.2.2
      linarith
    · exact ⟨x, hx, by rw [e, hu x hx, one_mul]⟩
  · intro x hx
    have := q3 x hx
    rwa [hu x hx, one_mul] at this

/-- C32: with unit weights, `max()` is the largest sample, provided that one sample is
at least the smallest positive number. Missing from the full property: histograms
of non-positive samples, for which `max()` is wrong (`C32_max_false`). -/
theorem C32_max_partial (num : Numeric K) (B : K) (hf : Fits num B) (h : Hist K)
    (s : List (K × K)) (hr : Reach num B h s) (hu : ∀ x ∈ s, x.2 = 1)
    (hs : ∃ x ∈ s, num.min ≤ x.1) :
    ∃ m, getMax h = some m ∧ (∃ x ∈ s, x.1 = m) ∧ ∀ x ∈ s, x.1 ≤ m := by
  have i := inv_reach num B hf h s hr
  obtain ⟨q1, q2, q3⟩ := i.max
  obtain ⟨y, hy, hy'⟩ := hs
  refine ⟨h.max, ?_, ?_, ?_⟩
  · unfold getMax
    rw [if_pos (by rw [i.count]; exact (List.length_pos_iff.2 (List.ne_nil_of_mem hy)).ne')]
  · rcases q1 with e | ⟨x, hx, e⟩
    · refine ⟨y, hy, le_antisymm ?_ (by rw [e]; exact hy')⟩
      have := q3 y hy
      rwa [hu y hy, one_mul] at this
    · exact ⟨x, hx, by rw [e, hu x hx, one_mul]⟩
  · intro x hx
    have := q3 x hx
    rwa [hu x hx, one_mul] at this

/-- C32, what is false: the initial value of the maximum is the smallest positive
number, so `max()` is positive for every history of non-positive samples. -/
theorem C32_max_false (num : Numeric K) (B : K) (hf : Fits num B) (h : Hist K)
    (s : List (K × K)) (hr : Reach num B h s) (hs : s ≠ []) (hneg : ∀ x ∈ s, x.1 ≤ 0) :
    getMax h = some num.min ∧ ∀ x ∈ s, x.1 ≠ num.min := by
  have i := inv_reach num B hf h s hr
  obtain ⟨q1, q2, q3⟩ := i.max
  have hpos := hf.2.1
  constructor
  · unfold getMax
    rw [if_pos (by rw [i.count]; exact (List.length_pos_iff.2 hs).ne')]
    rcases q1 with e | ⟨x, hx, e⟩
    · rw [e]
    · exfalso
      have : x.2 * x.1 ≤ 0 := mul_nonpos_of_nonneg_of_nonpos (i.bound x hx).2.le (hneg x hx)
      linarith
  · intro x hx e
    have := hneg x hx
    linarith

example : ∃ h, Reach exNum 1000 h [(-3, 1)] := by
  exact ⟨_, Reach.push (h' := ⟨false, 2, 1, -3, 1 / 10 ^ 200, [⟨-3, 1⟩]⟩) (s := []) (-3) 1
    (Reach.new (num := exNum) (B := 1000) 2 (by norm_num))
    (by norm_num) (by norm_num) (by decide +kernel)⟩

/-- C32, what is false: with weights, `min()` and `max()` are the extremes of
weight times value: one sample 10 of weight 2 gives 20 for both. -/
theorem C32_weights_false :
    ∃ h, Reach exNum 1000 h [(10, 2)] ∧ getMin h = some 20 ∧ getMax h = some 20 := by
  refine ⟨_, Reach.push (h' := ⟨false, 2, 1, 20, 20, [⟨10, 2⟩]⟩) (s := []) 10 2
    (Reach.new (num := exNum) (B := 1000) 2 (by norm_num))
    (by norm_num) (by norm_num) (by decide +kernel), by decide +kernel, by decide +kernel⟩

/-! ### C33 -/

/-- C33: with unit weights, the quantile of a non-empty histogram is defined for every
`q` of [0, 1] (no access outside of the bins), lies between `min()` and `max()` and
grows with `q`. -/
theorem C33_quantile (num : Numeric K) (B : K) (hf : Fits num B) (h : Hist K)
    (s : List (K × K)) (hr : Reach num B h s) (hu : ∀ x ∈ s, x.2 = 1) (hs : s ≠ []) (q : K)
    (h0 : 0 ≤ q) (h1 : q ≤ 1) :
    ∃ mn mx x, getMin h = some mn ∧ getMax h = some mx ∧ quantile h q = .ok (some x) ∧
      mn ≤ x ∧ x ≤ mx ∧
      ∀ q' x', q ≤ q' → q' ≤ 1 → quantile h q' = .ok (some x') → x ≤ x' := by
  have i := inv_reach num B hf h s hr
  have hc : h.count ≠ 0 := by rw [i.count]; exact (List.length_pos_iff.2 hs).ne'
  have hrg := i.range h.min h.max (by
    intro x hx
    have a := i.min.2.2 x hx
    have b := i.max.2.2 x hx
    rw [hu x hx, one_mul] at a b
    exact ⟨a, b⟩)
  obtain ⟨x, e, a, b, c⟩ := quantile_spec h (i.nonempty hs) i.sorted i.pos
    (fun b hb => (hrg b hb).1) (fun b hb => (hrg b hb).2) q h0 h1
  exact ⟨h.min, h.max, x, by unfold getMin; rw [if_pos hc], by unfold getMax; rw [if_pos hc], e,
    a, b, c⟩

/-- C33: the errors of `quantile`: NaN without samples, an exception outside [0, 1]. -/
theorem C33_errors (num : Numeric K) (B : K) (hf : Fits num B) (h : Hist K)
    (s : List (K × K)) (hr : Reach num B h s) (q : K) :
    (s = [] → quantile h q = .ok none) ∧
    (s ≠ [] → (q < 0 ∨ 1 < q) → quantile h q = .error .exn) := by
  have i := inv_reach num B hf h s hr
  constructor
  · intro h0
    unfold quantile
    rw [i.empty h0]
  · intro h0 hq
    unfold quantile
    have := i.nonempty h0
    cases hb : h.bins with
    | nil => exact absurd hb this
    | cons a l => simp only; rw [if_pos hq]

/-- C33: for any positive weights the quantile is still defined, without access
outside of the bins, when the weighted extremes frame the bins. -/
theorem C33_weighted_partial (num : Numeric K) (B : K) (hf : Fits num B) (h : Hist K)
    (s : List (K × K)) (hr : Reach num B h s) (hs : s ≠ [])
    (hmin : ∀ x ∈ s, h.min ≤ x.1) (hmax : ∀ x ∈ s, x.1 ≤ h.max) (q : K)
    (h0 : 0 ≤ q) (h1 : q ≤ 1) :
    ∃ x, quantile h q = .ok (some x) ∧ h.min ≤ x ∧ x ≤ h.max ∧
      ∀ q' x', q ≤ q' → q' ≤ 1 → quantile h q' = .ok (some x') → x ≤ x' := by
  have i := inv_reach num B hf h s hr
  have hrg := i.range h.min h.max fun x hx => ⟨hmin x hx, hmax x hx⟩
  exact quantile_spec h (i.nonempty hs) i.sorted i.pos
    (fun b hb => (hrg b hb).1) (fun b hb => (hrg b hb).2) q h0 h1

/-- C33, what is false: with weights the quantiles leave the range of the samples
and decrease (one sample 10 of weight 2: q = 0 gives 20, q = 1/2 gives 10). -/
theorem C33_weights_false :
    ∃ h, Reach exNum 1000 h [(10, 2)] ∧ quantile h 0 = .ok (some 20) ∧
      quantile h (1 / 2) = .ok (some 10) := by
  refine ⟨_, Reach.push (h' := ⟨false, 2, 1, 20, 20, [⟨10, 2⟩]⟩) (s := []) 10 2
    (Reach.new (num := exNum) (B := 1000) 2 (by norm_num))
    (by norm_num) (by norm_num) (by decide +kernel), by decide +kernel, by decide +kernel⟩

example : ∃ h, Reach exNum 1000 h [(1, 1), (10, 1)] ∧ quantile h (1 / 2) = .ok (some (11 / 2)) := by
  have h1 := Reach.push (h' := ⟨false, 2, 1, 1, 1, [⟨1, 1⟩]⟩) 1 1
    (Reach.new (num := exNum) (B := 1000) 2 (by norm_num))
    (by norm_num) (by norm_num) (by decide +kernel)
  have h2 := Reach.push (h' := ⟨false, 2, 2, 1, 10, [⟨1, 1⟩, ⟨10, 1⟩]⟩) 10 1 h1
    (by norm_num) (by norm_num) (by decide +kernel)
  exact ⟨_, h2, by decide +kernel⟩

/-! ### C62 -/

/-- C62: the variance given by the histogram is at most the variance of the samples
(merging bins loses the variance inside the bin). -/
theorem C62_variance_le (num : Numeric K) (B : K) (hf : Fits num B) (h : Hist K)
    (s : List (K × K)) (hr : Reach num B h s) (hs : s ≠ []) :
    ∃ v, variance h = some v ∧ 0 ≤ v ∧
      v ≤ centralSum 2 (weightedSum s / totalWeight s) s / totalWeight s := by
  have i := inv_reach num B hf h s hr
  have hW := totalWeight_pos hs fun x hx => (i.bound x hx).2
  unfold variance
  rw [C30_mean num B hf h s hr, if_neg hs]
  simp only [Option.bind_some]
  rw [moment_eq, i.weight, if_neg hW.ne']
  refine ⟨_, rfl, ?_, ?_⟩
  · apply div_nonneg _ hW.le
    unfold centralSum
    apply List.sum_nonneg
    intro y hy
    obtain ⟨x, hx, rfl⟩ := List.mem_map.1 hy
    obtain ⟨b, hb, rfl⟩ := List.mem_map.1 hx
    exact mul_nonneg (i.pos b hb).le (sq_nonneg _)
  · apply (div_le_div_iff_of_pos_right hW).2
    rw [centralSum_two, centralSum_two, i.sum, i.weight]
    have := i.squares
    linarith

/-- C62: while there are no more samples than bins, the bins are the samples
themselves in order: nothing is lost. -/
theorem C62_exact_when_small (num : Numeric K) (B : K) (hf : Fits num B) (n : Nat) (hn : 1 ≤ n)
    (s : List (K × K)) (hb : ∀ x ∈ s, |x.1| ≤ B ∧ 0 < x.2) (hl : s.length ≤ n) :
    ∃ h, s.foldlM (fun h x => push num h x.1 x.2) (make num n false) = .ok h ∧
      Reach num B h s ∧ (h.bins.map fun b => (b.value, b.weight)).Perm s := by
  induction s using List.reverseRecOn with
  | nil => exact ⟨_, rfl, Reach.new n hn, by simp [make]⟩
  | append_singleton s x ih =>
    obtain ⟨h, e, hr, hp⟩ := ih (fun y hy => hb y (by simp [hy])) (by simp at hl; omega)
    have i := inv_reach num B hf h s hr
    obtain ⟨hx1, hx2⟩ := hb x (by simp)
    obtain ⟨l, e1, p1, sl⟩ := updateBins_spec h.bins x.1 x.2 i.sorted
    obtain ⟨h', e2, i', c⟩ := inv_push num B hf h s i x.1 x.2 hx1 hx2
    have hbc : h.binCount = n := by
      clear ih hp i i' e1 e2 p1 sl hb hl hr hx1 hx2 c
      have key : ∀ (s : List (K × K)) (h0 h : Hist K),
          s.foldlM (fun h x => push num h x.1 x.2) h0 = .ok h → h.binCount = h0.binCount := by
        intro s
        induction s with
        | nil => intro h0 h e; cases e; rfl
        | cons y s ih =>
          intro h0 h e
          simp only [List.foldlM_cons, bind, Except.bind] at e
          split at e
          · cases e
          · next h1 e1 =>
            rw [ih h1 h e]
            unfold push trim at e1
            simp only [bind, Except.bind, pure, Except.pure] at e1
            split at e1
            · cases e1
            · split at e1
              · cases e1
              · cases e1; rfl
      exact key s _ h e
    have hlen : l.length ≤ h.binCount := by
      have h1 := p1.length_eq
      have h2 := hp.length_eq
      simp only [List.length_map, List.length_cons] at h1 h2
      simp at hl
      omega
    refine ⟨h', ?_, Reach.push x.1 x.2 hr hx1 hx2 e2, ?_⟩
    · rw [List.foldlM_append, e]
      simp only [bind, Except.bind, List.foldlM_cons, List.foldlM_nil, e2]
      rfl
    · have hbins : h'.bins = l := by
        unfold push trim at e2
        rw [e1] at e2
        simp only [bind, Except.bind, pure, Except.pure] at e2
        rw [show l.length - h.binCount = 0 by omega] at e2
        simp only [trimLoop] at e2
        cases e2
        rfl
      rw [hbins]
      refine (p1.map _).trans ?_
      simp only [List.map_cons]
      refine (List.Perm.cons _ hp).trans ?_
      exact List.perm_append_comm (l₁ := [x])

example : (∀ x ∈ [((3 : ℚ), (1 : ℚ)), (-2, 5)], |x.1| ≤ 1000 ∧ 0 < x.2) := by decide +kernel

end Pyinterp.Streaming
