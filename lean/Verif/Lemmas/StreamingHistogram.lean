import Mathlib.Algebra.Order.BigOperators.Group.List
import Mathlib.Data.List.Perm.Basic
import Mathlib.Tactic.Linarith
import Mathlib.Tactic.FieldSimp
import Mathlib.Tactic.Ring
import Mathlib.Tactic.Positivity
import Verif.Spec.Histogram

namespace Pyinterp.Streaming

open Spec

set_option linter.unusedSectionVars false

variable {K : Type} [Field K] [LinearOrder K] [IsStrictOrderedRing K]

theorem insertIdx_eq {α : Type} (x : α) : ∀ (l : List α) (i : Nat), i ≤ l.length →
    l.insertIdx i x = l.take i ++ x :: l.drop i
  | l, 0, _ => by simp
  | [], i + 1, h => by simp at h
  | a :: l, i + 1, h => by
    simp only [List.insertIdx_succ_cons, List.take_succ_cons, List.drop_succ_cons, List.cons_append,
      List.cons.injEq, true_and]
    exact insertIdx_eq x l i (by simpa using h)

theorem le_getLast {front : Bin K} {tl : List (Bin K)} (hs : SortedBins (front :: tl)) :
    ∀ b ∈ front :: tl, b.value ≤ ((front :: tl).getLast (List.cons_ne_nil _ _)).value := by
  intro b hb
  have hsplit := List.dropLast_append_getLast (List.cons_ne_nil front tl)
  rw [← hsplit] at hb
  unfold SortedBins at hs
  rw [← hsplit, List.pairwise_append] at hs
  rcases List.mem_append.1 hb with h | h
  · exact hs.2.2 b h _ (List.mem_singleton.2 rfl)
  · rw [List.mem_singleton.1 h]

/-- a new bin is inserted in order, nothing else changes -/
theorem updateBins_spec (bins : List (Bin K)) (v w : K) (hs : SortedBins bins) :
    ∃ bins', updateBins bins v w = .ok bins' ∧ bins'.Perm (⟨v, w⟩ :: bins) ∧ SortedBins bins' := by
  unfold updateBins
  cases bins with
  | nil => exact ⟨_, rfl, List.Perm.refl _, by simp [SortedBins]⟩
  | cons front tl =>
    simp only
    split
    · next h =>
      refine ⟨_, rfl, List.Perm.refl _, ?_⟩
      unfold SortedBins at hs ⊢
      rw [List.pairwise_cons]
      refine ⟨?_, hs⟩
      intro b hb
      rcases List.mem_cons.1 hb with rfl | hb
      · exact h
      · exact le_trans h ((List.pairwise_cons.1 hs).1 b hb)
    · next h1 =>
      split
      · next h =>
        refine ⟨_, rfl, List.perm_append_comm, ?_⟩
        unfold SortedBins
        rw [List.pairwise_append]
        refine ⟨hs, List.pairwise_singleton _ _, ?_⟩
        intro b hb c hc
        rw [List.mem_singleton.1 hc]
        exact le_trans (le_getLast hs b hb) h
      · next h2 =>
        have h2' : ∀ b, (front :: tl)[(front :: tl).length - 1]? = some b → ¬ b.value ≤ v := by
          intro b hb
          rw [← List.getLast?_eq_getElem?, List.getLast?_eq_some_getLast (List.cons_ne_nil _ _)] at hb
          cases hb
          exact h2
        clear h2
        have hne : front :: tl ≠ [] := List.cons_ne_nil _ _
        clear h1
        generalize front :: tl = bins at *
        set p : Nat → Bool := fun i =>
          match bins[i]? with | some b => decide (b.value ≤ v) | none => false with hp
        have hget : ∀ i (hi : i < bins.length), p i = decide (bins[i].value ≤ v) := by
          intro i hi
          simp only [hp, List.getElem?_eq_getElem hi]
        have hmono : ∀ i j, i ≤ j → ∀ (hj : j < bins.length) (hi : i < bins.length),
            bins[i].value ≤ bins[j].value := by
          intro i j hij hj hi
          rcases Nat.lt_or_eq_of_le hij with h | rfl
          · exact List.pairwise_iff_getElem.1 hs i j hi hj h
          · exact le_refl _
        obtain ⟨a1, a2, a3, a4⟩ := lowerBound_spec p 0 bins.length (by
          intro i j _ hij hj hpj
          rw [hget j (by omega), decide_eq_true_iff] at hpj
          rw [hget i (by omega), decide_eq_true_iff]
          exact le_trans (hmono i j hij (by omega) (by omega)) hpj)
        generalize hidx : lowerBound p 0 bins.length = idx at *
        have hpos : 0 < bins.length := List.length_pos_iff.2 hne
        have hlt : idx < bins.length := by
          by_contra hge
          have h3 := a3 (bins.length - 1) (by omega) (by omega)
          rw [hget _ (by omega), decide_eq_true_iff] at h3
          exact h2' _ (List.getElem?_eq_getElem (by omega)) h3
        rw [List.getElem?_eq_getElem hlt]
        have h4 := a4 idx (le_refl _) (by omega)
        rw [hget _ hlt, decide_eq_false_iff_not, not_le] at h4
        simp only
        rw [if_neg h4.ne']
        refine ⟨_, rfl, List.perm_insertIdx _ _ hlt.le, ?_⟩
        rw [insertIdx_eq _ _ _ hlt.le]
        unfold SortedBins
        rw [List.pairwise_append, List.pairwise_cons]
        have hl : ∀ b ∈ bins.take idx, b.value ≤ v := by
          intro b hb
          obtain ⟨i, hi, rfl⟩ := List.mem_iff_getElem.1 hb
          rw [List.length_take] at hi
          rw [List.getElem_take]
          have := a3 i (by omega) (by omega)
          rwa [hget _ (by omega), decide_eq_true_iff] at this
        have hr : ∀ b ∈ bins.drop idx, v ≤ b.value := by
          intro b hb
          obtain ⟨i, hi, rfl⟩ := List.mem_iff_getElem.1 hb
          rw [List.length_drop] at hi
          rw [List.getElem_drop]
          have := a4 (idx + i) (by omega) (by omega)
          rw [hget _ (by omega), decide_eq_false_iff_not, not_le] at this
          exact this.le
        refine ⟨List.Pairwise.sublist (List.take_sublist _ _) hs, ⟨hr,
          List.Pairwise.sublist (List.drop_sublist _ _) hs⟩, ?_⟩
        intro b hb c hc
        rcases List.mem_cons.1 hc with rfl | hc
        · exact hl b hb
        · exact le_trans (hl b hb) (hr c hc)

/-! ### merging two bins -/

theorem mean_between {v0 w0 v1 w1 : K} (h0 : 0 < w0) (h1 : 0 < w1) (hv : v0 ≤ v1) :
    v0 ≤ (v0 * w0 + v1 * w1) / (w0 + w1) ∧ (v0 * w0 + v1 * w1) / (w0 + w1) ≤ v1 := by
  have hw : 0 < w0 + w1 := by linarith
  constructor
  · rw [le_div_iff₀ hw]
    nlinarith
  · rw [div_le_iff₀ hw]
    nlinarith

/-- What a merge of neighbouring bins keeps. -/
structure Merged (l l' : List (Bin K)) : Prop where
  sorted : SortedBins l'
  pos : ∀ b ∈ l', 0 < b.weight
  range : ∀ lo hi : K, (∀ b ∈ l, lo ≤ b.value ∧ b.value ≤ hi) → ∀ b ∈ l', lo ≤ b.value ∧ b.value ≤ hi
  weight : totalWeight (asSamples l') = totalWeight (asSamples l)
  sum : weightedSum (asSamples l') = weightedSum (asSamples l)
  squares : weightedSquares (asSamples l') ≤ weightedSquares (asSamples l)

theorem Merged.refl {l : List (Bin K)} (hs : SortedBins l) (hp : ∀ b ∈ l, 0 < b.weight) :
    Merged l l := ⟨hs, hp, fun _ _ h => h, rfl, rfl, le_refl _⟩

theorem Merged.trans {a b c : List (Bin K)} (h1 : Merged a b) (h2 : Merged b c) : Merged a c :=
  ⟨h2.sorted, h2.pos, fun lo hi h => h2.range lo hi (h1.range lo hi h), h2.weight.trans h1.weight,
    h2.sum.trans h1.sum, le_trans h2.squares h1.squares⟩

theorem mergeAt_spec : ∀ (k : Nat) (l : List (Bin K)), SortedBins l → (∀ b ∈ l, 0 < b.weight) →
    k + 1 < l.length → ∃ l', mergeAt k l = .ok l' ∧ l'.length + 1 = l.length ∧ Merged l l'
  | 0, [], _, _, h => by simp at h
  | 0, [a], _, _, h => by simp at h
  | 0, a :: b :: l, hs, hp, _ => by
    have ha := hp a (by simp)
    have hb := hp b (by simp)
    have hab : a.value ≤ b.value := (List.pairwise_cons.1 hs).1 b (by simp)
    have hs' : SortedBins l := (List.pairwise_cons.1 (List.pairwise_cons.1 hs).2).2
    have hbl : ∀ c ∈ l, b.value ≤ c.value := (List.pairwise_cons.1 (List.pairwise_cons.1 hs).2).1
    have hw : a.weight + b.weight ≠ 0 := by linarith
    obtain ⟨m1, m2⟩ := mean_between ha hb hab
    rw [mergeAt, if_neg hw]
    refine ⟨_, rfl, by simp, ⟨?_, ?_, ?_, ?_, ?_, ?_⟩⟩
    · unfold SortedBins
      rw [List.pairwise_cons]
      exact ⟨fun c hc => le_trans m2 (hbl c hc), hs'⟩
    · intro c hc
      rcases List.mem_cons.1 hc with rfl | hc
      · simp only; linarith
      · exact hp c (by simp [hc])
    · intro lo hi h c hc
      rcases List.mem_cons.1 hc with rfl | hc
      · exact ⟨le_trans (h a (by simp)).1 m1, le_trans m2 (h b (by simp)).2⟩
      · exact h c (by simp [hc])
    · simp only [totalWeight, asSamples, List.map_cons, List.sum_cons]
      ring
    · simp only [weightedSum, asSamples, List.map_cons, List.sum_cons]
      field_simp
      ring
    · simp only [weightedSquares, asSamples, List.map_cons, List.sum_cons]
      rw [← add_assoc]
      apply add_le_add_left
      have hw' : 0 < a.weight + b.weight := by linarith
      have e : (a.weight + b.weight) *
          ((a.value * a.weight + b.value * b.weight) / (a.weight + b.weight)) ^ 2 =
          (a.value * a.weight + b.value * b.weight) ^ 2 / (a.weight + b.weight) := by
        field_simp
      rw [e, div_le_iff₀ hw']
      nlinarith [mul_nonneg (mul_pos ha hb).le (sq_nonneg (a.value - b.value))]
  | k + 1, [], _, _, h => by simp at h
  | k + 1, a :: l, hs, hp, h => by
    have hs' := (List.pairwise_cons.1 hs).2
    have hal := (List.pairwise_cons.1 hs).1
    obtain ⟨l', e, hlen, m⟩ := mergeAt_spec k l hs' (fun b hb => hp b (by simp [hb]))
      (by simpa using h)
    rw [mergeAt, e]
    refine ⟨a :: l', rfl, by simp [hlen], ⟨?_, ?_, ?_, ?_, ?_, ?_⟩⟩
    · unfold SortedBins
      rw [List.pairwise_cons]
      refine ⟨?_, m.sorted⟩
      intro c hc
      -- the greatest value is reached in `l`
      have hne : l ≠ [] := by rintro rfl; simp at h
      cases l with
      | nil => exact absurd rfl hne
      | cons f tl =>
        exact (m.range a.value _ (fun b hb => ⟨hal b hb, le_getLast hs' b hb⟩) c hc).1
    · intro c hc
      rcases List.mem_cons.1 hc with rfl | hc
      · exact hp _ (by simp)
      · exact m.pos c hc
    · intro lo hi h c hc
      rcases List.mem_cons.1 hc with rfl | hc
      · exact h _ (by simp)
      · exact m.range lo hi (fun b hb => h b (by simp [hb])) c hc
    · have := m.weight
      simp only [totalWeight, asSamples, List.map_cons, List.sum_cons] at this ⊢
      rw [this]
    · have := m.sum
      simp only [weightedSum, asSamples, List.map_cons, List.sum_cons] at this ⊢
      rw [this]
    · have := m.squares
      simp only [weightedSquares, asSamples, List.map_cons, List.sum_cons] at this ⊢
      linarith

/-! ### the closest bins -/

/-- differences of neighbouring values -/
def gaps : List (Bin K) → List K
  | a :: b :: l => (b.value - a.value) :: gaps (b :: l)
  | _ => []

theorem gaps_length : ∀ l : List (Bin K), (gaps l).length = l.length - 1
  | [] => rfl
  | [_] => rfl
  | a :: b :: l => by simp [gaps, gaps_length (b :: l)]

theorem gaps_getElem : ∀ (l : List (Bin K)) (i : Nat) (h : i + 1 < l.length),
    (gaps l)[i]'(by rw [gaps_length]; omega) = l[i + 1].value - l[i].value
  | [], i, h => by simp at h
  | [_], i, h => by simp at h
  | a :: b :: l, 0, h => by simp [gaps]
  | a :: b :: l, i + 1, h => by
    simp only [gaps, List.getElem_cons_succ]
    exact gaps_getElem (b :: l) i (by simpa using h)

omit [IsStrictOrderedRing K] in
theorem minDifference_spec (num : Numeric K) : ∀ (l : List (Bin K)) (prev : Bin K) (ix : Nat)
    (diff : K) (index : Option Nat),
    (∃ j, j < (gaps (prev :: l)).length ∧
      minDifference num false prev l ix diff index = some (ix + j) ∧
      (∀ (hj : j < (gaps (prev :: l)).length), (gaps (prev :: l))[j] < diff ∧
        ∀ d ∈ gaps (prev :: l), (gaps (prev :: l))[j] ≤ d)) ∨
    (minDifference num false prev l ix diff index = index ∧ ∀ d ∈ gaps (prev :: l), diff ≤ d)
  | [], prev, ix, diff, index => by
    right
    exact ⟨rfl, by simp [gaps]⟩
  | b :: l, prev, ix, diff, index => by
    simp only [minDifference, difference, Bool.false_eq_true, if_false]
    split
    · next h =>
      left
      rcases minDifference_spec num l b (ix + 1) (b.value - prev.value) (some ix) with
        ⟨j, hj, e, hmin⟩ | ⟨e, hmin⟩
      · refine ⟨j + 1, by simp only [gaps, List.length_cons]; omega,
          by rw [e]; congr 1; omega, ?_⟩
        intro hj'
        obtain ⟨q1, q2⟩ := hmin hj
        simp only [gaps, List.getElem_cons_succ, List.mem_cons, forall_eq_or_imp]
        exact ⟨lt_trans q1 h, q1.le, q2⟩
      · refine ⟨0, by simp [gaps], e, ?_⟩
        intro hj'
        simp only [gaps, List.getElem_cons_zero, List.mem_cons, forall_eq_or_imp]
        exact ⟨h, le_refl _, hmin⟩
    · next h =>
      rcases minDifference_spec num l b (ix + 1) diff index with ⟨j, hj, e, hmin⟩ | ⟨e, hmin⟩
      · left
        refine ⟨j + 1, by simp only [gaps, List.length_cons]; omega,
          by rw [e]; congr 1; omega, ?_⟩
        intro hj'
        obtain ⟨q1, q2⟩ := hmin hj
        simp only [gaps, List.getElem_cons_succ, List.mem_cons, forall_eq_or_imp]
        exact ⟨q1, le_trans q1.le (not_lt.1 h), q2⟩
      · right
        refine ⟨e, ?_⟩
        simp only [gaps, List.mem_cons, forall_eq_or_imp]
        exact ⟨not_lt.1 h, hmin⟩

/-- with at least two bins, the index of the closest ones is found -/
theorem minIndex_spec (num : Numeric K) (B : K) (hB : 2 * B < num.max) (l : List (Bin K))
    (h2 : 2 ≤ l.length) (hr : ∀ b ∈ l, -B ≤ b.value ∧ b.value ≤ B) :
    ∃ j, minIndex num false l = .ok (some j) ∧ ∃ hj : j + 1 < l.length,
      ∀ i (hi : i + 1 < l.length), l[j + 1].value - l[j].value ≤ l[i + 1].value - l[i].value := by
  cases l with
  | nil => simp at h2
  | cons prev tl =>
    cases tl with
    | nil => simp at h2
    | cons b tl =>
      rcases minDifference_spec num (b :: tl) prev 0 num.max none with ⟨j, hj, e, hmin⟩ | ⟨e, hmin⟩
      · have hj' : j + 1 < (prev :: b :: tl).length := by
          rw [gaps_length] at hj; simp only [List.length_cons] at hj ⊢; omega
        refine ⟨j, by simp only [minIndex, e, Nat.zero_add], hj', ?_⟩
        intro i hi
        have := (hmin hj).2 _ (List.getElem_mem (by rw [gaps_length]; simp only [List.length_cons] at hi ⊢; omega :
          i < (gaps (prev :: b :: tl)).length))
        rwa [gaps_getElem _ j hj', gaps_getElem _ i hi] at this
      · exfalso
        have h1 := hmin (b.value - prev.value) (by simp [gaps])
        have h3 := hr b (by simp)
        have h4 := hr prev (by simp)
        linarith

theorem trimLoop_spec (num : Numeric K) (B : K) (hB : 2 * B < num.max) : ∀ (n : Nat)
    (l : List (Bin K)), SortedBins l → (∀ b ∈ l, 0 < b.weight) →
    (∀ b ∈ l, -B ≤ b.value ∧ b.value ≤ B) → n < l.length ∨ n = 0 →
    ∃ l', trimLoop num false n l = .ok l' ∧ l'.length + n = l.length ∧ Merged l l'
  | 0, l, hs, hp, _, _ => ⟨l, rfl, rfl, Merged.refl hs hp⟩
  | n + 1, l, hs, hp, hr, hn => by
    have hlen : n + 1 < l.length := by omega
    obtain ⟨j, e, hj, _⟩ := minIndex_spec num B hB l (by omega) hr
    obtain ⟨l1, e1, hl1, m1⟩ := mergeAt_spec j l hs hp hj
    obtain ⟨l2, e2, hl2, m2⟩ := trimLoop_spec num B hB n l1 m1.sorted m1.pos
      (m1.range (-B) B hr) (by omega)
    refine ⟨l2, ?_, by omega, m1.trans m2⟩
    simp only [trimLoop, e, bind, Except.bind, e1, e2]

theorem sums_perm {l l' : List (Bin K)} (h : l.Perm l') :
    totalWeight (asSamples l) = totalWeight (asSamples l') ∧
    weightedSum (asSamples l) = weightedSum (asSamples l') ∧
    weightedSquares (asSamples l) = weightedSquares (asSamples l') :=
  ⟨((h.map _).map _).sum_eq, ((h.map _).map _).sum_eq, ((h.map _).map _).sum_eq⟩

/-- Merging bins one by one. -/
theorem foldlM_updateBins : ∀ (o l : List (Bin K)), SortedBins l →
    ∃ l', o.foldlM (fun bins b => updateBins bins b.value b.weight) l = .ok l' ∧
      l'.Perm (l ++ o) ∧ SortedBins l'
  | [], l, hs => ⟨l, rfl, by simp, hs⟩
  | b :: o, l, hs => by
    obtain ⟨l1, e1, p1, s1⟩ := updateBins_spec l b.value b.weight hs
    obtain ⟨l2, e2, p2, s2⟩ := foldlM_updateBins o l1 s1
    refine ⟨l2, ?_, ?_, s2⟩
    · simp only [List.foldlM_cons, e1, bind, Except.bind]
      exact e2
    · refine p2.trans ?_
      refine (List.Perm.append_right o p1).trans ?_
      exact List.perm_middle.symm

/-! ### the invariant -/

/-- What holds of every histogram that a user can obtain. -/
structure Inv (num : Numeric K) (B : K) (h : Hist K) (s : List (K × K)) : Prop where
  simple : h.weightedDiff = false
  one : 1 ≤ h.binCount
  size : h.bins.length ≤ h.binCount
  sorted : SortedBins h.bins
  pos : ∀ b ∈ h.bins, 0 < b.weight
  bound : ∀ x ∈ s, |x.1| ≤ B ∧ 0 < x.2
  range : ∀ lo hi : K, (∀ x ∈ s, lo ≤ x.1 ∧ x.1 ≤ hi) → ∀ b ∈ h.bins, lo ≤ b.value ∧ b.value ≤ hi
  weight : totalWeight (asSamples h.bins) = totalWeight s
  sum : weightedSum (asSamples h.bins) = weightedSum s
  squares : weightedSquares (asSamples h.bins) ≤ weightedSquares s
  count : h.count = s.length
  nonempty : s ≠ [] → h.bins ≠ []
  empty : s = [] → h.bins = []
  min : (h.min = num.max ∨ ∃ x ∈ s, h.min = x.2 * x.1) ∧ h.min ≤ num.max ∧
    ∀ x ∈ s, h.min ≤ x.2 * x.1
  max : (h.max = num.min ∨ ∃ x ∈ s, h.max = x.2 * x.1) ∧ num.min ≤ h.max ∧
    ∀ x ∈ s, x.2 * x.1 ≤ h.max

theorem inv_make (num : Numeric K) (B : K) (n : Nat) (hn : 1 ≤ n) :
    Inv num B (make num n false) [] := by
  refine ⟨rfl, hn, Nat.zero_le _, List.Pairwise.nil, ?_, ?_, ?_, rfl, rfl, le_refl _, rfl, ?_, ?_,
    ⟨Or.inl rfl, le_refl _, ?_⟩, ⟨Or.inl rfl, le_refl _, ?_⟩⟩ <;> simp [make]

/-- trimming a histogram whose bins hold the samples `s` -/
theorem trim_spec (num : Numeric K) (B : K) (hf : Fits num B) (h : Hist K)
    (hsimple : h.weightedDiff = false) (hone : 1 ≤ h.binCount) (hs : SortedBins h.bins)
    (hp : ∀ b ∈ h.bins, 0 < b.weight) (hr : ∀ b ∈ h.bins, -B ≤ b.value ∧ b.value ≤ B) :
    ∃ h', trim num h = .ok h' ∧ h' = { h with bins := h'.bins } ∧ Merged h.bins h'.bins ∧
      h'.bins.length ≤ h.binCount ∧ (h.bins ≠ [] → h'.bins ≠ []) ∧ (h.bins = [] → h'.bins = []) ∧
      (h.bins.length ≤ h.binCount → h'.bins = h.bins) := by
  obtain ⟨l, e, hl, m⟩ := trimLoop_spec num B hf.1 (h.bins.length - h.binCount) h.bins hs hp hr
    (by omega)
  refine ⟨{ h with bins := l }, ?_, rfl, m, by simp only; omega, ?_, ?_, ?_⟩
  · unfold trim
    rw [hsimple, e]
    rfl
  · intro hne h0
    simp only at h0
    rw [h0] at hl
    have := List.length_pos_iff.2 hne
    simp at hl
    omega
  · intro h0
    rw [h0] at hl
    simp only [List.length_nil, Nat.zero_sub, Nat.add_zero] at hl
    exact List.length_eq_zero_iff.1 hl
  · intro h0
    rw [show h.bins.length - h.binCount = 0 by omega] at e
    simp only [trimLoop, Except.ok.injEq] at e
    exact e.symm

theorem range_B {s : List (K × K)} {B : K} (hb : ∀ x ∈ s, |x.1| ≤ B ∧ 0 < x.2) :
    ∀ x ∈ s, -B ≤ x.1 ∧ x.1 ≤ B := fun x hx => abs_le.1 (hb x hx).1

theorem sums_append (s t : List (K × K)) :
    totalWeight (s ++ t) = totalWeight s + totalWeight t ∧
    weightedSum (s ++ t) = weightedSum s + weightedSum t ∧
    weightedSquares (s ++ t) = weightedSquares s + weightedSquares t := by
  simp [totalWeight, weightedSum, weightedSquares]

theorem inv_push (num : Numeric K) (B : K) (hf : Fits num B) (h : Hist K) (s : List (K × K))
    (hi : Inv num B h s) (v w : K) (hv : |v| ≤ B) (hw : 0 < w) :
    ∃ h', push num h v w = .ok h' ∧ Inv num B h' (s ++ [(v, w)]) ∧ h'.binCount = h.binCount := by
  obtain ⟨l, e, p, sl⟩ := updateBins_spec h.bins v w hi.sorted
  have hmem : ∀ b ∈ l, b = ⟨v, w⟩ ∨ b ∈ h.bins := fun b hb => List.mem_cons.1 (p.subset hb)
  have hpos : ∀ b ∈ l, 0 < b.weight := by
    intro b hb
    rcases hmem b hb with rfl | hb
    · exact hw
    · exact hi.pos b hb
  have hrange : ∀ lo hi' : K, (∀ x ∈ s ++ [(v, w)], lo ≤ x.1 ∧ x.1 ≤ hi') → ∀ b ∈ l,
      lo ≤ b.value ∧ b.value ≤ hi' := by
    intro lo hi' hx b hb
    rcases hmem b hb with rfl | hb
    · exact hx (v, w) (by simp)
    · exact hi.range lo hi' (fun x hx' => hx x (by simp [hx'])) b hb
  have hbound : ∀ x ∈ s ++ [(v, w)], |x.1| ≤ B ∧ 0 < x.2 := by
    intro x hx
    rcases List.mem_append.1 hx with hx | hx
    · exact hi.bound x hx
    · rw [List.mem_singleton.1 hx]; exact ⟨hv, hw⟩
  obtain ⟨h', e', h'eq, m, hsz, hne, _, _⟩ := trim_spec num B hf
    { h with
      count := h.count + 1
      min := if w * v < h.min then w * v else h.min
      max := if h.max < w * v then w * v else h.max
      bins := l } hi.simple hi.one sl hpos (hrange (-B) B (range_B hbound))
  have hS := sums_perm p
  have hA := sums_append s [(v, w)]
  have hl : l ≠ [] := by
    rintro rfl
    exact absurd p.length_eq (by simp)
  simp only at m hsz hne
  have c1 : h'.weightedDiff = h.weightedDiff := by rw [h'eq]
  have c2 : h'.binCount = h.binCount := by rw [h'eq]
  have c3 : h'.count = h.count + 1 := by rw [h'eq]
  have c4 : h'.min = if w * v < h.min then w * v else h.min := by rw [h'eq]
  have c5 : h'.max = if h.max < w * v then w * v else h.max := by rw [h'eq]
  refine ⟨h', ?_, ⟨?_, ?_, ?_, m.sorted, m.pos, hbound, ?_, ?_, ?_, ?_, ?_, ?_, ?_, ?_, ?_⟩, c2⟩
  · unfold push
    rw [e]
    exact e'
  · rw [c1]; exact hi.simple
  · rw [c2]; exact hi.one
  · rw [c2]; exact hsz
  · intro lo hi' hx
    exact m.range lo hi' (hrange lo hi' hx)
  · rw [m.weight, hS.1, hA.1, ← hi.weight]
    simp [totalWeight, asSamples, add_comm]
  · rw [m.sum, hS.2.1, hA.2.1, ← hi.sum]
    simp [weightedSum, asSamples, add_comm]
  · refine le_trans m.squares ?_
    rw [hS.2.2, hA.2.2]
    have := hi.squares
    simp only [weightedSquares, asSamples, List.map_cons, List.sum_cons, List.map_nil,
      List.sum_nil] at this ⊢
    linarith
  · rw [c3, hi.count]; simp
  · intro _; exact hne hl
  · intro h0; simp at h0
  · rw [c4]
    obtain ⟨q1, q2, q3⟩ := hi.min
    split
    · next hlt =>
      refine ⟨Or.inr ⟨(v, w), by simp, rfl⟩, le_trans hlt.le q2, ?_⟩
      intro x hx
      rcases List.mem_append.1 hx with hx | hx
      · exact le_trans hlt.le (q3 x hx)
      · rw [List.mem_singleton.1 hx]
    · next hlt =>
      refine ⟨?_, q2, ?_⟩
      · rcases q1 with h | ⟨x, hx, h⟩
        · exact Or.inl h
        · exact Or.inr ⟨x, by simp [hx], h⟩
      · intro x hx
        rcases List.mem_append.1 hx with hx | hx
        · exact q3 x hx
        · rw [List.mem_singleton.1 hx]; exact not_lt.1 hlt
  · rw [c5]
    obtain ⟨q1, q2, q3⟩ := hi.max
    split
    · next hlt =>
      refine ⟨Or.inr ⟨(v, w), by simp, rfl⟩, le_trans q2 hlt.le, ?_⟩
      intro x hx
      rcases List.mem_append.1 hx with hx | hx
      · exact le_trans (q3 x hx) hlt.le
      · rw [List.mem_singleton.1 hx]
    · next hlt =>
      refine ⟨?_, q2, ?_⟩
      · rcases q1 with h | ⟨x, hx, h⟩
        · exact Or.inl h
        · exact Or.inr ⟨x, by simp [hx], h⟩
      · intro x hx
        rcases List.mem_append.1 hx with hx | hx
        · exact q3 x hx
        · rw [List.mem_singleton.1 hx]; exact not_lt.1 hlt

theorem inv_merge (num : Numeric K) (B : K) (hf : Fits num B) (h o : Hist K) (s t : List (K × K))
    (hi : Inv num B h s) (ho : Inv num B o t) :
    ∃ h', merge num h o = .ok h' ∧ Inv num B h' (s ++ t) ∧ h'.binCount = h.binCount := by
  obtain ⟨l, e, p, sl⟩ := foldlM_updateBins o.bins h.bins hi.sorted
  have hmem : ∀ b ∈ l, b ∈ h.bins ∨ b ∈ o.bins := fun b hb => List.mem_append.1 (p.subset hb)
  have hpos : ∀ b ∈ l, 0 < b.weight := by
    intro b hb
    rcases hmem b hb with hb | hb
    · exact hi.pos b hb
    · exact ho.pos b hb
  have hrange : ∀ lo hi' : K, (∀ x ∈ s ++ t, lo ≤ x.1 ∧ x.1 ≤ hi') → ∀ b ∈ l,
      lo ≤ b.value ∧ b.value ≤ hi' := by
    intro lo hi' hx b hb
    rcases hmem b hb with hb | hb
    · exact hi.range lo hi' (fun x hx' => hx x (by simp [hx'])) b hb
    · exact ho.range lo hi' (fun x hx' => hx x (by simp [hx'])) b hb
  have hbound : ∀ x ∈ s ++ t, |x.1| ≤ B ∧ 0 < x.2 := by
    intro x hx
    rcases List.mem_append.1 hx with hx | hx
    · exact hi.bound x hx
    · exact ho.bound x hx
  obtain ⟨h', e', h'eq, m, hsz, hne, hem, _⟩ := trim_spec num B hf
    { h with
      count := h.count + o.count
      min := if o.min < h.min then o.min else h.min
      max := if h.max < o.max then o.max else h.max
      bins := l } hi.simple hi.one sl hpos (hrange (-B) B (range_B hbound))
  have hS := sums_perm p
  have hA := sums_append s t
  have hA' : asSamples (h.bins ++ o.bins) = asSamples h.bins ++ asSamples o.bins := by
    simp [asSamples]
  have hB := sums_append (asSamples h.bins) (asSamples o.bins)
  simp only at m hsz hne hem
  have c1 : h'.weightedDiff = h.weightedDiff := by rw [h'eq]
  have c2 : h'.binCount = h.binCount := by rw [h'eq]
  have c3 : h'.count = h.count + o.count := by rw [h'eq]
  have c4 : h'.min = if o.min < h.min then o.min else h.min := by rw [h'eq]
  have c5 : h'.max = if h.max < o.max then o.max else h.max := by rw [h'eq]
  refine ⟨h', ?_, ⟨?_, ?_, ?_, m.sorted, m.pos, hbound, ?_, ?_, ?_, ?_, ?_, ?_, ?_, ?_, ?_⟩, c2⟩
  · unfold merge
    rw [e]
    exact e'
  · rw [c1]; exact hi.simple
  · rw [c2]; exact hi.one
  · rw [c2]; exact hsz
  · intro lo hi' hx
    exact m.range lo hi' (hrange lo hi' hx)
  · rw [m.weight, hS.1, hA.1, hA', hB.1, hi.weight, ho.weight]
  · rw [m.sum, hS.2.1, hA.2.1, hA', hB.2.1, hi.sum, ho.sum]
  · refine le_trans m.squares ?_
    rw [hS.2.2, hA.2.2, hA', hB.2.2]
    exact add_le_add hi.squares ho.squares
  · rw [c3, hi.count, ho.count]; simp
  · intro h0
    apply hne
    rintro rfl
    have h1 := p.symm.eq_nil
    rw [List.append_eq_nil_iff] at h1
    apply h0
    rw [List.append_eq_nil_iff]
    constructor
    · by_contra hs; exact hi.nonempty hs h1.1
    · by_contra ht; exact ho.nonempty ht h1.2
  · intro h0
    rw [List.append_eq_nil_iff] at h0
    apply hem
    rw [hi.empty h0.1, ho.empty h0.2] at p
    exact p.eq_nil
  · rw [c4]
    obtain ⟨q1, q2, q3⟩ := hi.min
    obtain ⟨r1, r2, r3⟩ := ho.min
    split
    · next hlt =>
      refine ⟨?_, r2, ?_⟩
      · rcases r1 with h | ⟨x, hx, h⟩
        · exact Or.inl h
        · exact Or.inr ⟨x, by simp [hx], h⟩
      · intro x hx
        rcases List.mem_append.1 hx with hx | hx
        · exact le_trans hlt.le (q3 x hx)
        · exact r3 x hx
    · next hlt =>
      refine ⟨?_, q2, ?_⟩
      · rcases q1 with h | ⟨x, hx, h⟩
        · exact Or.inl h
        · exact Or.inr ⟨x, by simp [hx], h⟩
      · intro x hx
        rcases List.mem_append.1 hx with hx | hx
        · exact q3 x hx
        · exact le_trans (not_lt.1 hlt) (r3 x hx)
  · rw [c5]
    obtain ⟨q1, q2, q3⟩ := hi.max
    obtain ⟨r1, r2, r3⟩ := ho.max
    split
    · next hlt =>
      refine ⟨?_, r2, ?_⟩
      · rcases r1 with h | ⟨x, hx, h⟩
        · exact Or.inl h
        · exact Or.inr ⟨x, by simp [hx], h⟩
      · intro x hx
        rcases List.mem_append.1 hx with hx | hx
        · exact le_trans (q3 x hx) hlt.le
        · exact r3 x hx
    · next hlt =>
      refine ⟨?_, q2, ?_⟩
      · rcases q1 with h | ⟨x, hx, h⟩
        · exact Or.inl h
        · exact Or.inr ⟨x, by simp [hx], h⟩
      · intro x hx
        rcases List.mem_append.1 hx with hx | hx
        · exact q3 x hx
        · exact le_trans (r3 x hx) (not_lt.1 hlt)

theorem inv_resize (num : Numeric K) (B : K) (hf : Fits num B) (h : Hist K) (s : List (K × K))
    (hi : Inv num B h s) (n : Nat) (hn : 1 ≤ n) :
    ∃ h', resize num h n = .ok h' ∧ Inv num B h' s ∧ h'.binCount = n := by
  obtain ⟨h', e', h'eq, m, hsz, hne, hem, _⟩ := trim_spec num B hf { h with binCount := n }
    hi.simple hn hi.sorted hi.pos (hi.range (-B) B (range_B hi.bound))
  simp only at m hsz hne hem
  have c1 : h'.weightedDiff = h.weightedDiff := by rw [h'eq]
  have c2 : h'.binCount = n := by rw [h'eq]
  have c3 : h'.count = h.count := by rw [h'eq]
  have c4 : h'.min = h.min := by rw [h'eq]
  have c5 : h'.max = h.max := by rw [h'eq]
  refine ⟨h', e', ⟨?_, ?_, ?_, m.sorted, m.pos, hi.bound, ?_, ?_, ?_, ?_, ?_, ?_, ?_, ?_, ?_⟩, c2⟩
  · rw [c1]; exact hi.simple
  · rw [c2]; exact hn
  · rw [c2]; exact hsz
  · intro lo hi' hx
    exact m.range lo hi' (hi.range lo hi' hx)
  · rw [m.weight, hi.weight]
  · rw [m.sum, hi.sum]
  · exact le_trans m.squares hi.squares
  · rw [c3, hi.count]
  · exact fun h0 => hne (hi.nonempty h0)
  · exact fun h0 => hem (hi.empty h0)
  · rw [c4]; exact hi.min
  · rw [c5]; exact hi.max

/-- the invariant holds of every reachable histogram -/
theorem inv_reach (num : Numeric K) (B : K) (hf : Fits num B) (h : Hist K) (s : List (K × K))
    (hr : Reach num B h s) : Inv num B h s := by
  induction hr with
  | new n hn => exact inv_make num B n hn
  | push v w _ hv hw e ih =>
    obtain ⟨h', e', i, _⟩ := inv_push num B hf _ _ ih v w hv hw
    rw [e'] at e
    cases e
    exact i
  | merge _ _ e ih1 ih2 =>
    obtain ⟨h', e', i, _⟩ := inv_merge num B hf _ _ _ _ ih1 ih2
    rw [e'] at e
    cases e
    exact i
  | resize n _ hn e ih =>
    obtain ⟨h', e', i, _⟩ := inv_resize num B hf _ _ ih n hn
    rw [e'] at e
    cases e
    exact i
  | clear _ ih =>
    unfold Streaming.clear
    rw [ih.simple]
    exact inv_make num B _ ih.one

/-! ### sums and moments -/

omit [LinearOrder K] [IsStrictOrderedRing K] in
theorem foldl_weight (l : List (Bin K)) (a : K) :
    l.foldl (fun a b => a + b.weight) a = a + totalWeight (asSamples l) := by
  induction l generalizing a with
  | nil => simp [totalWeight, asSamples]
  | cons b l ih =>
    rw [List.foldl_cons, ih]
    simp only [totalWeight, asSamples, List.map_cons, List.sum_cons]
    ring

omit [LinearOrder K] [IsStrictOrderedRing K] in
theorem foldl_moment (l : List (Bin K)) (c : K) (n : Nat) (a : K × K) :
    l.foldl (fun a b => (a.1 + b.weight * (b.value - c) ^ n, a.2 + b.weight)) a =
      (a.1 + centralSum n c (asSamples l), a.2 + totalWeight (asSamples l)) := by
  induction l generalizing a with
  | nil => simp [totalWeight, asSamples, centralSum]
  | cons b l ih =>
    rw [List.foldl_cons, ih]
    simp only [totalWeight, centralSum, asSamples, List.map_cons, List.sum_cons]
    ext <;> simp only <;> ring

omit [LinearOrder K] [IsStrictOrderedRing K] in
theorem sumOfWeights_eq (h : Hist K) : sumOfWeights h = totalWeight (asSamples h.bins) := by
  unfold sumOfWeights
  rw [foldl_weight, zero_add]

omit [IsStrictOrderedRing K] in
theorem moment_eq (h : Hist K) (c : K) (n : Nat) :
    moment h c n = if totalWeight (asSamples h.bins) = 0 then none
      else some (centralSum n c (asSamples h.bins) / totalWeight (asSamples h.bins)) := by
  unfold moment
  rw [foldl_moment]
  simp only [zero_add]

omit [LinearOrder K] [IsStrictOrderedRing K] in
theorem centralSum_one (s : List (K × K)) : centralSum 1 0 s = weightedSum s := by
  simp [centralSum, weightedSum]

omit [LinearOrder K] [IsStrictOrderedRing K] in
theorem centralSum_two (c : K) (s : List (K × K)) :
    centralSum 2 c s = weightedSquares s - 2 * c * weightedSum s + c ^ 2 * totalWeight s := by
  induction s with
  | nil => simp [centralSum, weightedSquares, weightedSum, totalWeight]
  | cons x s ih =>
    simp only [centralSum, weightedSquares, weightedSum, totalWeight, List.map_cons,
      List.sum_cons] at ih ⊢
    rw [ih]
    ring

theorem totalWeight_pos {s : List (K × K)} (hne : s ≠ []) (hp : ∀ x ∈ s, 0 < x.2) :
    0 < totalWeight s := by
  unfold totalWeight
  apply List.sum_pos
  · intro w hw
    obtain ⟨x, hx, rfl⟩ := List.mem_map.1 hw
    exact hp x hx
  · simpa using hne

/-! ### quantile -/

/-- weight between the middle of the first bin and the middle of the last one -/
def span : List (Bin K) → K
  | a :: b :: l => (a.weight + b.weight) * (1 / 2) + span (b :: l)
  | _ => 0

omit [LinearOrder K] in
theorem span_eq [CharZero K] : ∀ (front : Bin K) (tl : List (Bin K)),
    span (front :: tl) = totalWeight (asSamples (front :: tl)) - front.weight * (1 / 2) -
      ((front :: tl).getLast (List.cons_ne_nil _ _)).weight * (1 / 2)
  | front, [] => by
    simp only [span, totalWeight, asSamples, List.map_cons, List.map_nil, List.sum_cons,
      List.sum_nil, List.getLast_singleton]
    ring
  | front, b :: l => by
    rw [span, span_eq b l, List.getLast_cons (List.cons_ne_nil _ _)]
    simp only [totalWeight, asSamples, List.map_cons, List.sum_cons]
    ring

/-- The value found is between the first and the last bin, and grows with the
position. -/
theorem quantileLoop_spec : ∀ (l : List (Bin K)) (front : Bin K) (mb : K),
    SortedBins (front :: l) → (∀ b ∈ front :: l, 0 < b.weight) → 0 ≤ mb →
    mb < span (front :: l) →
    ∃ x, quantileLoop mb (front :: l) = .ok x ∧ front.value ≤ x ∧
      x ≤ ((front :: l).getLast (List.cons_ne_nil _ _)).value ∧
      ∀ mb' x', mb ≤ mb' → quantileLoop mb' (front :: l) = .ok x' → x ≤ x'
  | [], front, mb, _, _, h0, h1 => by
    simp only [span] at h1
    linarith
  | b :: l, front, mb, hs, hp, h0, h1 => by
    have hs' : SortedBins (b :: l) := (List.pairwise_cons.1 hs).2
    have hfb : front.value ≤ b.value := (List.pairwise_cons.1 hs).1 b (by simp)
    have hbl := le_getLast hs' b (by simp)
    have hw1 := hp front (by simp)
    have hw2 := hp b (by simp)
    have hp' : ∀ c ∈ b :: l, 0 < c.weight := fun c hc => hp c (by simp [List.mem_cons.1 hc])
    have hstep : 0 < (front.weight + b.weight) * (1 / 2) := by linarith
    rw [span] at h1
    rw [quantileLoop, List.getLast_cons (List.cons_ne_nil _ _)]
    split
    · next h =>
      obtain ⟨x, e, q1, q2, q3⟩ := quantileLoop_spec l b _ hs' hp' h.le (by linarith)
      refine ⟨x, e, le_trans hfb q1, q2, ?_⟩
      intro mb' x' hmb e'
      rw [quantileLoop, if_pos (by linarith)] at e'
      exact q3 _ _ (by linarith) e'
    · next h =>
      have hle : mb ≤ (front.weight + b.weight) * (1 / 2) := by linarith [not_lt.1 h]
      have r0 : 0 ≤ mb / ((front.weight + b.weight) * (1 / 2)) := div_nonneg h0 hstep.le
      have r1 : mb / ((front.weight + b.weight) * (1 / 2)) ≤ 1 := (div_le_one hstep).2 hle
      have hx : front.value + mb / ((front.weight + b.weight) * (1 / 2)) * (b.value - front.value)
          ≤ b.value := by nlinarith
      refine ⟨_, rfl, by nlinarith, le_trans hx hbl, ?_⟩
      intro mb' x' hmb e'
      rw [quantileLoop] at e'
      split at e'
      · next h' =>
        -- beyond the second bin
        refine le_trans hx ?_
        have key : ∀ (l : List (Bin K)) (front : Bin K) (mb x : K), SortedBins (front :: l) →
            (∀ b ∈ front :: l, 0 < b.weight) → 0 ≤ mb →
            quantileLoop mb (front :: l) = .ok x → front.value ≤ x := by
          intro l
          induction l with
          | nil => intro front mb x _ _ _ e; simp [quantileLoop] at e
          | cons c l ih =>
            intro front mb x hs hp h0 e
            have hfc : front.value ≤ c.value := (List.pairwise_cons.1 hs).1 c (by simp)
            have hw1 := hp front (by simp)
            have hw2 := hp c (by simp)
            have hstep : 0 < (front.weight + c.weight) * (1 / 2) := by linarith
            rw [quantileLoop] at e
            split at e
            · next h =>
              exact le_trans hfc (ih c _ x (List.pairwise_cons.1 hs).2
                (fun d hd => hp d (by simp [List.mem_cons.1 hd])) h.le e)
            · cases e
              have : 0 ≤ mb / ((front.weight + c.weight) * (1 / 2)) := div_nonneg h0 hstep.le
              nlinarith
        exact key l b _ x' hs' hp' h'.le e'
      · cases e'
        have : mb / ((front.weight + b.weight) * (1 / 2)) ≤
            mb' / ((front.weight + b.weight) * (1 / 2)) :=
          (div_le_div_iff_of_pos_right hstep).2 hmb
        nlinarith

/-- The quantile of bins in order with positive weights, when `min_` and `max_`
frame the bins. -/
theorem quantile_spec (h : Hist K) (hne : h.bins ≠ []) (hs : SortedBins h.bins)
    (hp : ∀ b ∈ h.bins, 0 < b.weight) (hmin : ∀ b ∈ h.bins, h.min ≤ b.value)
    (hmax : ∀ b ∈ h.bins, b.value ≤ h.max) (q : K) (h0 : 0 ≤ q) (h1 : q ≤ 1) :
    ∃ x, quantile h q = .ok (some x) ∧ h.min ≤ x ∧ x ≤ h.max ∧
      ∀ q' x', q ≤ q' → q' ≤ 1 → quantile h q' = .ok (some x') → x ≤ x' := by
  have hW : sumOfWeights h = totalWeight (asSamples h.bins) := sumOfWeights_eq h
  unfold quantile
  cases hb : h.bins with
  | nil => exact absurd hb hne
  | cons front tl =>
    rw [hb] at hs hp hmin hmax hW
    simp only
    have hwf := hp front (by simp)
    generalize hback : (front :: tl).getLast (List.cons_ne_nil _ _) = back
    have hbm : back ∈ front :: tl := by rw [← hback]; exact List.getLast_mem _
    have hwb := hp back hbm
    have hspan := span_eq front tl
    rw [hback, ← hW] at hspan
    generalize sumOfWeights h = W at *
    have hWpos : 0 < W := by
      rw [hW]
      apply totalWeight_pos (by simp [asSamples])
      intro x hx
      obtain ⟨b, hb', rfl⟩ := List.mem_map.1 hx
      exact hp b hb'
    have fmin := hmin front (by simp)
    have fmax := hmax front (by simp)
    have bmin := hmin back hbm
    have bmax := hmax back hbm
    have hfb : front.value ≤ back.value := by
      rw [← hback]; exact le_getLast hs front (by simp)
    have hf2 : 0 < front.weight * (1 / 2) := by linarith
    have hb2 : 0 < back.weight * (1 / 2) := by linarith
    -- lower bound of any value beyond the first half bin
    have hlow : ∀ q' x', q' ≤ 1 → ¬ W * q' ≤ front.weight * (1 / 2) →
        (if W - back.weight * (1 / 2) ≤ W * q' then
          (.ok (some (back.value + (W * q' - (W - back.weight * (1 / 2))) /
            (back.weight * (1 / 2)) * (h.max - back.value))) : Out (Option K))
        else do
          let r ← quantileLoop (W * q' - front.weight * (1 / 2)) (front :: tl)
          return some r) = .ok (some x') → front.value ≤ x' := by
      intro q' x' hq' hn e
      split at e
      · next h2 =>
        cases e
        have : 0 ≤ (W * q' - (W - back.weight * (1 / 2))) / (back.weight * (1 / 2)) :=
          div_nonneg (by linarith) hb2.le
        nlinarith
      · next h2 =>
        obtain ⟨x, e', q1, _⟩ := quantileLoop_spec tl front (W * q' - front.weight * (1 / 2)) hs hp
          (by linarith) (by rw [hspan]; linarith)
        rw [e'] at e
        cases e
        exact q1
    rw [if_neg (by rintro (h | h) <;> linarith)]
    by_cases hA : W * q ≤ front.weight * (1 / 2)
    · rw [if_pos hA]
      have r0 : 0 ≤ W * q / (front.weight * (1 / 2)) := div_nonneg (by positivity) hf2.le
      have r1 : W * q / (front.weight * (1 / 2)) ≤ 1 := (div_le_one hf2).2 hA
      have hx : h.min + W * q / (front.weight * (1 / 2)) * (front.value - h.min) ≤ front.value := by
        nlinarith
      refine ⟨_, rfl, by nlinarith, le_trans hx fmax, ?_⟩
      intro q' x' hqq hq1 e
      rw [if_neg (by rintro (h | h) <;> linarith)] at e
      by_cases hA' : W * q' ≤ front.weight * (1 / 2)
      · rw [if_pos hA'] at e
        cases e
        have : W * q / (front.weight * (1 / 2)) ≤ W * q' / (front.weight * (1 / 2)) :=
          (div_le_div_iff_of_pos_right hf2).2 (mul_le_mul_of_nonneg_left hqq hWpos.le)
        nlinarith
      · rw [if_neg hA'] at e
        exact le_trans hx (hlow q' x' hq1 hA' e)
    · rw [if_neg hA]
      by_cases hC : W - back.weight * (1 / 2) ≤ W * q
      · rw [if_pos hC]
        have hWq : W * q ≤ W := by nlinarith
        have r0 : 0 ≤ (W * q - (W - back.weight * (1 / 2))) / (back.weight * (1 / 2)) :=
          div_nonneg (by linarith) hb2.le
        have r1 : (W * q - (W - back.weight * (1 / 2))) / (back.weight * (1 / 2)) ≤ 1 :=
          (div_le_one hb2).2 (by linarith)
        refine ⟨_, rfl, by nlinarith, by nlinarith, ?_⟩
        intro q' x' hqq hq1 e
        have hWqq : W * q ≤ W * q' := mul_le_mul_of_nonneg_left hqq hWpos.le
        rw [if_neg (by rintro (h | h) <;> linarith), if_neg (by linarith), if_pos (by linarith)] at e
        cases e
        have : (W * q - (W - back.weight * (1 / 2))) / (back.weight * (1 / 2)) ≤
            (W * q' - (W - back.weight * (1 / 2))) / (back.weight * (1 / 2)) :=
          (div_le_div_iff_of_pos_right hb2).2 (by linarith)
        nlinarith
      · rw [if_neg hC]
        obtain ⟨x, e', q1, q2, q3⟩ := quantileLoop_spec tl front (W * q - front.weight * (1 / 2))
          hs hp (by linarith) (by rw [hspan]; linarith)
        rw [hback] at q2
        refine ⟨x, by rw [e']; rfl, le_trans fmin q1, le_trans q2 bmax, ?_⟩
        intro q' x' hqq hq1 e
        have hWqq : W * q ≤ W * q' := mul_le_mul_of_nonneg_left hqq hWpos.le
        rw [if_neg (by rintro (h | h) <;> linarith), if_neg (by linarith)] at e
        by_cases hC' : W - back.weight * (1 / 2) ≤ W * q'
        · rw [if_pos hC'] at e
          cases e
          have : 0 ≤ (W * q' - (W - back.weight * (1 / 2))) / (back.weight * (1 / 2)) :=
            div_nonneg (by linarith) hb2.le
          nlinarith
        · rw [if_neg hC'] at e
          cases e2 : quantileLoop (W * q' - front.weight * (1 / 2)) (front :: tl) with
          | error err => rw [e2] at e; cases e
          | ok r =>
            rw [e2] at e
            cases e
            exact q3 _ _ (by linarith) e2

end Pyinterp.Streaming
