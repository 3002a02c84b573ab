import Mathlib.Algebra.Order.BigOperators.Group.List
import Mathlib.Tactic.Linarith
import Mathlib.Tactic.FieldSimp
import Mathlib.Tactic.Ring
import Mathlib.Tactic.LinearCombination
import Verif.Model.Statistics
import Verif.Spec.Samples

namespace Pyinterp.Stats

open Spec

set_option linter.unusedSectionVars false

variable {K : Type} [Field K] [LinearOrder K] [IsStrictOrderedRing K]

/-- Σ w vᵏ -/
def raw (k : Nat) (s : List (K × K)) : K := (s.map fun x => x.2 * x.1 ^ k).sum

theorem raw_append (k : Nat) (s t : List (K × K)) : raw k (s ++ t) = raw k s + raw k t := by
  simp [raw]

theorem raw_singleton (k : Nat) (v w : K) : raw k [(v, w)] = w * v ^ k := by
  simp [raw]

theorem raw_zero (s : List (K × K)) : raw 0 s = totalWeight s := by
  simp [raw, totalWeight]

theorem raw_one (s : List (K × K)) : raw 1 s = weightedSum s := by
  simp [raw, weightedSum]

theorem central2 (c : K) (s : List (K × K)) :
    centralSum 2 c s = raw 2 s - 2 * c * raw 1 s + c ^ 2 * raw 0 s := by
  induction s with
  | nil => simp [centralSum, raw]
  | cons x s ih =>
    simp only [centralSum, raw, List.map_cons, List.sum_cons] at ih ⊢
    rw [ih]; ring

theorem central3 (c : K) (s : List (K × K)) :
    centralSum 3 c s = raw 3 s - 3 * c * raw 2 s + 3 * c ^ 2 * raw 1 s - c ^ 3 * raw 0 s := by
  induction s with
  | nil => simp [centralSum, raw]
  | cons x s ih =>
    simp only [centralSum, raw, List.map_cons, List.sum_cons] at ih ⊢
    rw [ih]; ring

theorem central4 (c : K) (s : List (K × K)) :
    centralSum 4 c s =
      raw 4 s - 4 * c * raw 3 s + 6 * c ^ 2 * raw 2 s - 4 * c ^ 3 * raw 1 s + c ^ 4 * raw 0 s := by
  induction s with
  | nil => simp [centralSum, raw]
  | cons x s ih =>
    simp only [centralSum, raw, List.map_cons, List.sum_cons] at ih ⊢
    rw [ih]; ring

/-- The accumulator holds the moments of the samples (everything but the
extremes). -/
structure Moments (acc : Acc K) (s : List (K × K)) : Prop where
  count : acc.count = s.length
  weight : acc.sumOfWeights = raw 0 s
  sum : acc.sum = raw 1 s
  mean : raw 1 s = acc.mean * raw 0 s
  m2 : raw 2 s = acc.mom2 + acc.mean ^ 2 * raw 0 s
  m3 : raw 3 s = acc.mom3 + 3 * acc.mean * acc.mom2 + acc.mean ^ 3 * raw 0 s
  m4 : raw 4 s = acc.mom4 + 4 * acc.mean * acc.mom3 + 6 * acc.mean ^ 2 * acc.mom2 +
    acc.mean ^ 4 * raw 0 s

/-- The accumulator holds the extremes of weight times value. -/
structure Extremes (acc : Acc K) (s : List (K × K)) : Prop where
  min : (∃ x ∈ s, acc.min = x.2 * x.1) ∧ ∀ x ∈ s, acc.min ≤ x.2 * x.1
  max : (∃ x ∈ s, acc.max = x.2 * x.1) ∧ ∀ x ∈ s, x.2 * x.1 ≤ acc.max

theorem moments_empty : Moments (empty : Acc K) [] := by
  constructor <;> simp [empty, raw]

theorem moments_single (v w : K) : Moments (single v w) [(v, w)] := by
  constructor <;> simp [single, raw] <;> ring

theorem extremes_single (v w : K) : Extremes (single v w) [(v, w)] := by
  constructor <;> simp [single]

theorem moments_merge {a b : Acc K} {s t : List (K × K)} (ha : Moments a s) (hb : Moments b t)
    (hw : raw 0 s + raw 0 t ≠ 0) : ∃ c, merge a b = .ok c ∧ Moments c (s ++ t) := by
  unfold merge
  simp only
  rw [ha.weight, hb.weight, if_neg hw]
  refine ⟨_, rfl, ?_⟩
  have e1 := ha.mean
  have e2 := hb.mean
  have f2 := ha.m2
  have f3 := ha.m3
  have f4 := ha.m4
  have g2 := hb.m2
  have g3 := hb.m3
  have g4 := hb.m4
  generalize hA : raw 0 s = wa at *
  generalize hB : raw 0 t = wb at *
  constructor
  · simp only [ha.count, hb.count, List.length_append]
  · simp only [raw_append, hA, hB]
  · simp only [raw_append, ha.sum, hb.sum]
  · simp only [raw_append, hA, hB]
    rw [e1, e2]
    field_simp
    ring
  · simp only [raw_append, hA, hB]
    rw [f2, g2]
    field_simp
    ring
  · simp only [raw_append, hA, hB]
    rw [f3, g3]
    field_simp
    ring
  · simp only [raw_append, hA, hB]
    rw [f4, g4]
    field_simp
    ring

theorem extremes_merge {a b c : Acc K} {s t : List (K × K)} (ha : Extremes a s)
    (hb : Extremes b t) (e : merge a b = .ok c) : Extremes c (s ++ t) := by
  unfold merge at e
  simp only at e
  split at e
  · cases e
  · cases e
    obtain ⟨⟨x, hx, ex⟩, lx⟩ := ha.min
    obtain ⟨⟨y, hy, ey⟩, ly⟩ := hb.min
    obtain ⟨⟨x', hx', ex'⟩, lx'⟩ := ha.max
    obtain ⟨⟨y', hy', ey'⟩, ly'⟩ := hb.max
    constructor
    · simp only
      split
      · next h =>
        refine ⟨⟨y, by simp [hy], ey⟩, ?_⟩
        intro z hz
        rcases List.mem_append.1 hz with hz | hz
        · exact le_trans h.le (lx z hz)
        · exact ly z hz
      · next h =>
        refine ⟨⟨x, by simp [hx], ex⟩, ?_⟩
        intro z hz
        rcases List.mem_append.1 hz with hz | hz
        · exact lx z hz
        · exact le_trans (not_lt.1 h) (ly z hz)
    · simp only
      split
      · next h =>
        refine ⟨⟨y', by simp [hy'], ey'⟩, ?_⟩
        intro z hz
        rcases List.mem_append.1 hz with hz | hz
        · exact le_trans (lx' z hz) h.le
        · exact ly' z hz
      · next h =>
        refine ⟨⟨x', by simp [hx'], ex'⟩, ?_⟩
        intro z hz
        rcases List.mem_append.1 hz with hz | hz
        · exact lx' z hz
        · exact le_trans (ly' z hz) (not_lt.1 h)

/-- The unweighted update is the merge with one sample of weight 1. -/
theorem push_eq_merge (a : Acc K) (v : K) (h : a.sumOfWeights ≠ 0) (hw : a.sumOfWeights + 1 ≠ 0)
    (hmm : a.min ≤ a.max) : merge a (single v 1) = .ok (push a v) := by
  unfold merge push single
  simp only
  rw [if_neg hw, if_neg h]
  congr 1
  simp only [one_mul, mul_one, Acc.mk.injEq, true_and]
  refine ⟨?_, ?_, ?_, ?_, ?_⟩
  · field_simp
  · split
    · next h1 => rw [if_neg (not_lt.2 (le_trans hmm h1.le))]
    · rw [ite_self]
  · field_simp
    ring
  · field_simp
    ring
  · field_simp
    ring

theorem raw_zero_pos {s : List (K × K)} (hne : s ≠ []) (hp : ∀ x ∈ s, 0 < x.2) : 0 < raw 0 s := by
  unfold raw
  apply List.sum_pos
  · intro w hw
    obtain ⟨x, hx, rfl⟩ := List.mem_map.1 hw
    simpa using hp x hx
  · simpa using hne

/-- Two accumulators that hold the same samples are equal. -/
theorem unique {a b : Acc K} {s : List (K × K)} (hne : raw 0 s ≠ 0) (ha : Moments a s)
    (ha' : Extremes a s) (hb : Moments b s) (hb' : Extremes b s) : a = b := by
  have e1 : a.mean = b.mean := mul_right_cancel₀ hne (ha.mean.symm.trans hb.mean)
  have e2 : a.mom2 = b.mom2 := by
    have := ha.m2.symm.trans hb.m2
    rw [e1] at this
    linear_combination this
  have e3 : a.mom3 = b.mom3 := by
    have := ha.m3.symm.trans hb.m3
    rw [e1, e2] at this
    linear_combination this
  have e4 : a.mom4 = b.mom4 := by
    have := ha.m4.symm.trans hb.m4
    rw [e1, e2, e3] at this
    linear_combination this
  have e5 : a.min = b.min := by
    obtain ⟨⟨x, hx, ex⟩, lx⟩ := ha'.min
    obtain ⟨⟨y, hy, ey⟩, ly⟩ := hb'.min
    exact le_antisymm (by rw [ey]; exact lx y hy) (by rw [ex]; exact ly x hx)
  have e6 : a.max = b.max := by
    obtain ⟨⟨x, hx, ex⟩, lx⟩ := ha'.max
    obtain ⟨⟨y, hy, ey⟩, ly⟩ := hb'.max
    exact le_antisymm (by rw [ex]; exact ly x hx) (by rw [ey]; exact lx y hy)
  have e7 : a.count = b.count := ha.count.trans hb.count.symm
  have e8 : a.sumOfWeights = b.sumOfWeights := ha.weight.trans hb.weight.symm
  have e9 : a.sum = b.sum := ha.sum.trans hb.sum.symm
  cases a; cases b
  simp only at e1 e2 e3 e4 e5 e6 e7 e8 e9
  subst e1; subst e2; subst e3; subst e4; subst e5; subst e6; subst e7; subst e8; subst e9
  rfl

/-- weighted push -/
theorem pushW_spec {a : Acc K} {s : List (K × K)} (hp : ∀ x ∈ s, 0 < x.2) (ha : Moments a s)
    (ha' : s ≠ [] → Extremes a s) (v w : K) (hw : 0 < w) :
    ∃ c, pushW a v w = .ok c ∧ Moments c (s ++ [(v, w)]) ∧ Extremes c (s ++ [(v, w)]) := by
  unfold pushW
  by_cases hs : s = []
  · subst hs
    rw [if_pos (by rw [ha.weight]; rfl)]
    exact ⟨_, rfl, moments_single v w, extremes_single v w⟩
  · have h0 := raw_zero_pos hs hp
    rw [if_neg (by rw [ha.weight]; exact h0.ne')]
    obtain ⟨c, e, m⟩ := moments_merge ha (moments_single v w)
      (by rw [raw_singleton]; simp only [pow_zero, mul_one]; linarith)
    exact ⟨c, e, m, extremes_merge (ha' hs) (extremes_single v w) e⟩

theorem ofSamples_spec (s : List (K × K)) (hp : ∀ x ∈ s, 0 < x.2) :
    ∃ c, ofSamples s = .ok c ∧ Moments c s ∧ (s ≠ [] → Extremes c s) := by
  unfold ofSamples
  induction s using List.reverseRecOn with
  | nil => exact ⟨_, rfl, moments_empty, fun h => absurd rfl h⟩
  | append_singleton s x ih =>
    obtain ⟨a, e, ha, ha'⟩ := ih fun y hy => hp y (by simp [hy])
    obtain ⟨c, e', m, m'⟩ := pushW_spec (fun y hy => hp y (by simp [hy])) ha ha' x.1 x.2
      (hp x (by simp))
    refine ⟨c, ?_, m, fun _ => m'⟩
    rw [List.foldlM_append, e]
    simp only [bind, Except.bind, List.foldlM_cons, List.foldlM_nil, e']
    rfl

/-- unweighted push -/
theorem push_spec {a : Acc K} {s : List (K × K)} (hp : ∀ x ∈ s, 0 < x.2) (ha : Moments a s)
    (ha' : s ≠ [] → Extremes a s) (v : K) : pushW a v 1 = .ok (push a v) := by
  unfold pushW
  by_cases h : a.sumOfWeights = 0
  · rw [if_pos h]; unfold push; simp only; rw [if_pos h]
  · rw [if_neg h]
    have hs : s ≠ [] := by
      rintro rfl
      apply h
      rw [ha.weight]; rfl
    have h0 := raw_zero_pos hs hp
    apply push_eq_merge a v h
    · rw [ha.weight]; linarith
    · obtain ⟨⟨x, hx, ex⟩, lx⟩ := (ha' hs).min
      rw [ex]
      exact (ha' hs).max.2 x hx

theorem ofValues_eq (s : List K) : ofSamples (s.map fun v => (v, 1)) = .ok (ofValues s) := by
  induction s using List.reverseRecOn with
  | nil => rfl
  | append_singleton s v ih =>
    have hp : ∀ x ∈ s.map (fun v => (v, (1 : K))), 0 < x.2 := by
      intro x hx
      obtain ⟨y, _, rfl⟩ := List.mem_map.1 hx
      exact one_pos
    obtain ⟨a, e, ha, ha'⟩ := ofSamples_spec _ hp
    rw [ih] at e
    cases e
    have := push_spec hp ha ha' v
    unfold ofSamples ofValues at *
    rw [List.map_append, List.foldlM_append, ih, List.foldl_append]
    simp only [bind, Except.bind, List.map_cons, List.map_nil, List.foldlM_cons, List.foldlM_nil,
      List.foldl_cons, List.foldl_nil, this]
    rfl

end Pyinterp.Stats
