import Mathlib.Data.Rat.Floor
import Verif.Model.Delayed
import Verif.Props.C30_StreamingHistogram
import Verif.Props.C36_Reduction

/-
C107: `DescriptiveStatistics` and `StreamingHistogram` of dask arrays.
-/
namespace Pyinterp.Delayed

open Spec

set_option linter.unusedSectionVars false

/-- The defined elements of an array whose kept coordinates are `k`, in C order. -/
def cellSamples {V : Type} (shape : List Nat) (axes : List Int) (data : List (Option V))
    (k : List Nat) : List V :=
  ((allIndexes shape).filter fun idx => keepAxes axes 0 idx = k).filterMap
    fun idx => (data[rowMajor shape idx]?).join

theorem allIndexes_add (n m : Nat) (rest : List Nat) :
    allIndexes ((n + m) :: rest) = allIndexes (n :: rest) ++
      (List.range m).flatMap fun i => (allIndexes rest).map ((n + i) :: ·) := by
  simp only [allIndexes, List.range_add, List.flatMap_append, List.flatMap_map]

/-- Joining two arrays along the first dimension, when it is reduced, joins the samples of
the cells. -/
theorem cellSamples_append {V : Type} {n m : Nat} {rest : List Nat} {axes : List Int}
    (h0 : (0 : Int) ∈ axes) {d e : List (Option V)} (hd : d.length = n * rest.prod)
    (k : List Nat) :
    cellSamples ((n + m) :: rest) axes (d ++ e) k =
      cellSamples (n :: rest) axes d k ++ cellSamples (m :: rest) axes e k := by
  have h0' : ((0 : Nat) : Int) ∈ axes := by simpa using h0
  unfold cellSamples
  rw [allIndexes_add, List.filter_append, List.filterMap_append]
  congr 1
  · apply List.filterMap_congr
    intro idx hidx
    have v := Reduce.mem_allIndexes.1 (List.mem_of_mem_filter hidx)
    have hlt := Reduce.rowMajor_lt v
    cases idx with
    | nil => simp [ValidIndex] at v
    | cons i idx =>
      simp only [rowMajor, List.prod_cons] at hlt ⊢
      rw [List.getElem?_append_left (by rw [hd]; exact hlt)]
  · simp only [allIndexes, List.filter_flatMap, List.filterMap_flatMap]
    congr 1
    funext i
    rw [List.filter_map, List.filter_map, List.filterMap_map, List.filterMap_map]
    have e1 : (fun idx : List Nat => decide (keepAxes axes 0 idx = k)) ∘ (fun x => (n + i) :: x) =
        (fun idx : List Nat => decide (keepAxes axes 0 idx = k)) ∘ (fun x => i :: x) := by
      funext idx
      simp only [Function.comp_apply, keepAxes, h0', if_true]
    rw [e1]
    apply List.filterMap_congr
    intro idx _
    simp only [Function.comp_apply, rowMajor]
    rw [show (n + i) * rest.prod + rowMajor rest idx = d.length + (i * rest.prod + rowMajor rest idx) by
      rw [hd]; ring, List.getElem?_append_right (by omega), Nat.add_sub_cancel_left]

theorem foldl_bind {σ V : Type} (step : σ → V → Out σ) (l : List V) (a : Out σ) :
    l.foldl (fun a x => a >>= fun a => step a x) a = a >>= fun a => l.foldlM step a := by
  induction l generalizing a with
  | nil => cases a <;> rfl
  | cons x l ih =>
    rw [List.foldl_cons, ih]
    cases a <;> rfl

/-- The constructor with axes (C36). -/
theorem construct_axes {σ V : Type} (init : σ) (step : σ → V → Out σ) (shape : List Nat)
    (axes : List Int) (data : List (Option V)) (hne : axes ≠ [])
    (hax : ∀ a ∈ axes, 0 ≤ a ∧ a < shape.length) (hlen : data.length = shape.prod) :
    ∃ cells, construct init step shape (cStrides shape) (some axes) data =
        .ok (keepAxes axes 0 shape, cells) ∧ cells.length = (keepAxes axes 0 shape).prod ∧
      ∀ k, ValidIndex (keepAxes axes 0 shape) k →
        cells[rowMajor (keepAxes axes 0 shape) k]? =
          some ((cellSamples shape axes data k).foldlM step init) := by
  obtain ⟨cells, h1, h2, h3⟩ := Reduce.C36_reduce_partial (.ok init : Out σ)
    (fun a x => a >>= fun a => step a x) shape axes data hne hax hlen
  refine ⟨cells, h1, h2, fun k hk => ?_⟩
  rw [h3 k hk, foldl_bind]
  rfl

/-- The number of rows of all the blocks. -/
def rows {V : Type} (blocks : List (Nat × List (Option V))) : Nat := (blocks.map (·.1)).sum

/-- The elements of all the blocks. -/
def elements {V : Type} (blocks : List (Nat × List (Option V))) : List (Option V) :=
  blocks.flatMap (·.2)

theorem elements_length {V : Type} {p : Nat} {blocks : List (Nat × List (Option V))}
    (h : ∀ b ∈ blocks, b.2.length = b.1 * p) : (elements blocks).length = rows blocks * p := by
  induction blocks with
  | nil => simp [elements, rows]
  | cons b l ih =>
    have h1 := h b (by simp)
    have h2 := ih fun x hx => h x (by simp [hx])
    simp only [elements, rows, List.flatMap_cons, List.length_append, List.map_cons,
      List.sum_cons] at h2 ⊢
    rw [h1, h2]; ring

/-- The graph on arrays reduced along the first dimension: if the accumulators of the blocks
have the property `P` for their samples and merging keeps it, so do the cells of the
result for the samples of the whole array. -/
theorem delayed_axis0 {σ V : Type} (init : σ) (step : σ → V → Out σ) (merge : σ → σ → Out σ)
    (P : List V → σ → Prop)
    (hadd : ∀ s t a b, P s a → P t b → ∃ c, merge a b = .ok c ∧ P (s ++ t) c)
    (rest : List Nat) (axes : List Int) (h0 : (0 : Int) ∈ axes)
    (hax : ∀ a ∈ axes, 0 ≤ a ∧ a < (rest.length : Int) + 1)
    (graph : Sum (Nat × List (Option V)))
    (hlen : ∀ b ∈ graph.blocks, b.2.length = b.1 * rest.prod)
    (hblock : ∀ b ∈ graph.blocks, ∀ k, ValidIndex (keepAxes axes 1 rest) k →
      ∃ a, (cellSamples (b.1 :: rest) axes b.2 k).foldlM step init = .ok a ∧
        P (cellSamples (b.1 :: rest) axes b.2 k) a) :
    ∃ cells, delayedStatistics init step merge cStrides rest (some axes) graph =
        .ok (keepAxes axes 1 rest, cells) ∧ cells.length = (keepAxes axes 1 rest).prod ∧
      ∀ k, ValidIndex (keepAxes axes 1 rest) k →
        ∃ a, cells[rowMajor (keepAxes axes 1 rest) k]? = some (.ok a) ∧
          P (cellSamples (rows graph.blocks :: rest) axes (elements graph.blocks) k) a := by
  have h0' : ((0 : Nat) : Int) ∈ axes := by simpa using h0
  induction graph with
  | block b =>
    obtain ⟨n, d⟩ := b
    have hl := hlen (n, d) (by simp [Sum.blocks])
    have hb := hblock (n, d) (by simp [Sum.blocks])
    obtain ⟨cells, h1, h2, h3⟩ := construct_axes init step (n :: rest) axes d
      (List.ne_nil_of_mem h0) (by simpa using hax) (by simpa using hl)
    simp only [keepAxes, h0', if_true] at h1 h2 h3
    refine ⟨cells, h1, h2, fun k hk => ?_⟩
    obtain ⟨a, e, p⟩ := hb k hk
    refine ⟨a, ?_, by simpa [Sum.blocks, rows, elements] using p⟩
    rw [h3 k hk]
    exact congrArg some e
  | add l r ihl ihr =>
    obtain ⟨c1, e1, n1, p1⟩ := ihl (fun b hb => hlen b (by simp [Sum.blocks, hb]))
      (fun b hb => hblock b (by simp [Sum.blocks, hb]))
    obtain ⟨c2, e2, n2, p2⟩ := ihr (fun b hb => hlen b (by simp [Sum.blocks, hb]))
      (fun b hb => hblock b (by simp [Sum.blocks, hb]))
    refine ⟨List.zipWith (fun a b => a >>= fun a => b >>= fun b => merge a b) c1 c2, ?_, ?_, ?_⟩
    · unfold delayedStatistics at e1 e2
      simp only [delayedStatistics, evalSum, e1, e2, addCells, bind, Except.bind, ne_eq,
        not_true_eq_false, if_false]
    · simp [n1, n2]
    · intro k hk
      obtain ⟨a, ea, pa⟩ := p1 k hk
      obtain ⟨b, eb, pb⟩ := p2 k hk
      obtain ⟨c, ec, pc⟩ := hadd _ _ _ _ pa pb
      refine ⟨c, ?_, ?_⟩
      · rw [List.getElem?_zipWith, ea, eb]
        simp only [bind, Except.bind, ec]
      · rw [← cellSamples_append h0 (elements_length fun b hb => hlen b (by simp [Sum.blocks, hb]))] at pc
        have er : rows (Sum.add l r).blocks = rows l.blocks + rows r.blocks := by
          simp [rows, Sum.blocks]
        have ee : elements (Sum.add l r).blocks = elements l.blocks ++ elements r.blocks := by
          simp [elements, Sum.blocks]
        rw [er, ee]
        exact pc

section
variable {K : Type} [Field K] [LinearOrder K] [IsStrictOrderedRing K]

/-- Weights are positive. -/
def Positive (data : List (Option (K × K))) : Prop := ∀ x, some x ∈ data → 0 < x.2

theorem positive_cell {shape : List Nat} {axes : List Int} {data : List (Option (K × K))}
    (h : Positive data) (k : List Nat) : ∀ x ∈ cellSamples shape axes data k, 0 < x.2 := by
  intro x hx
  obtain ⟨idx, _, e⟩ := List.mem_filterMap.1 hx
  cases ho : data[rowMajor shape idx]? with
  | none => simp [ho] at e
  | some o =>
    simp only [ho, Option.join_some] at e
    exact h x (e ▸ List.mem_of_getElem? ho)

theorem ofSamples_property :
    ∀ (s t : List (K × K)) (a b : Stats.Acc K),
      ((s ≠ [] ∧ ∀ x ∈ s, 0 < x.2) ∧ Stats.ofSamples s = .ok a) →
      ((t ≠ [] ∧ ∀ x ∈ t, 0 < x.2) ∧ Stats.ofSamples t = .ok b) →
      ∃ c, Stats.merge a b = .ok c ∧
        ((s ++ t ≠ [] ∧ ∀ x ∈ s ++ t, 0 < x.2) ∧ Stats.ofSamples (s ++ t) = .ok c) := by
  rintro s t a b ⟨⟨s1, s2⟩, ha⟩ ⟨⟨t1, t2⟩, hb⟩
  obtain ⟨a', b', c, e1, e2, e3, e4⟩ := Stats.C35_merge s t s2 t2 s1 t1
  rw [ha] at e1
  rw [hb] at e2
  rw [← Except.ok.inj e1, ← Except.ok.inj e2] at e3
  refine ⟨c, e3, ⟨by simp [s1], fun x hx => ?_⟩, e4⟩
  rcases List.mem_append.1 hx with h | h
  exacts [s2 x h, t2 x h]

/-- The accumulators of `DescriptiveStatistics` (descriptive_statistics.hpp:33, 192-233). -/
def statsStep (a : Stats.Acc K) (x : K × K) : Out (Stats.Acc K) := Stats.pushW a x.1 x.2

/-- C107, descriptive statistics along axes among which the first one: when the weights are
positive and each cell of each block has at least one defined element, the statistics of a
dask array are those of the same array in memory, whatever the blocks and the tree of
additions. -/
theorem C107_axis0_partial (rest : List Nat) (axes : List Int) (h0 : (0 : Int) ∈ axes)
    (hax : ∀ a ∈ axes, 0 ≤ a ∧ a < (rest.length : Int) + 1)
    (graph : Sum (Nat × List (Option (K × K))))
    (hlen : ∀ b ∈ graph.blocks, b.2.length = b.1 * rest.prod)
    (hpos : ∀ b ∈ graph.blocks, Positive b.2)
    (hdef : ∀ b ∈ graph.blocks, ∀ k, ValidIndex (keepAxes axes 1 rest) k →
      cellSamples (b.1 :: rest) axes b.2 k ≠ []) :
    ∃ r, delayedStatistics Stats.empty statsStep Stats.merge cStrides rest (some axes) graph = .ok r ∧
      construct Stats.empty statsStep (rows graph.blocks :: rest)
        (cStrides (rows graph.blocks :: rest)) (some axes) (elements graph.blocks) = .ok r := by
  have h0' : ((0 : Nat) : Int) ∈ axes := by simpa using h0
  obtain ⟨cells, e, n, p⟩ := delayed_axis0 Stats.empty statsStep Stats.merge
    (fun s a => (s ≠ [] ∧ ∀ x ∈ s, 0 < x.2) ∧ Stats.ofSamples s = .ok a) ofSamples_property rest axes
    h0 hax graph hlen (by
      intro b hb k hk
      have hp := positive_cell (shape := b.1 :: rest) (axes := axes) (hpos b hb) k
      obtain ⟨a, ea, _⟩ := Stats.ofSamples_spec _ hp
      exact ⟨a, ea, ⟨hdef b hb k hk, hp⟩, ea⟩)
  obtain ⟨cells', e', n', p'⟩ := construct_axes (Stats.empty : Stats.Acc K) statsStep
    (rows graph.blocks :: rest) axes (elements graph.blocks) (List.ne_nil_of_mem h0)
    (by simpa using hax) (by simpa using elements_length hlen)
  simp only [keepAxes, h0', if_true] at e' n' p'
  refine ⟨_, e, ?_⟩
  rw [e']
  congr 2
  apply List.ext_getElem (by rw [n, n'])
  intro i h1 h2
  obtain ⟨k, hk, rfl⟩ := Reduce.exists_index (shape := keepAxes axes 1 rest) (by rw [← n]; exact h2)
  obtain ⟨a, ea, _, pa⟩ := p k hk
  have e1 := p' k hk
  rw [List.getElem?_eq_getElem h1] at e1
  rw [List.getElem?_eq_getElem h2] at ea
  rw [Option.some.inj e1, Option.some.inj ea]
  exact pa

/-- C107, descriptive statistics of the flattened array: the same when each block has at
least one defined element. -/
theorem C107_none_partial (rest : List Nat) (graph : Sum (Nat × List (Option (K × K))))
    (hpos : ∀ b ∈ graph.blocks, Positive b.2) (hdef : ∀ b ∈ graph.blocks, ∃ x, some x ∈ b.2) :
    ∃ r, delayedStatistics Stats.empty statsStep Stats.merge cStrides rest none graph = .ok r ∧
      construct Stats.empty statsStep (rows graph.blocks :: rest)
        (cStrides (rows graph.blocks :: rest)) none (elements graph.blocks) = .ok r := by
  have main : ∃ a, delayedStatistics Stats.empty statsStep Stats.merge cStrides rest none graph =
        .ok ([1], [.ok a]) ∧
      ((((elements graph.blocks).filterMap id) ≠ [] ∧
        ∀ x ∈ (elements graph.blocks).filterMap id, 0 < x.2) ∧
      Stats.ofSamples ((elements graph.blocks).filterMap id) = .ok a) := by
    induction graph with
    | block b =>
      have hp : ∀ x ∈ b.2.filterMap id, 0 < x.2 := by
        intro x hx
        obtain ⟨o, ho, e⟩ := List.mem_filterMap.1 hx
        have e : o = some x := e
        exact hpos b (by simp [Sum.blocks]) x (e ▸ ho)
      have hn : b.2.filterMap id ≠ [] := by
        obtain ⟨x, hx⟩ := hdef b (by simp [Sum.blocks])
        exact List.ne_nil_of_mem (List.mem_filterMap.2 ⟨some x, hx, rfl⟩)
      obtain ⟨a, ea, _⟩ := Stats.ofSamples_spec _ hp
      refine ⟨a, ?_, ?_⟩
      · have ea' : (b.2.filterMap id).foldlM statsStep Stats.empty = .ok a := ea
        simp only [delayedStatistics, evalSum, construct, ea']
      · have ee : elements (Sum.block b).blocks = b.2 := by simp [elements, Sum.blocks]
        rw [ee]
        exact ⟨⟨hn, hp⟩, ea⟩
    | add l r ihl ihr =>
      obtain ⟨a, e1, p1⟩ := ihl (fun b hb => hpos b (by simp [Sum.blocks, hb]))
        (fun b hb => hdef b (by simp [Sum.blocks, hb]))
      obtain ⟨b, e2, p2⟩ := ihr (fun b hb => hpos b (by simp [Sum.blocks, hb]))
        (fun b hb => hdef b (by simp [Sum.blocks, hb]))
      obtain ⟨c, ec, pc⟩ := ofSamples_property _ _ _ _ p1 p2
      refine ⟨c, ?_, ?_⟩
      · unfold delayedStatistics at e1 e2
        simp [delayedStatistics, evalSum, e1, e2, addCells, bind, Except.bind, ec]
      · have ee : elements (Sum.add l r).blocks = elements l.blocks ++ elements r.blocks := by
          simp [elements, Sum.blocks]
        rw [ee, List.filterMap_append]
        exact pc
  obtain ⟨a, e, _, p⟩ := main
  refine ⟨_, e, ?_⟩
  have p' : ((elements graph.blocks).filterMap id).foldlM statsStep Stats.empty = .ok a := p
  simp only [construct, p']

end

/- Three blocks of an array of shape (4, 2). -/
example : (delayedStatistics Stats.empty statsStep (Stats.merge (K := ℚ)) cStrides [2] (some [0])
    (.add (.block (1, [some (1, 1), some (2, 1)])) (.add (.block (1, [some (3, 1), some (4, 1)]))
      (.block (2, [some (5, 1), none, none, some (8, 1)]))))).map
    (fun r => (r.1, r.2.map fun c => c.map fun a => (a.count, a.mean))) =
    .ok ([2], [.ok (3, 3), .ok (3, 14 / 3)]) := by decide +kernel

/-- C107, what is false: when the first axis is not reduced, the statistics of the blocks are
merged all the same. For two blocks of `n` rows each, the result has `n` rows instead of
`2 n`; blocks with different numbers of rows are refused. -/
theorem C107_first_axis_kept_false {σ V : Type} (init : σ) (step : σ → V → Out σ)
    (merge : σ → σ → Out σ) (rest : List Nat) (axes : List Int) (hne : axes ≠ [])
    (h0 : (0 : Int) ∉ axes) (hax : ∀ a ∈ axes, 0 ≤ a ∧ a < (rest.length : Int) + 1) (n m : Nat)
    (hn : 0 < n) (hm : 0 < m) (d e : List (Option V)) (hd : d.length = n * rest.prod)
    (he : e.length = m * rest.prod) :
    (∃ cells, construct init step ((n + m) :: rest) (cStrides ((n + m) :: rest)) (some axes) (d ++ e) =
      .ok ((n + m) :: keepAxes axes 1 rest, cells)) ∧
    (n = m → ∃ cells, delayedStatistics init step merge cStrides rest (some axes)
      (.add (.block (n, d)) (.block (m, e))) = .ok (n :: keepAxes axes 1 rest, cells) ∧
        n :: keepAxes axes 1 rest ≠ (n + m) :: keepAxes axes 1 rest) ∧
    (n ≠ m → delayedStatistics init step merge cStrides rest (some axes)
      (.add (.block (n, d)) (.block (m, e))) = .error .exn) := by
  have h0' : ¬ ((0 : Nat) : Int) ∈ axes := by simpa using h0
  have hb : ∀ (n : Nat) (d : List (Option V)), d.length = n * rest.prod →
      ∃ cells, construct init step (n :: rest) (cStrides (n :: rest)) (some axes) d =
        .ok (n :: keepAxes axes 1 rest, cells) := by
    intro n d hd
    obtain ⟨cells, h1, _⟩ := construct_axes init step (n :: rest) axes d hne (by simpa using hax)
      (by simpa using hd)
    simp only [keepAxes, h0', if_false] at h1
    exact ⟨cells, h1⟩
  obtain ⟨c1, e1⟩ := hb n d hd
  obtain ⟨c2, e2⟩ := hb m e he
  refine ⟨hb (n + m) (d ++ e) (by rw [List.length_append, hd, he]; ring), ?_, ?_⟩
  · rintro rfl
    refine ⟨List.zipWith (fun a b => a >>= fun a => b >>= fun b => merge a b) c1 c2, ?_, ?_⟩
    · simp only [delayedStatistics, evalSum, e1, e2, addCells, bind, Except.bind, ne_eq,
        not_true_eq_false, if_false]
    · intro h
      have := (List.cons.inj h).1
      omega
  · intro hnm
    have hne' : n :: keepAxes axes 1 rest ≠ m :: keepAxes axes 1 rest := fun h =>
      hnm (List.cons.inj h).1
    simp only [delayedStatistics, evalSum, e1, e2, addCells, bind, Except.bind, ne_eq, hne',
      not_false_eq_true, if_true]

/- The means of the rows of [[1, 2], [3, 4]] are 1.5 and 3.5; with one block for each row, the
result is 2.5. -/
example : (construct Stats.empty statsStep [2, 2] (cStrides [2, 2]) (some [1])
      [some ((1 : ℚ), 1), some (2, 1), some (3, 1), some (4, 1)]).map
      (fun r => (r.1, r.2.map fun c => c.map fun a => a.mean)) = .ok ([2], [.ok (3 / 2), .ok (7 / 2)]) ∧
    (delayedStatistics Stats.empty statsStep (Stats.merge (K := ℚ)) cStrides [2] (some [1])
      (.add (.block (1, [some (1, 1), some (2, 1)])) (.block (1, [some (3, 1), some (4, 1)])))).map
      (fun r => (r.1, r.2.map fun c => c.map fun a => a.mean)) = .ok ([1], [.ok (5 / 2)]) := by
  decide +kernel

/-- C107, what is false: with a block whose elements are all NaN, the minimum (or the maximum)
can be 0, and with two such blocks the statistics are NaN. -/
theorem C107_undefined_block_false :
    (delayedStatistics Stats.empty statsStep (Stats.merge (K := ℚ)) cStrides [] none
      (.add (.block (2, [none, none])) (.block (2, [some (5, 1), some (7, 1)])))).map
      (fun r => r.2.map fun c => c.map fun a => Stats.getMin a) = .ok [.ok (some 0)] ∧
    (construct Stats.empty statsStep [4] [1] none
      [none, none, some ((5 : ℚ), 1), some (7, 1)]).map
      (fun r => r.2.map fun c => c.map fun a => Stats.getMin a) = .ok [.ok (some 5)] ∧
    (delayedStatistics Stats.empty statsStep (Stats.merge (K := ℚ)) cStrides [] none
      (.add (.add (.block (1, [none])) (.block (1, [none]))) (.block (2, [some (5, 1), some (7, 1)])))).map
      (fun r => r.2.map fun c => c.map fun a => a.count) = .ok [.error .nan] := by
  decide +kernel

/-! ### streaming histograms -/

section
variable {K : Type} [Field K] [LinearOrder K] [IsStrictOrderedRing K]

theorem reach_samples (num : Streaming.Numeric K) (B : K) (hf : Fits num B) (vs : List (K × K))
    (hv : ∀ v ∈ vs, |v.1| ≤ B ∧ 0 < v.2) (c : Streaming.Hist K) (s : List (K × K))
    (hr : Spec.Reach num B c s) :
    ∃ c', vs.foldlM (fun s v => Streaming.push num s v.1 v.2) c = .ok c' ∧
      Spec.Reach num B c' (s ++ vs) := by
  induction vs generalizing c s with
  | nil => exact ⟨c, rfl, by simpa using hr⟩
  | cons v vs ih =>
    obtain ⟨h1, h2⟩ := hv v (by simp)
    obtain ⟨c1, e1, _⟩ := (Streaming.C30_total num B hf c c s s hr hr).1 v.1 v.2 h1 h2
    obtain ⟨c', e, r⟩ := ih (fun x hx => hv x (by simp [hx])) c1 _ (.push v.1 v.2 hr h1 h2 e1)
    refine ⟨c', ?_, ?_⟩
    · simp only [List.foldlM_cons, e1, bind, Except.bind]
      exact e
    · simpa using r

/-- C107, streaming histograms along axes among which the first one: each cell of the
result is a histogram that has received exactly the defined elements of the whole array
with these coordinates (with C30: its count, weight and mean are theirs), even when some
blocks have no defined element. -/
theorem C107_histogram (num : Streaming.Numeric K) (B : K) (hf : Fits num B) (binCount : Nat)
    (hbc : 1 ≤ binCount) (rest : List Nat) (axes : List Int) (h0 : (0 : Int) ∈ axes)
    (hax : ∀ a ∈ axes, 0 ≤ a ∧ a < (rest.length : Int) + 1)
    (graph : Sum (Nat × List (Option (K × K))))
    (hlen : ∀ b ∈ graph.blocks, b.2.length = b.1 * rest.prod)
    (hpos : ∀ b ∈ graph.blocks, ∀ x, some x ∈ b.2 → |x.1| ≤ B ∧ 0 < x.2) :
    ∃ cells, delayedStatistics (Streaming.make num binCount false)
        (fun h x => Streaming.push num h x.1 x.2) (Streaming.merge num) cStrides rest (some axes) graph =
          .ok (keepAxes axes 1 rest, cells) ∧ cells.length = (keepAxes axes 1 rest).prod ∧
      ∀ k, ValidIndex (keepAxes axes 1 rest) k →
        ∃ h, cells[rowMajor (keepAxes axes 1 rest) k]? = some (.ok h) ∧
          Spec.Reach num B h
            (cellSamples (rows graph.blocks :: rest) axes (elements graph.blocks) k) := by
  refine delayed_axis0 _ _ _ (fun s h => Spec.Reach num B h s) ?_ rest axes h0 hax graph hlen ?_
  · intro s t a b ha hb
    obtain ⟨c, e, _⟩ := (Streaming.C30_total num B hf a b s t ha hb).2.1
    exact ⟨c, e, .merge ha hb e⟩
  · intro b hb k hk
    have hv : ∀ x ∈ cellSamples (b.1 :: rest) axes b.2 k, |x.1| ≤ B ∧ 0 < x.2 := by
      intro x hx
      obtain ⟨idx, _, e⟩ := List.mem_filterMap.1 hx
      cases ho : b.2[rowMajor (b.1 :: rest) idx]? with
      | none => simp [ho] at e
      | some o =>
        simp only [ho, Option.join_some] at e
        exact hpos b hb x (e ▸ List.mem_of_getElem? ho)
    obtain ⟨c, e, r⟩ := reach_samples num B hf _ hv _ _ (Spec.Reach.new (num := num) (B := B) binCount hbc)
    exact ⟨c, e, by simpa using r⟩

/-- C107, streaming histograms of the flattened array: the histogram has received exactly the
defined elements of the array. -/
theorem C107_histogram_none (num : Streaming.Numeric K) (B : K) (hf : Fits num B) (binCount : Nat)
    (hbc : 1 ≤ binCount) (rest : List Nat) (graph : Sum (Nat × List (Option (K × K))))
    (hpos : ∀ b ∈ graph.blocks, ∀ x, some x ∈ b.2 → |x.1| ≤ B ∧ 0 < x.2) :
    ∃ h, delayedStatistics (Streaming.make num binCount false)
        (fun h x => Streaming.push num h x.1 x.2) (Streaming.merge num) cStrides rest none graph =
          .ok ([1], [.ok h]) ∧
      Spec.Reach num B h ((elements graph.blocks).filterMap id) := by
  induction graph with
  | block b =>
    have hv : ∀ x ∈ b.2.filterMap id, |x.1| ≤ B ∧ 0 < x.2 := by
      intro x hx
      obtain ⟨o, ho, e⟩ := List.mem_filterMap.1 hx
      have e : o = some x := e
      exact hpos b (by simp [Sum.blocks]) x (e ▸ ho)
    obtain ⟨c, e, r⟩ := reach_samples num B hf _ hv _ _ (Spec.Reach.new (num := num) (B := B) binCount hbc)
    refine ⟨c, by simp only [delayedStatistics, evalSum, construct, e], ?_⟩
    have ee : elements (Sum.block b).blocks = b.2 := by simp [elements, Sum.blocks]
    rw [ee]
    simpa using r
  | add l r ihl ihr =>
    obtain ⟨a, e1, p1⟩ := ihl (fun b hb => hpos b (by simp [Sum.blocks, hb]))
    obtain ⟨b, e2, p2⟩ := ihr (fun b hb => hpos b (by simp [Sum.blocks, hb]))
    obtain ⟨c, e, _⟩ := (Streaming.C30_total num B hf a b _ _ p1 p2).2.1
    refine ⟨c, ?_, ?_⟩
    · unfold delayedStatistics at e1 e2
      simp [delayedStatistics, evalSum, e1, e2, addCells, bind, Except.bind, e]
    · have ee : elements (Sum.add l r).blocks = elements l.blocks ++ elements r.blocks := by
        simp [elements, Sum.blocks]
      rw [ee, List.filterMap_append]
      exact .merge p1 p2 e

example : (delayedStatistics (Streaming.make Streaming.exNum 3 false)
    (fun h x => Streaming.push Streaming.exNum h x.1 x.2) (Streaming.merge Streaming.exNum) cStrides [2]
    (some [0]) (.add (.block (1, [some (1, 1), none])) (.block (2, [some (5, 1), none, some (8, 2), some (3, 1)])))).map
    (fun r => (r.1, r.2.map fun c => c.map fun h => h.bins.map fun b => (b.value, b.weight))) =
    .ok ([2], [.ok [(1, 1), (5, 1), (8, 2)], .ok [(3, 1)]]) := by decide +kernel

end

end Pyinterp.Delayed
