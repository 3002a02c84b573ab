import Mathlib.Data.Rat.Floor
import Verif.Lemmas.Reduction
import Verif.Props.C34_Statistics

/-
C36: statistics along some axes of an array.
-/
namespace Pyinterp.Reduce

open Spec

/-- C36: reducing an array (in C order, with the strides of a freshly allocated array)
along valid axes gives an array whose shape is the kept dimensions; no index is out of
range; and the cell at the kept coordinates `k` has received, in order, exactly the
defined elements whose kept coordinates are `k`. Missing: arrays with a dimension of
length 1 that has another stride (`C36_relaxed_strides_false`). -/
theorem C36_reduce_partial {σ V : Type} (init : σ) (step : σ → V → σ) (shape : List Nat)
    (axes : List Int) (data : List (Option V)) (hne : axes ≠ [])
    (hax : ∀ a ∈ axes, 0 ≤ a ∧ a < shape.length) (hlen : data.length = shape.prod) :
    ∃ cells, reduce init step shape (cStrides shape) axes data = .ok (keepAxes axes 0 shape, cells) ∧
      cells.length = (keepAxes axes 0 shape).prod ∧
      ∀ k, ValidIndex (keepAxes axes 0 shape) k →
        cells[rowMajor (keepAxes axes 0 shape) k]? = some
          ((((allIndexes shape).filter fun idx => keepAxes axes 0 idx = k).filterMap
            fun idx => (data[rowMajor shape idx]?).join).foldl step init) := by
  have hcell : ∀ i, ∃ c : Nat, i < shape.prod →
      ∃ idx, ValidIndex shape idx ∧ rowMajor shape idx = i ∧
        c = rowMajor (keepAxes axes 0 shape) (keepAxes axes 0 idx) := by
    intro i
    by_cases h : i < shape.prod
    · obtain ⟨idx, h1, h2⟩ := exists_index h
      exact ⟨_, fun _ => ⟨idx, h1, h2, rfl⟩⟩
    · exact ⟨0, fun h' => absurd h' h⟩
  choose cell hcell using hcell
  obtain ⟨res, e, hl, hc⟩ := pushLoop_ok step (cStrides shape)
    (adjustedStrides (adjustedDims axes 0 shape)) cell data 0
    (List.replicate (keepAxes axes 0 shape).prod init) (by
      intro i _ h2
      obtain ⟨idx, v, r, c⟩ := hcell i (by omega)
      refine ⟨idx.map Int.ofNat, by rw [← r]; exact unravel_rowMajor v, ?_, ?_⟩
      · rw [c]; exact dot_adjusted axes 0 v
      · rw [List.length_replicate, c]; exact rowMajor_lt (valid_keep axes 0 v))
  refine ⟨res, ?_, by rw [hl, List.length_replicate], ?_⟩
  · simp only [reduce, checkAxisBounds_ok hne hax, bind, Except.bind, reducedShape_eq, e]
  · intro k hk
    rw [hc, List.getElem?_replicate, if_pos (rowMajor_lt hk), Option.map_some, valuesOf_eq]
    congr 2
    rw [hlen, ← map_rowMajor_allIndexes, List.filter_map, List.filterMap_map]
    congr 1
    apply List.filter_congr
    intro idx hidx
    have v := mem_allIndexes.1 hidx
    simp only [Function.comp_apply, Nat.zero_add]
    obtain ⟨idx', v', r', c'⟩ := hcell _ (rowMajor_lt v)
    have : idx' = idx := rowMajor_inj v' v r'
    subst this
    rw [c']
    congr 1
    apply propext
    constructor
    · exact rowMajor_inj (valid_keep axes 0 v) hk
    · intro h; rw [h]

example : reduce ([] : List Nat) (fun l v => l ++ [v]) [2, 3, 2] (cStrides [2, 3, 2]) [1]
    ((List.range 12).map fun i => if i = 4 then none else some i) =
    .ok ([2, 2], [[0, 2], [1, 3, 5], [6, 8, 10], [7, 9, 11]]) := by decide +kernel

/-- C36: every element is pushed once: the numbers of values received by the cells add
up to the number of defined elements. -/
theorem C36_total_partial (shape : List Nat) {V : Type}
    (axes : List Int) (data : List (Option V)) (hne : axes ≠ [])
    (hax : ∀ a ∈ axes, 0 ≤ a ∧ a < shape.length) (hlen : data.length = shape.prod) :
    ∃ cells, reduce 0 (fun n (_ : V) => n + 1) shape (cStrides shape) axes data =
        .ok (keepAxes axes 0 shape, cells) ∧ cells.sum = (data.filter Option.isSome).length := by
  have key : ∀ (strides adj : List Int) (data : List (Option V)) (ix : Nat) (arr res : List Nat),
      pushLoop (fun n (_ : V) => n + 1) strides adj ix arr data = .ok res →
      res.sum = arr.sum + (data.filter Option.isSome).length := by
    intro strides adj data
    induction data with
    | nil =>
      intro ix arr res h
      simp only [pushLoop, Except.ok.injEq] at h
      simp [h]
    | cons o data ih =>
      intro ix arr res h
      cases o with
      | none =>
        have := ih (ix + 1) arr res h
        simpa using this
      | some v =>
        simp only [pushLoop, bind, Except.bind] at h
        split at h
        · simp at h
        · next idx _ =>
          split at h
          · simp at h
          · next arr' hu =>
            have h1 := ih (ix + 1) arr' res h
            have h2 : arr'.sum = arr.sum + 1 := by
              unfold update at hu
              split at hu
              · simp at hu
              · split at hu
                · simp at hu
                · next s hs =>
                  simp only [Except.ok.injEq] at hu
                  obtain ⟨hj, hs⟩ := List.getElem?_eq_some_iff.1 hs
                  rw [← hu, ← hs, sum_set_succ]
            rw [h1, h2]
            simp
            omega
  obtain ⟨cells, e, _, _⟩ := C36_reduce_partial 0 (fun n (_ : V) => n + 1) shape axes data hne hax hlen
  refine ⟨cells, e, ?_⟩
  simp only [reduce, checkAxisBounds_ok hne hax, bind, Except.bind] at e
  split at e
  · simp at e
  · next c hc =>
    simp only [Except.ok.injEq, Prod.mk.injEq] at e
    have := key _ _ _ _ _ _ hc
    rw [← e.2, this]
    simp

/-- C36: an axis out of bounds is refused. -/
theorem C36_bad_axis {σ V : Type} (init : σ) (step : σ → V → σ) (shape : List Nat)
    (strides : List Int) (axes : List Int) (data : List (Option V))
    (h : ∃ a ∈ axes, a < 0 ∨ (shape.length : Int) ≤ a) :
    reduce init step shape strides axes data = .error .exn := by
  simp only [reduce, checkAxisBounds_bad h, bind, Except.bind]

example : ∃ a ∈ [(0 : Int), 3], a < 0 ∨ (([2, 3] : List Nat).length : Int) ≤ a :=
  ⟨3, by simp, by decide⟩

/-- C36, what is false: NumPy accepts as C-contiguous an array whose dimensions of
length 1 have any stride. `x[None]` has the stride 0: the division is undefined. `x.T`,
for `x` of shape (3, 1), has shape (1, 3) and strides (1, 1): reducing along the last
axis writes outside the result, and reducing along the first one sends all the elements
to the first cell. An empty list of axes is undefined too. -/
theorem C36_relaxed_strides_false :
    reduce ([] : List Nat) (fun l v => l ++ [v]) [1, 3] [0, 1] [0] [some 1, some 2, some 3] =
      .error .ub ∧
    reduce ([] : List Nat) (fun l v => l ++ [v]) [1, 3] [1, 1] [1] [some 1, some 2, some 3] =
      .error .ub ∧
    reduce ([] : List Nat) (fun l v => l ++ [v]) [1, 3] [1, 1] [0] [some 1, some 2, some 3] =
      .ok ([3], [[1, 2, 3], [], []]) ∧
    reduce ([] : List Nat) (fun l v => l ++ [v]) [1, 3] [3, 1] [] [some 1, some 2, some 3] =
      .error .ub := by decide +kernel

/-- C36 for the descriptive statistics: each cell is the statistics of the elements with
the same kept coordinates. -/
theorem C36_statistics_partial {K : Type} [Field K] [LinearOrder K] (shape : List Nat)
    (axes : List Int) (data : List (Option (K × K))) (hne : axes ≠ [])
    (hax : ∀ a ∈ axes, 0 ≤ a ∧ a < shape.length) (hlen : data.length = shape.prod) :
    ∃ cells, statistics shape (cStrides shape) axes data = .ok (keepAxes axes 0 shape, cells) ∧
      cells.length = (keepAxes axes 0 shape).prod ∧
      ∀ k, ValidIndex (keepAxes axes 0 shape) k →
        cells[rowMajor (keepAxes axes 0 shape) k]? = some (Stats.ofSamples
          (((allIndexes shape).filter fun idx => keepAxes axes 0 idx = k).filterMap
            fun idx => (data[rowMajor shape idx]?).join)) := by
  obtain ⟨cells, h1, h2, h3⟩ := C36_reduce_partial (.ok Stats.empty : Out (Stats.Acc K))
    (fun a x => a >>= fun a => Stats.pushW a x.1 x.2) shape axes data hne hax hlen
  refine ⟨cells, h1, h2, fun k hk => ?_⟩
  rw [h3 k hk]
  congr 1
  have : ∀ (l : List (K × K)) (a : Out (Stats.Acc K)),
      l.foldl (fun a x => a >>= fun a => Stats.pushW a x.1 x.2) a =
        a >>= fun a => l.foldlM (fun acc x => Stats.pushW acc x.1 x.2) a := by
    intro l
    induction l with
    | nil => intro a; cases a <;> rfl
    | cons x l ih =>
      intro a
      rw [List.foldl_cons, ih]
      cases a <;> rfl
  rw [this]
  rfl

end Pyinterp.Reduce
