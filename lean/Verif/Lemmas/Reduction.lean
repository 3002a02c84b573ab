import Mathlib.Algebra.BigOperators.Group.List.Basic
import Mathlib.Tactic.Ring
import Mathlib.Tactic.Linarith
import Verif.Model.Reduction
import Verif.Spec.Arrays

namespace Pyinterp.Reduce

open Spec

theorem mem_allIndexes {shape idx : List Nat} : idx ∈ allIndexes shape ↔ ValidIndex shape idx := by
  induction shape generalizing idx with
  | nil => cases idx <;> simp [allIndexes, ValidIndex]
  | cons d shape ih =>
    cases idx with
    | nil => simp [allIndexes, ValidIndex]
    | cons i idx =>
      simp only [allIndexes, List.mem_flatMap, List.mem_range, List.mem_map, ValidIndex]
      constructor
      · rintro ⟨a, ha, b, hb, e⟩
        obtain ⟨rfl, rfl⟩ := List.cons.inj e
        exact ⟨ha, ih.1 hb⟩
      · rintro ⟨h1, h2⟩
        exact ⟨i, h1, idx, ih.2 h2, rfl⟩

theorem rowMajor_lt {shape idx : List Nat} (h : ValidIndex shape idx) :
    rowMajor shape idx < shape.prod := by
  induction shape generalizing idx with
  | nil => cases idx <;> simp_all [ValidIndex, rowMajor]
  | cons d shape ih =>
    cases idx with
    | nil => exact h.elim
    | cons i idx =>
      obtain ⟨h1, h2⟩ := h
      have := ih h2
      simp only [rowMajor, List.prod_cons]
      calc i * shape.prod + rowMajor shape idx < i * shape.prod + shape.prod := by omega
        _ = (i + 1) * shape.prod := by ring
        _ ≤ d * shape.prod := Nat.mul_le_mul_right _ h1

theorem range_mul (d n : Nat) :
    (List.range d).flatMap (fun i => (List.range n).map (i * n + ·)) = List.range (d * n) := by
  induction d with
  | zero => simp
  | succ d ih =>
    rw [List.range_succ, List.flatMap_append, ih, Nat.succ_mul, List.range_add]
    simp

theorem map_rowMajor_allIndexes (shape : List Nat) :
    (allIndexes shape).map (rowMajor shape) = List.range shape.prod := by
  induction shape with
  | nil => simp [allIndexes, rowMajor]
  | cons d shape ih =>
    rw [List.prod_cons, ← range_mul, ← ih]
    simp only [allIndexes, List.map_flatMap, List.map_map]
    rfl

theorem unravel_rowMajor {shape idx : List Nat} (h : ValidIndex shape idx) :
    unravel (rowMajor shape idx) (cStrides shape) = .ok (idx.map Int.ofNat) := by
  induction shape generalizing idx with
  | nil => cases idx <;> simp_all [ValidIndex, cStrides, unravel]
  | cons d shape ih =>
    cases idx with
    | nil => exact h.elim
    | cons i idx =>
      obtain ⟨h1, h2⟩ := h
      have hlt := rowMajor_lt h2
      have hpos : (0 : Int) < (shape.prod : Int) := by exact_mod_cast (by omega : 0 < shape.prod)
      simp only [cStrides, unravel, rowMajor, if_neg hpos.ne']
      have hq : Int.tdiv ((i * shape.prod + rowMajor shape idx : Nat) : Int) (shape.prod : Int)
          = (i : Int) := by
        rw [← Int.ofNat_tdiv]
        congr 1
        rw [Nat.add_comm, Nat.add_mul_div_right _ _ (by omega : 0 < shape.prod),
          Nat.div_eq_of_lt hlt, Nat.zero_add]
      rw [hq]
      have hr : ((i * shape.prod + rowMajor shape idx : Nat) : Int) - (i : Int) * (shape.prod : Int)
          = (rowMajor shape idx : Int) := by push_cast; ring
      rw [hr, ih h2]
      rfl

theorem natAbs_adjusted (axes : List Int) (shape : List Nat) (ix : Nat) :
    (adjustedDims axes ix shape).prod.natAbs = (keepAxes axes ix shape).prod := by
  induction shape generalizing ix with
  | nil => rfl
  | cons d shape ih =>
    simp only [adjustedDims, keepAxes, List.prod_cons, Int.natAbs_mul, ih]
    split
    · simp
    · simp

theorem reducedShape_eq (axes : List Int) (shape : List Nat) (ix : Nat) :
    reducedShape axes ix shape = keepAxes axes ix shape := by
  induction shape generalizing ix with
  | nil => rfl
  | cons d shape ih => simp only [reducedShape, keepAxes, ih]

theorem dot_adjusted (axes : List Int) {shape idx : List Nat} (ix : Nat)
    (h : ValidIndex shape idx) :
    dot (idx.map Int.ofNat) (adjustedStrides (adjustedDims axes ix shape)) =
      (rowMajor (keepAxes axes ix shape) (keepAxes axes ix idx) : Int) := by
  induction shape generalizing idx ix with
  | nil => cases idx <;> simp_all [ValidIndex, dot, keepAxes, rowMajor]
  | cons d shape ih =>
    cases idx with
    | nil => exact h.elim
    | cons i idx =>
      obtain ⟨h1, h2⟩ := h
      have e := ih (ix + 1) h2
      unfold dot at e
      simp only [dot, adjustedDims, adjustedStrides, List.map_cons, List.zipWith_cons_cons,
        List.sum_cons, e, keepAxes, mul_one]
      by_cases hm : (ix : Int) ∈ axes
      · simp only [if_pos hm, if_true, mul_zero, zero_add]
      · have hd : (d : Int) ≠ -1 := by omega
        simp only [if_neg hm, if_neg hd, rowMajor, natAbs_adjusted]
        push_cast
        rfl

theorem valid_keep (axes : List Int) {shape idx : List Nat} (ix : Nat) (h : ValidIndex shape idx) :
    ValidIndex (keepAxes axes ix shape) (keepAxes axes ix idx) := by
  induction shape generalizing idx ix with
  | nil => cases idx <;> simp_all [ValidIndex, keepAxes]
  | cons d shape ih =>
    cases idx with
    | nil => exact h.elim
    | cons i idx =>
      obtain ⟨h1, h2⟩ := h
      unfold keepAxes
      split
      · exact ih _ h2
      · exact ⟨h1, ih _ h2⟩

theorem rowMajor_inj {shape a b : List Nat} (ha : ValidIndex shape a) (hb : ValidIndex shape b)
    (h : rowMajor shape a = rowMajor shape b) : a = b := by
  have h1 := unravel_rowMajor ha
  rw [h, unravel_rowMajor hb] at h1
  have h2 : b.map Int.ofNat = a.map Int.ofNat := by injection h1
  exact (List.map_injective_iff.2 (fun x y e => Int.ofNat.inj e) h2).symm

theorem update_ok {σ : Type} {arr : List σ} {j : Nat} (h : j < arr.length) (f : σ → σ) :
    update arr (j : Int) f = .ok (arr.set j (f arr[j])) := by
  unfold update
  rw [if_neg (by omega)]
  simp [h]

/-- The values that go to the cell `c`. -/
def valuesOf {V : Type} (cell : Nat → Nat) (c : Nat) (ix : Nat) : List (Option V) → List V
  | [] => []
  | none :: data => valuesOf cell c (ix + 1) data
  | some v :: data =>
    if cell ix = c then v :: valuesOf cell c (ix + 1) data else valuesOf cell c (ix + 1) data

theorem pushLoop_ok {σ V : Type} (step : σ → V → σ) (strides adjusted : List Int) (cell : Nat → Nat)
    (data : List (Option V)) (ix : Nat) (arr : List σ)
    (h : ∀ i, ix ≤ i → i < ix + data.length →
      ∃ idx, unravel i strides = .ok idx ∧ dot idx adjusted = (cell i : Int) ∧ cell i < arr.length) :
    ∃ res, pushLoop step strides adjusted ix arr data = .ok res ∧ res.length = arr.length ∧
      ∀ c, res[c]? = arr[c]?.map fun s => (valuesOf cell c ix data).foldl step s := by
  induction data generalizing ix arr with
  | nil =>
    refine ⟨arr, rfl, rfl, fun c => ?_⟩
    simp [valuesOf]
  | cons o data ih =>
    cases o with
    | none =>
      obtain ⟨res, e, hl, hc⟩ := ih (ix + 1) arr fun i h1 h2 => h i (by omega) (by
        simp only [List.length_cons]; omega)
      exact ⟨res, e, hl, hc⟩
    | some v =>
      obtain ⟨idx, e1, e2, e3⟩ := h ix le_rfl (by simp)
      obtain ⟨res, e, hl, hc⟩ := ih (ix + 1) (arr.set (cell ix) (step arr[cell ix] v))
        fun i h1 h2 => by
          obtain ⟨idx, q1, q2, q3⟩ := h i (by omega) (by simp only [List.length_cons]; omega)
          exact ⟨idx, q1, q2, by rw [List.length_set]; exact q3⟩
      refine ⟨res, ?_, by rw [hl, List.length_set], fun c => ?_⟩
      · simp only [pushLoop, e1, bind, Except.bind, e2, update_ok e3]
        exact e
      · rw [hc c]
        by_cases hcc : cell ix = c
        · subst hcc
          simp [e3, valuesOf]
        · simp [valuesOf, hcc, List.getElem?_set_ne hcc]

theorem valuesOf_eq {V : Type} (cell : Nat → Nat) (c : Nat) (data : List (Option V)) (ix : Nat) :
    valuesOf cell c ix data =
      ((List.range data.length).filter fun i => cell (ix + i) = c).filterMap
        fun i => (data[i]?).join := by
  induction data generalizing ix with
  | nil => rfl
  | cons o data ih =>
    rw [List.length_cons, List.range_succ_eq_map, List.filter_cons, List.filter_map]
    have hmap : (List.filterMap (fun i => ((o :: data)[i]?).join)
        (List.map Nat.succ (List.filter ((fun i => decide (cell (ix + i) = c)) ∘ Nat.succ)
          (List.range data.length)))) = valuesOf cell c (ix + 1) data := by
      rw [ih, List.filterMap_map]
      congr 1
      · apply List.filter_congr
        intro i _
        simp only [Function.comp_apply]
        congr 3
        omega
    cases o with
    | none =>
      simp only [valuesOf]
      split
      · rw [List.filterMap_cons]
        simp only [List.getElem?_cons_zero, Option.join_some]
        exact hmap.symm
      · exact hmap.symm
    | some v =>
      simp only [valuesOf, Nat.add_zero, decide_eq_true_eq]
      split
      · rw [List.filterMap_cons]
        simp only [List.getElem?_cons_zero, Option.join_some]
        rw [hmap]
      · exact hmap.symm

theorem checkAxisBounds_ok {n : Nat} {axes : List Int} (hne : axes ≠ [])
    (h : ∀ a ∈ axes, 0 ≤ a ∧ a < n) : checkAxisBounds n axes = .ok () := by
  cases axes with
  | nil => exact absurd rfl hne
  | cons a l =>
    have hmin : ∀ (l : List Int) (a : Int), 0 ≤ a → (∀ x ∈ l, 0 ≤ x) → 0 ≤ l.foldl min a := by
      intro l
      induction l with
      | nil => intro a h _; exact h
      | cons b l ih =>
        intro a ha hl
        exact ih _ (le_min ha (hl b (by simp))) fun x hx => hl x (by simp [hx])
    have hmax : ∀ (l : List Int) (a : Int), a < n → (∀ x ∈ l, x < n) → l.foldl max a < n := by
      intro l
      induction l with
      | nil => intro a h _; exact h
      | cons b l ih =>
        intro a ha hl
        exact ih _ (max_lt ha (hl b (by simp))) fun x hx => hl x (by simp [hx])
    have h1 := hmin l a (h a (by simp)).1 fun x hx => (h x (by simp [hx])).1
    have h2 := hmax l a (h a (by simp)).2 fun x hx => (h x (by simp [hx])).2
    simp only [checkAxisBounds]
    rw [if_neg (by omega), if_neg (by omega)]

theorem checkAxisBounds_bad {n : Nat} {axes : List Int}
    (h : ∃ a ∈ axes, a < 0 ∨ (n : Int) ≤ a) : checkAxisBounds n axes = .error .exn := by
  cases axes with
  | nil => obtain ⟨a, ha, _⟩ := h; simp at ha
  | cons a l =>
    have hmin : ∀ (l : List Int) (a : Int), l.foldl min a ≤ a ∧ ∀ x ∈ l, l.foldl min a ≤ x := by
      intro l
      induction l with
      | nil => intro a; simp
      | cons b l ih =>
        intro a
        obtain ⟨h1, h2⟩ := ih (min a b)
        refine ⟨le_trans h1 (min_le_left _ _), ?_⟩
        intro x hx
        rcases List.mem_cons.1 hx with rfl | hx
        · exact le_trans h1 (min_le_right _ _)
        · exact h2 x hx
    have hmax : ∀ (l : List Int) (a : Int), a ≤ l.foldl max a ∧ ∀ x ∈ l, x ≤ l.foldl max a := by
      intro l
      induction l with
      | nil => intro a; simp
      | cons b l ih =>
        intro a
        obtain ⟨h1, h2⟩ := ih (max a b)
        refine ⟨le_trans (le_max_left _ _) h1, ?_⟩
        intro x hx
        rcases List.mem_cons.1 hx with rfl | hx
        · exact le_trans (le_max_right _ _) h1
        · exact h2 x hx
    obtain ⟨x, hx, hb⟩ := h
    have h1 : l.foldl min a ≤ x := by
      rcases List.mem_cons.1 hx with rfl | hx
      · exact (hmin l x).1
      · exact (hmin l a).2 x hx
    have h2 : x ≤ l.foldl max a := by
      rcases List.mem_cons.1 hx with rfl | hx
      · exact (hmax l x).1
      · exact (hmax l a).2 x hx
    simp only [checkAxisBounds]
    split
    · rfl
    · rw [if_pos (by omega)]

theorem sum_set_succ (l : List Nat) (j : Nat) (h : j < l.length) :
    (l.set j (l[j] + 1)).sum = l.sum + 1 := by
  induction l generalizing j with
  | nil => simp at h
  | cons a l ih =>
    cases j with
    | zero => simp; omega
    | succ j =>
      have := ih j (by simpa using h)
      simp only [List.set_cons_succ, List.getElem_cons_succ, List.sum_cons, this]
      omega

/-- The index at a flat position. -/
theorem exists_index {shape : List Nat} {i : Nat} (h : i < shape.prod) :
    ∃ idx, ValidIndex shape idx ∧ rowMajor shape idx = i := by
  have : i ∈ (allIndexes shape).map (rowMajor shape) := by
    rw [map_rowMajor_allIndexes]; exact List.mem_range.2 h
  obtain ⟨idx, h1, h2⟩ := List.mem_map.1 this
  exact ⟨idx, mem_allIndexes.1 h1, h2⟩

end Pyinterp.Reduce
