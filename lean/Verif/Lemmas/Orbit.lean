import Mathlib.Data.List.GetD
import Mathlib.Tactic.Linarith
import Mathlib.Algebra.Order.BigOperators.Group.List
import Verif.Model.Orbit

/-
Lemmas about the arrays of the model of orbits.
-/
namespace Pyinterp.Passes

theorem pyGet_nat {T : Type} {l : List T} {i : Nat} (h : i < l.length) : pyGet l (i : Int) = .ok l[i] := by
  unfold pyGet
  have : ¬ ((i : Int) < 0) := by omega
  simp only [this, if_false, Int.toNat_natCast, List.getElem?_eq_getElem h]

theorem pyGet_neg {T : Type} {l : List T} {m : Nat} (h1 : 1 ≤ m) (h : m ≤ l.length) :
    pyGet l (-(m : Int)) = .ok (l[l.length - m]'(by omega)) := by
  unfold pyGet
  have h1 : (-(m : Int)) < 0 := by omega
  have h2 : ¬ (-(m : Int) + l.length < 0) := by omega
  have h3 : (-(m : Int) + l.length).toNat = l.length - m := by omega
  simp only [h1, if_true, h2, if_false, h3]
  rw [List.getElem?_eq_getElem (by omega)]

theorem gather_map_succ {T : Type} (a : T) (l : List T) (idx : List Nat) :
    gather (a :: l) (idx.map Nat.succ) = gather l idx := by
  unfold gather
  rw [List.filterMap_map]
  apply List.filterMap_congr
  intro i _
  simp

theorem gather_map {S T : Type} (f : S → T) (l : List S) (idx : List Nat) : gather (l.map f) idx = (gather l idx).map f := by
  unfold gather
  rw [List.map_filterMap]
  apply List.filterMap_congr
  intro i _
  simp

/-- The elements selected by `where` on the array itself. -/
theorem gather_filter {T : Type} (P : T → Bool) (l : List T) (d : T) :
    gather l ((List.range l.length).filter fun k => P (l.getD k d)) = l.filter P := by
  induction l with
  | nil => simp [gather]
  | cons a l ih =>
    rw [List.length_cons, List.range_succ_eq_map, List.filter_cons, List.filter_map]
    have e : ((fun k => P ((a :: l).getD k d)) ∘ Nat.succ) = fun k => P (l.getD k d) := by
      funext k; simp
    rw [e]
    have h0 : (a :: l).getD 0 d = a := rfl
    rw [h0, List.filter_cons]
    by_cases h : P a = true
    · rw [if_pos h, if_pos h]
      have : gather (a :: l) (0 :: List.map Nat.succ (List.filter (fun k => P (l.getD k d)) (List.range l.length))) =
          a :: gather (a :: l) (List.map Nat.succ (List.filter (fun k => P (l.getD k d)) (List.range l.length))) := by
        simp [gather]
      rw [this, gather_map_succ, ih]
    · rw [if_neg h, if_neg h, gather_map_succ, ih]

theorem select_map {S T : Type} (g : S → Bool) (f : S → T) (l : List S) :
    select (l.map g) (l.map f) = (l.filter g).map f := by
  unfold select
  induction l with
  | nil => rfl
  | cons a l ih =>
    simp only [List.map_cons, List.zip_cons_cons, List.filterMap_cons, List.filter_cons]
    cases h : g a <;> simp [ih]

theorem gather_length {T : Type} {l : List T} {idx : List Nat} (h : ∀ i ∈ idx, i < l.length) : (gather l idx).length = idx.length := by
  induction idx with
  | nil => rfl
  | cons i idx ih =>
    have hi := h i (by simp)
    simp only [gather, List.filterMap_cons, List.getElem?_eq_getElem hi, List.length_cons]
    have := ih (fun j hj => h j (by simp [hj]))
    simp only [gather] at this
    rw [this]

theorem gather_eq_map {T : Type} {l : List T} {idx : List Nat} (d : T) (h : ∀ i ∈ idx, i < l.length) :
    gather l idx = idx.map fun i => l.getD i d := by
  induction idx with
  | nil => rfl
  | cons i idx ih =>
    have hi := h i (by simp)
    have := ih (fun j hj => h j (by simp [hj]))
    simp only [gather] at this
    simp only [gather, List.filterMap_cons, List.getElem?_eq_getElem hi, this, List.map_cons, List.getD_eq_getElem _ _ hi]

section
variable {K : Type} [Field K] [LinearOrder K]

/-- The previous index, modulo the length. -/
def prevIdx (n k : Nat) : Nat := if k = 0 then n - 1 else k - 1

theorem roll1_length {T : Type} (l : List T) : (roll1 l).length = l.length := by
  unfold roll1
  cases h : l.getLast? with
  | none =>
    rw [List.getLast?_eq_none_iff] at h
    simp [h]
  | some x =>
    have : l ≠ [] := by rintro rfl; simp at h
    have : 0 < l.length := List.length_pos_iff.mpr this
    simp; omega

theorem roll1_getD {T : Type} (l : List T) (d : T) {k : Nat} (h : k < l.length) :
    (roll1 l).getD k d = l.getD (prevIdx l.length k) d := by
  have hne : l ≠ [] := by rintro rfl; simp at h
  unfold roll1
  rw [List.getLast?_eq_some_getLast hne]
  cases k with
  | zero =>
    simp only [List.getD_cons_zero, prevIdx, if_true]
    rw [List.getLast_eq_getElem, List.getD_eq_getElem _ _ (by omega)]
  | succ k =>
    simp only [List.getD_cons_succ, prevIdx]
    rw [if_neg (by omega), Nat.add_sub_cancel]
    rw [List.getD_eq_getElem _ _ (by simp; omega), List.getD_eq_getElem _ _ (by omega)]
    simp

omit [LinearOrder K] in
theorem dyOf_length (lat : List K) : (dyOf lat).length = lat.length := by
  simp [dyOf, roll1_length]

omit [LinearOrder K] in
theorem dyOf_getD (lat : List K) {k : Nat} (h : k < lat.length) :
    (dyOf lat).getD k 0 = lat.getD (prevIdx lat.length k) 0 - lat.getD k 0 := by
  rw [← roll1_getD lat 0 h]
  unfold dyOf
  have hr : k < (roll1 lat).length := by rw [roll1_length]; exact h
  rw [List.getD_eq_getElem _ _ (by simp [roll1_length]; exact h), List.getD_eq_getElem _ _ hr, List.getD_eq_getElem _ _ h]
  simp

theorem prevIdx_lt {n k : Nat} (h : k < n) : prevIdx n k < n := by
  unfold prevIdx; split_ifs <;> omega

theorem mem_ascents (lat : List K) (k : Nat) : k ∈ ascents lat ↔ k < lat.length ∧
    ((dyOf lat).getD k 0 < 0 ∧ 0 ≤ (dyOf lat).getD (prevIdx lat.length k) 0) := by
  unfold ascents
  simp only [List.mem_filter, List.mem_range, decide_eq_true_eq]
  constructor
  · rintro ⟨h, h1, h2⟩
    rw [roll1_getD _ _ (by rw [dyOf_length]; exact h), dyOf_length] at h2
    exact ⟨h, h1, h2⟩
  · rintro ⟨h, h1, h2⟩
    refine ⟨h, h1, ?_⟩
    rw [roll1_getD _ _ (by rw [dyOf_length]; exact h), dyOf_length]
    exact h2

theorem mem_turnings (lat : List K) (k : Nat) : k ∈ turnings lat ↔ k < lat.length ∧
    (((dyOf lat).getD k 0 < 0 ∧ 0 ≤ (dyOf lat).getD (prevIdx lat.length k) 0) ∨
     (0 < (dyOf lat).getD k 0 ∧ (dyOf lat).getD (prevIdx lat.length k) 0 ≤ 0)) := by
  unfold turnings
  simp only [List.mem_filter, List.mem_range, decide_eq_true_eq]
  constructor
  · rintro ⟨h, h1⟩
    rw [roll1_getD _ _ (by rw [dyOf_length]; exact h), dyOf_length] at h1
    exact ⟨h, h1⟩
  · rintro ⟨h, h1⟩
    refine ⟨h, ?_⟩
    rw [roll1_getD _ _ (by rw [dyOf_length]; exact h), dyOf_length]
    exact h1

theorem turnings_sorted (lat : List K) : (turnings lat).Pairwise (· < ·) :=
  List.Pairwise.filter _ List.pairwise_lt_range

theorem ascents_sorted (lat : List K) : (ascents lat).Pairwise (· < ·) :=
  List.Pairwise.filter _ List.pairwise_lt_range

end
end Pyinterp.Passes
