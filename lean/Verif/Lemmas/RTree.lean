import Mathlib.Algebra.BigOperators.Group.List.Basic
import Mathlib.Algebra.Order.BigOperators.Group.List
import Mathlib.Tactic.Linarith
import Mathlib.Tactic.FieldSimp
import Mathlib.Tactic.Ring
import Verif.Spec.Neighbours

/-
Lemmas on the model of the spatial index.
-/
set_option linter.unusedVariables false
namespace Pyinterp.RTree
open Pyinterp.Spec

theorem distance_nonneg (p q : Point) : 0 ≤ distance p q := Real.sqrt_nonneg _

theorem distance_comm (p q : Point) : distance p q = distance q p := by
  unfold distance
  congr 1; ring

theorem foldl_min_le (c : Point → ℝ) (l : List Point) (m t : ℝ) :
    l.foldl (fun m q => min m (c q)) m ≤ t ↔ m ≤ t ∨ ∃ a ∈ l, c a ≤ t := by
  induction l generalizing m with
  | nil => simp
  | cons a l ih =>
    simp only [List.foldl_cons, ih, min_le_iff, List.mem_cons, exists_eq_or_imp]
    tauto

theorem le_foldl_max (c : Point → ℝ) (l : List Point) (m t : ℝ) :
    t ≤ l.foldl (fun m q => max m (c q)) m ↔ t ≤ m ∨ ∃ a ∈ l, t ≤ c a := by
  induction l generalizing m with
  | nil => simp
  | cons a l ih =>
    simp only [List.foldl_cons, ih, le_max_iff, List.mem_cons, exists_eq_or_imp]
    tauto

/-- The test of the code is the specification. -/
theorem coveredBy_iff (p : Point) (l : List Point) : coveredBy p l = true ↔ InBox p l := by
  cases l with
  | nil => simp [coveredBy, InBox]
  | cons a l =>
    simp only [coveredBy, decide_eq_true_eq, foldl_min_le, le_foldl_max, InBox, List.mem_cons, exists_eq_or_imp]

theorem close_iff (radius : Option ℝ) (d : ℝ) : close radius d = true ↔ InRadius radius d := by
  cases radius <;> simp [close, InRadius]

theorem close_eq (radius : Option ℝ) (d : ℝ) : close radius d = decide (InRadius radius d) := by
  by_cases h : InRadius radius d
  · rw [(close_iff radius d).2 h]; simp [h]
  · have := mt (close_iff radius d).1 h
    simp [h, this]

theorem inRadius_mono {radius : Option ℝ} {a b : ℝ} (h : a ≤ b) (hb : InRadius radius b) : InRadius radius a := by
  cases radius with
  | none => trivial
  | some r => exact le_trans h hb

/-- A point of the tree within a distance: the nearest neighbours contain one, the first of them. -/
theorem head_nearest {all : List Item} {p : Point} {k : Nat} {near : List Item} (h : KNearest all p k near) (hk : 0 < k)
    {i : Item} (hi : i ∈ all) :
    ∃ a rest, near = a :: rest ∧ a ∈ all ∧ ∀ j ∈ all, distance p a.pt ≤ distance p j.pt := by
  obtain ⟨rest, hp, hr⟩ := h.nearest
  cases near with
  | nil =>
    have hc := h.count
    have hl := List.length_pos_of_mem hi
    simp only [List.length_nil] at hc
    omega
  | cons a l =>
    refine ⟨a, l, rfl, hp.subset (by simp), fun j hj => ?_⟩
    have hj' := hp.symm.subset hj
    rw [List.mem_append, List.mem_cons] at hj'
    rcases hj' with (rfl | hj') | hj'
    · exact le_refl _
    · exact (List.pairwise_cons.1 h.sorted).1 j hj'
    · exact hr a (by simp) j hj'

theorem mem_all {all : List Item} {p : Point} {k : Nat} {near : List Item} (h : KNearest all p k near)
    {i : Item} (hi : i ∈ near) : i ∈ all := by
  obtain ⟨rest, hp, -⟩ := h.nearest
  exact hp.subset (by simp [hi])

/-- A mean with positive weights lies between two of the values. -/
theorem mean_between {l : List Item} {w : Item → ℝ} {r : ℝ} (hw : ∀ i ∈ l, 0 ≤ w i) (hm : IsItemMean l w r) :
    ∃ a ∈ l, ∃ b ∈ l, a.val ≤ r ∧ r ≤ b.val := by
  have hnn : 0 ≤ (l.map w).sum := List.sum_nonneg (by simpa using hw)
  have hpos : 0 < (l.map w).sum := lt_of_le_of_ne hnn (Ne.symm hm.1)
  have lower : (∀ i ∈ l, r < i.val) → False := by
    intro hlt
    have : (l.map fun i => w i * (i.val - r)).sum = 0 := by
      have e : ∀ l : List Item, (l.map fun i => w i * (i.val - r)).sum =
          (l.map fun i => w i * i.val).sum - r * (l.map w).sum := by
        intro l
        induction l with
        | nil => simp
        | cons a l ih => simp [ih]; ring
      rw [e, hm.2]; ring
    have hz : ∀ i ∈ l, w i = 0 := by
      intro i hi
      by_contra hne
      have hp : 0 < w i * (i.val - r) := mul_pos (lt_of_le_of_ne (hw i hi) (Ne.symm hne)) (sub_pos.2 (hlt i hi))
      have hle : w i * (i.val - r) ≤ (l.map fun i => w i * (i.val - r)).sum :=
        List.single_le_sum (by
          simp only [List.mem_map]
          rintro _ ⟨j, hj, rfl⟩
          exact mul_nonneg (hw j hj) (sub_pos.2 (hlt j hj)).le) _ (List.mem_map.2 ⟨i, hi, rfl⟩)
      linarith
    have : (l.map w).sum = 0 := List.sum_eq_zero (by
      simp only [List.mem_map]
      rintro _ ⟨j, hj, rfl⟩
      exact hz j hj)
    linarith
  have upper : (∀ i ∈ l, i.val < r) → False := by
    intro hlt
    have : (l.map fun i => w i * (r - i.val)).sum = 0 := by
      have e : ∀ l : List Item, (l.map fun i => w i * (r - i.val)).sum =
          r * (l.map w).sum - (l.map fun i => w i * i.val).sum := by
        intro l
        induction l with
        | nil => simp
        | cons a l ih => simp [ih]; ring
      rw [e, hm.2]; ring
    have hz : ∀ i ∈ l, w i = 0 := by
      intro i hi
      by_contra hne
      have hp : 0 < w i * (r - i.val) := mul_pos (lt_of_le_of_ne (hw i hi) (Ne.symm hne)) (sub_pos.2 (hlt i hi))
      have hle : w i * (r - i.val) ≤ (l.map fun i => w i * (r - i.val)).sum :=
        List.single_le_sum (by
          simp only [List.mem_map]
          rintro _ ⟨j, hj, rfl⟩
          exact mul_nonneg (hw j hj) (sub_pos.2 (hlt j hj)).le) _ (List.mem_map.2 ⟨i, hi, rfl⟩)
      linarith
    have : (l.map w).sum = 0 := List.sum_eq_zero (by
      simp only [List.mem_map]
      rintro _ ⟨j, hj, rfl⟩
      exact hz j hj)
    linarith
  have h1 : ∃ a ∈ l, a.val ≤ r := by by_contra h; push Not at h; exact lower h
  have h2 : ∃ b ∈ l, r ≤ b.val := by by_contra h; push Not at h; exact upper h
  obtain ⟨a, ha, ha'⟩ := h1
  obtain ⟨b, hb, hb'⟩ := h2
  exact ⟨a, ha, b, hb, ha', hb'⟩

/-- The loop of the inverse distance weighting when no point is at less than 1e-6. -/
theorem idwLoop_mean (p : Point) (k pw : Nat) (radius : Option ℝ) (near : List Item)
    (hfar : ∀ i ∈ near, ¬ distance p i.pt < 1e-6) (acc : Acc) :
    idwLoop k pw radius (query p near) acc = .inr
      ⟨acc.result + ((near.filter fun i => decide (InRadius radius (distance p i.pt))).map
          fun i => 1 / distance p i.pt ^ pw * i.val).sum,
       acc.total + ((near.filter fun i => decide (InRadius radius (distance p i.pt))).map
          fun i => 1 / distance p i.pt ^ pw).sum,
       acc.neighbors + (near.filter fun i => decide (InRadius radius (distance p i.pt))).length⟩ := by
  induction near generalizing acc with
  | nil => simp [query, idwLoop]
  | cons a l ih =>
    have ha := hfar a (by simp)
    have hl := fun i hi => hfar i (List.mem_cons_of_mem _ hi)
    show idwLoop k pw radius ((distance p a.pt, a.val) :: query p l) acc = _
    unfold idwLoop
    rw [if_neg ha, close_eq]
    by_cases hr : InRadius radius (distance p a.pt)
    · simp only [hr, decide_true, if_true, ih hl, List.filter_cons]
      congr 2 <;> simp <;> ring
    · simp only [hr, decide_false, Bool.false_eq_true, if_false, ih hl, List.filter_cons]

/-- The loop of the window functions: sorted distances, so that the loop stops after the points within the radius. -/
theorem windowLoop_mean (p : Point) (w : ℝ → Option ℝ) (v : Item → ℝ) (radius : Option ℝ) (near : List Item)
    (hs : near.Pairwise fun a b => distance p a.pt ≤ distance p b.pt)
    (hw : ∀ i ∈ near, InRadius radius (distance p i.pt) → w (distance p i.pt) = some (v i)) (a b : ℝ) (n : Nat) :
    windowLoop w radius (query p near) (some (a, b)) n =
      (some (a + ((near.filter fun i => decide (InRadius radius (distance p i.pt))).map fun i => v i * i.val).sum,
        b + ((near.filter fun i => decide (InRadius radius (distance p i.pt))).map v).sum),
       n + (near.filter fun i => decide (InRadius radius (distance p i.pt))).length) := by
  induction near generalizing a b n with
  | nil => simp [query, windowLoop]
  | cons c l ih =>
    obtain ⟨s1, s2⟩ := List.pairwise_cons.1 hs
    show windowLoop w radius ((distance p c.pt, c.val) :: query p l) (some (a, b)) n = _
    unfold windowLoop
    rw [close_eq]
    by_cases hr : InRadius radius (distance p c.pt)
    · simp only [hr, decide_true, Bool.not_true, Bool.false_eq_true, if_false, Option.bind_eq_bind, Option.bind_some,
        hw c (by simp) hr, List.filter_cons, if_true]
      rw [ih s2 fun i hi => hw i (List.mem_cons_of_mem _ hi)]
      simp only [List.map_cons, List.sum_cons, List.length_cons]
      refine Prod.ext (congrArg some (Prod.ext ?_ ?_)) ?_ <;> dsimp only
      · ring
      · ring
      · omega
    · have hnil : l.filter (fun i => decide (InRadius radius (distance p i.pt))) = [] := by
        rw [List.filter_eq_nil_iff]
        intro i hi
        simp only [decide_eq_true_eq]
        exact fun h => hr (inRadius_mono (s1 i hi) h)
      simp [hr, hnil]

end Pyinterp.RTree
