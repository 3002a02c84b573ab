import Verif.Model.AxisContainer
import Verif.Spec.Axis
import Verif.Lemmas.Math
import Mathlib.Tactic.Abel

namespace Pyinterp
open Spec

set_option linter.unusedSectionVars false

theorem rd_ok {T : Type} (l : List T) (i : Nat) (h : i < l.length) : rd l (i : Int) = .ok l[i] := by
  unfold rd
  have : ¬ ((i : Int) < 0) := by omega
  simp [this, h]

theorem rd_ok' {T : Type} (l : List T) (i : Int) (h0 : 0 ≤ i) (h : i.toNat < l.length) :
    rd l i = .ok l[i.toNat] := by
  have := rd_ok l i.toNat h
  rwa [Int.toNat_of_nonneg h0] at this

theorem Int.toNat_ofNat_sub_one (n : Nat) (h : 0 < n) : ((n : Int) - 1).toNat = n - 1 := by omega

section
variable {T : Type} [LinearOrder T] [AddCommGroup T] [IsOrderedAddMonoid T]

/-- Characterisation of `irregularFind` for a strict order relation compatible with
the distance. -/
theorem irregularFind_spec (R : T → T → Prop) [DecidableRel R] (l : List T) (c : T) (b : Bool)
    (htrans : ∀ x y z, R x y → R y z → R x z) (hirr : ∀ x, ¬ R x x)
    (htri : ∀ x y, R x y ∨ x = y ∨ R y x)
    (hdist : ∀ x y z, (R x y ∨ x = y) → (R y z ∨ y = z) → |x - y| ≤ |x - z| ∧ |z - y| ≤ |z - x|)
    (hl : l.Pairwise R) (hne : l ≠ []) :
    ∃ i, Container.irregularFind l (fun a b => decide (R a b)) c b = .ok i ∧
      ((i = -1 ∧ b = false ∧ ((∀ v ∈ l, R c v) ∨ (∀ v ∈ l, R v c))) ∨
       (Nearest l c i ∧ (b = false → ¬ ((∀ v ∈ l, R c v) ∨ (∀ v ∈ l, R v c))))) := by
  have hlen : 0 < l.length := List.length_pos_iff.mpr hne
  have hget : ∀ i j (hi : i < l.length) (hj : j < l.length), i < j → R l[i] l[j] :=
    fun i j hi hj hij => List.pairwise_iff_getElem.mp hl i j hi hj hij
  obtain ⟨-, hr2, hr3, hr4⟩ := lowerBound_spec (fun i => match l[i]? with
    | some v => decide (R v c)
    | none => false) 0 l.length (by
      intro i j _ hij hj hpj
      have hj' : j < l.length := by omega
      have hi' : i < l.length := by omega
      simp only [hj', hi', List.getElem?_eq_getElem, decide_eq_true_eq] at hpj ⊢
      rcases Nat.lt_or_eq_of_le hij with h | h
      · exact htrans _ _ _ (hget i j hi' hj' h) hpj
      · subst h; exact hpj)
  unfold Container.irregularFind
  simp only
  generalize hr : lowerBound (fun i => match l[i]? with
    | some v => decide (R v c)
    | none => false) 0 l.length = r at *
  have hbelow : ∀ i (hi : i < l.length), i < r → R l[i] c := by
    intro i hi hir
    have := hr3 i (Nat.zero_le _) hir
    simpa [hi] using this
  have habove : ∀ i (hi : i < l.length), r ≤ i → (R c l[i] ∨ c = l[i]) := by
    intro i hi hir
    have := hr4 i hir (by omega)
    simp [hi] at this
    rcases htri c l[i] with h | h | h
    · exact Or.inl h
    · exact Or.inr h
    · exact absurd h this
  by_cases h0 : r = 0
  · subst h0
    simp only [Nat.cast_zero, if_true]
    have hrd : rd l 0 = .ok l[0] := rd_ok l 0 hlen
    rw [hrd]
    simp only [bind, Except.bind, pure, Except.pure]
    have hnear : Nearest l c 0 := by
      refine ⟨l[0], le_refl _, by simp [hlen], ?_⟩
      intro w hw
      obtain ⟨j, hj, rfl⟩ := List.getElem_of_mem hw
      refine (hdist c l[0] l[j] (habove 0 hlen (le_refl _)) ?_).1
      rcases Nat.eq_zero_or_pos j with h | h
      · subst h; exact Or.inr rfl
      · exact Or.inl (hget 0 j hlen hj h)
    by_cases hc : R c l[0]
    · have hall : ∀ v ∈ l, R c v := by
        intro v hv
        obtain ⟨j, hj, rfl⟩ := List.getElem_of_mem hv
        rcases Nat.eq_zero_or_pos j with h | h
        · subst h; exact hc
        · exact htrans _ _ _ hc (hget 0 j hlen hj h)
      cases b
      · exact ⟨-1, by simp [hc], Or.inl ⟨rfl, rfl, Or.inl hall⟩⟩
      · exact ⟨0, by simp [hc], Or.inr ⟨hnear, by simp⟩⟩
    · refine ⟨0, by simp [hc], Or.inr ⟨hnear, fun _ hh => ?_⟩⟩
      rcases hh with hh | hh
      · exact hc (hh _ (List.getElem_mem _))
      · rcases habove 0 hlen (le_refl _) with h | h
        · exact hc h
        · have := hh l[0] (List.getElem_mem _)
          rw [h] at this; exact hirr _ this
  · have h0' : ¬ ((r : Int) = 0) := by omega
    simp only [h0', if_false]
    by_cases hlast : r = l.length
    · have hl' : (r : Int) = (l.length : Int) := by omega
      simp only [hl', if_true]
      have hrd : rd l ((l.length : Int) - 1) = .ok l[l.length - 1] := by
        have := rd_ok l (l.length - 1) (by omega)
        rw [← this]; congr 1; omega
      rw [hrd]
      simp only [bind, Except.bind, pure, Except.pure]
      have hlt := hbelow (l.length - 1) (by omega) (by omega)
      have hnear : Nearest l c ((l.length : Int) - 1) := by
        refine ⟨l[l.length - 1], by omega, ?_, ?_⟩
        · rw [Int.toNat_ofNat_sub_one _ hlen]; simp
        intro w hw
        obtain ⟨j, hj, rfl⟩ := List.getElem_of_mem hw
        refine (hdist l[j] l[l.length - 1] c ?_ (Or.inl hlt)).2
        rcases Nat.lt_or_ge j (l.length - 1) with h | h
        · exact Or.inl (hget j _ hj (by omega) h)
        · exact Or.inr (by congr 1; omega)
      have hall : ∀ v ∈ l, R v c := by
        intro v hv
        obtain ⟨j, hj, rfl⟩ := List.getElem_of_mem hv
        exact hbelow j hj (by omega)
      cases b
      · exact ⟨-1, by simp [hlt], Or.inl ⟨rfl, rfl, Or.inr hall⟩⟩
      · exact ⟨(l.length : Int) - 1, by simp [hlt], Or.inr ⟨hnear, by simp⟩⟩
    · have hl' : ¬ ((r : Int) = (l.length : Int)) := by omega
      simp only [hl', if_false]
      have hrl : r < l.length := by omega
      have hrd1 : rd l ((r : Int) - 1) = .ok l[r - 1] := by
        have := rd_ok l (r - 1) (by omega)
        rw [← this]; congr 1; omega
      have hrd2 : rd l (r : Int) = .ok l[r] := rd_ok l r hrl
      rw [hrd1, hrd2]
      simp only [bind, Except.bind, pure, Except.pure]
      have ha := hbelow (r - 1) (by omega) (by omega)
      have hb := habove r hrl (le_refl _)
      have hlo : ∀ j (hj : j < l.length), j < r → |c - l[r-1]| ≤ |c - l[j]| := by
        intro j hj hjr
        refine (hdist l[j] l[r - 1] c ?_ (Or.inl ha)).2
        rcases Nat.lt_or_ge j (r - 1) with h | h
        · exact Or.inl (hget j _ hj (by omega) h)
        · exact Or.inr (by congr 1; omega)
      have hhi : ∀ j (hj : j < l.length), r ≤ j → |c - l[r]| ≤ |c - l[j]| := by
        intro j hj hjr
        refine (hdist c l[r] l[j] hb ?_).1
        rcases Nat.lt_or_eq_of_le hjr with h | h
        · exact Or.inl (hget r j hrl hj h)
        · exact Or.inr (by congr 1)
      have hin : ¬ ((∀ v ∈ l, R c v) ∨ (∀ v ∈ l, R v c)) := by
        rintro (h | h)
        · exact hirr _ (htrans _ _ _ ha (h _ (List.getElem_mem _)))
        · rcases hb with hb | hb
          · exact hirr _ (htrans _ _ _ hb (h _ (List.getElem_mem _)))
          · have h' := h _ (List.getElem_mem hrl)
            rw [← hb] at h'; exact hirr _ h'
      have habs : ∀ x : T, max x (-x) = |x| := fun _ => rfl
      simp only [habs]
      by_cases hcmp : |c - l[r-1]| < |c - l[r]|
      · refine ⟨(r : Int) - 1, by simp [hcmp], Or.inr ⟨?_, fun _ => hin⟩⟩
        refine ⟨l[r-1], by omega, ?_, ?_⟩
        · have : ((r : Int) - 1).toNat = r - 1 := by omega
          rw [this]; simp [show r - 1 < l.length by omega]
        · intro w hw
          obtain ⟨j, hj, rfl⟩ := List.getElem_of_mem hw
          rcases Nat.lt_or_ge j r with h | h
          · exact hlo j hj h
          · exact le_trans hcmp.le (hhi j hj h)
      · refine ⟨(r : Int), by simp [hcmp], Or.inr ⟨?_, fun _ => hin⟩⟩
        refine ⟨l[r], by omega, by simp [hrl], ?_⟩
        intro w hw
        obtain ⟨j, hj, rfl⟩ := List.getElem_of_mem hw
        rcases Nat.lt_or_ge j r with h | h
        · exact le_trans (not_lt.mp hcmp) (hlo j hj h)
        · exact hhi j hj h

theorem dist_lt (x y z : T) (h1 : x < y ∨ x = y) (h2 : y < z ∨ y = z) :
    |x - y| ≤ |x - z| ∧ |z - y| ≤ |z - x| := by
  have h1' : x ≤ y := le_iff_lt_or_eq.mpr h1
  have h2' : y ≤ z := le_iff_lt_or_eq.mpr h2
  have h3 : x ≤ z := le_trans h1' h2'
  rw [abs_of_nonpos (sub_nonpos.mpr h1'), abs_of_nonpos (sub_nonpos.mpr h3),
    abs_of_nonneg (sub_nonneg.mpr h2'), abs_of_nonneg (sub_nonneg.mpr h3)]
  simp only [neg_sub]
  exact ⟨sub_le_sub_right h2' _, sub_le_sub_left h1' _⟩

theorem dist_gt (x y z : T) (h1 : x > y ∨ x = y) (h2 : y > z ∨ y = z) :
    |x - y| ≤ |x - z| ∧ |z - y| ≤ |z - x| := by
  have h1' : y ≤ x := by rcases h1 with h | h; exacts [h.le, h.ge]
  have h2' : z ≤ y := by rcases h2 with h | h; exacts [h.le, h.ge]
  have h3 : z ≤ x := le_trans h2' h1'
  rw [abs_of_nonneg (sub_nonneg.mpr h1'), abs_of_nonneg (sub_nonneg.mpr h3),
    abs_of_nonpos (sub_nonpos.mpr h2'), abs_of_nonpos (sub_nonpos.mpr h3)]
  simp only [neg_sub]
  exact ⟨sub_le_sub_left h2' _, sub_le_sub_right h1' _⟩

/-- Contract of `find_index` with respect to the list `l` of coordinates. -/
def FindOk [AxisNum T] (k : Container T) (l : List T) : Prop :=
  ∀ c b, ∃ i, k.findIndex c b = .ok i ∧
    ((i = -1 ∧ b = false ∧ Outside l c) ∨ Nearest l c i)

/-- The container `k` stores the (strictly monotone, non empty) list `l` and its
flag tells the direction. -/
structure Stores [AxisNum T] (k : Container T) (l : List T) : Prop where
  ne : l ≠ []
  size_eq : k.size = l.length
  coord_eq : ∀ i (h : i < l.length), k.coord (i : Int) = .ok l[i]
  asc : k.isAscending = true → l.Pairwise (· < ·)
  desc : k.isAscending = false → l.Pairwise (· > ·)

variable [AxisNum T]

theorem irregular_find (l : List T) (asc : Bool) (hne : l ≠ [])
    (ha : asc = true → l.Pairwise (· < ·)) (hd : asc = false → l.Pairwise (· > ·)) (c : T) (b : Bool) :
    ∃ i, (Container.irregular l asc).findIndex c b = .ok i ∧
      ((i = -1 ∧ b = false ∧ Outside l c) ∨ (Nearest l c i ∧ (b = false → ¬ Outside l c))) := by
  cases asc
  · obtain ⟨i, h1, h2⟩ := irregularFind_spec (fun x y : T => y < x) l c b
      (fun x y z h1 h2 => lt_trans h2 h1) (fun x => lt_irrefl x)
      (fun x y => by rcases lt_trichotomy x y with h | h | h <;> simp [h])
      (fun x y z h1 h2 => dist_gt x y z h1 h2) (hd rfl) hne
    refine ⟨i, by simpa [Container.findIndex] using h1, ?_⟩
    have e : Outside l c ↔ ((∀ v ∈ l, v < c) ∨ (∀ v ∈ l, c < v)) := by
      unfold Outside; exact or_comm
    rw [e]; exact h2
  · obtain ⟨i, h1, h2⟩ := irregularFind_spec (fun x y : T => x < y) l c b
      (fun x y z h1 h2 => lt_trans h1 h2) (fun x => lt_irrefl x)
      (fun x y => by rcases lt_trichotomy x y with h | h | h <;> simp [h])
      (fun x y z h1 h2 => dist_lt x y z h1 h2) (ha rfl) hne
    exact ⟨i, by simpa [Container.findIndex] using h1, h2⟩

theorem irregular_stores (l : List T) (asc : Bool) (hne : l ≠ [])
    (ha : asc = true → l.Pairwise (· < ·)) (hd : asc = false → l.Pairwise (· > ·)) :
    Stores (Container.irregular l asc) l := by
  refine ⟨hne, rfl, ?_, ha, hd⟩
  intro i h
  simp only [Container.coord]
  exact rd_ok l i h

/-! ### `is_monotonic` -/

theorem isSortedBy_spec (cmp : T → T → Bool) (R : T → T → Prop)
    (hR : ∀ a b, R a b ↔ (a ≠ b ∧ cmp b a = false)) (htr : ∀ a b c, R a b → R b c → R a c)
    (l : List T) : (adjacentFind l = false ∧ isSortedBy cmp l = true) ↔ l.Pairwise R := by
  induction l with
  | nil => simp [adjacentFind, isSortedBy]
  | cons a l ih =>
    cases l with
    | nil => simp [adjacentFind, isSortedBy]
    | cons b l =>
      rw [List.pairwise_cons, ← ih]
      simp only [adjacentFind, isSortedBy, Bool.or_eq_false_iff, decide_eq_false_iff_not,
        Bool.and_eq_true, Bool.not_eq_true']
      constructor
      · rintro ⟨⟨h1, h2⟩, h3, h4⟩
        have hab : R a b := (hR a b).mpr ⟨h1, h3⟩
        refine ⟨?_, h2, h4⟩
        intro x hx
        rcases List.mem_cons.mp hx with h | h
        · rw [h]; exact hab
        · have := (List.pairwise_cons.mp (ih.mp ⟨h2, h4⟩)).1 x h
          exact htr _ _ _ hab this
      · rintro ⟨h1, h2, h3⟩
        obtain ⟨e1, e2⟩ := (hR a b).mp (h1 b (by simp))
        exact ⟨⟨e1, h2⟩, e2, h3⟩

theorem isMonotonic_irregular (l : List T) (asc : Bool) :
    (Container.irregular l asc).isMonotonic = true ↔
      ((asc = true → l.Pairwise (· < ·)) ∧ (asc = false → l.Pairwise (· > ·))) := by
  have h1 := isSortedBy_spec (fun a b : T => decide (a < b)) (· < ·)
    (fun a b => by simp only [decide_eq_false_iff_not, not_lt]
                   exact ⟨fun h => ⟨h.ne, h.le⟩, fun h => lt_of_le_of_ne h.2 h.1⟩)
    (fun a b c h1 h2 => lt_trans h1 h2) l
  have h2 := isSortedBy_spec (fun a b : T => decide (b < a)) (· > ·)
    (fun a b => by simp only [decide_eq_false_iff_not, not_lt]
                   exact ⟨fun h => ⟨h.ne', h.le⟩, fun h => lt_of_le_of_ne h.2 h.1.symm⟩)
    (fun a b c h1 h2 => lt_trans h2 h1) l
  unfold Container.isMonotonic
  cases asc
  · simp only [← h2]
    cases adjacentFind l <;> simp
  · simp only [← h1]
    cases adjacentFind l <;> simp

/-- the direction computed from the first two values is the right one -/
theorem isAscendingList_eq (l : List T) :
    (l.Pairwise (· < ·) → isAscendingList l = true) ∧
    (l.Pairwise (· > ·) → 2 ≤ l.length → isAscendingList l = false) := by
  cases l with
  | nil => simp [isAscendingList]
  | cons a l =>
    cases l with
    | nil => simp [isAscendingList]
    | cons b l =>
      constructor
      · intro h
        have := (List.pairwise_cons.mp h).1 b (by simp)
        simp [isAscendingList, this]
      · intro h _
        have := (List.pairwise_cons.mp h).1 b (by simp)
        simp only [isAscendingList, decide_eq_false_iff_not, not_lt]
        exact this.le

theorem isMonotonic_mk (l : List T) :
    (Container.irregular l (isAscendingList l)).isMonotonic = true ↔ StrictlyMonotone l := by
  rw [isMonotonic_irregular]
  constructor
  · rintro ⟨h1, h2⟩
    cases h : isAscendingList l
    · exact Or.inr (h2 h)
    · exact Or.inl (h1 h)
  · rintro (h | h)
    · have := (isAscendingList_eq l).1 h
      simp [this, h]
    · rcases Nat.lt_or_ge l.length 2 with h2 | h2
      · match l, h2 with
        | [], _ => simp
        | [a], _ => simp
      · have := (isAscendingList_eq l).2 h h2
        simp [this, h]

end
end Pyinterp
