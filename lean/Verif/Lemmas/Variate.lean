import Verif.Model.Variate
import Verif.Lemmas.Coordinates
import Verif.Lemmas.Cell
import Verif.Props.C46_Cells

/-!
Localisation of a point in a grid.
-/
namespace Pyinterp.Variate
open Pyinterp Spec
set_option linter.unusedSectionVars false
set_option linter.unusedVariables false
set_option linter.unusedSimpArgs false

section
variable {T : Type} [CommRing T] [LinearOrder T] [IsStrictOrderedRing T] [AxisNum T] [LawfulAxisNum T]

theorem onTurn_normOf {a : Axis T} {l : List T} (h : AxisOk a l) {m x c c' : T} (hm : IsMin l m)
    (hn : NormOf a.circle m x c') (ht : OnTurn a l x c) : c = c' := by
  rcases h.circle with hc | hc
  · rw [hn.1 hc]; exact ht.1 (by simp [Axis.isAngle, hc])
  · obtain ⟨h1, h2, k, h3⟩ := hn.2 _ hc
    obtain ⟨t1, k', t3⟩ := ht.2 (by simp [Axis.isAngle, hc])
    obtain ⟨t1, t2⟩ := t1 m hm.1 hm.2
    have hk : k' = k := by
      by_contra hne
      have e : c - c' = ((k' - k : ℤ) : T) * 360 := by rw [t3, h3]; push_cast; ring
      rcases lt_or_gt_of_ne hne with hl | hl
      · have : ((k' - k : ℤ) : T) ≤ ((-1 : ℤ) : T) := by exact_mod_cast (by omega : k' - k ≤ -1)
        push_cast at this e
        nlinarith
      · have : ((1 : ℤ) : T) ≤ ((k' - k : ℤ) : T) := by exact_mod_cast (by omega : 1 ≤ k' - k)
        push_cast at this e
        nlinarith
    rw [t3, h3, hk]

/-- Normalisation with respect to any coordinate not greater than the point. -/
theorem normalize'_eq {a : Axis T} {l : List T} (h : AxisOk a l) {x c v : T} (ht : OnTurn a l x c)
    (hv : v ∈ l) (hle : a.isAngle = true → v ≤ c) : a.normalizeCoordinate' x v = c := by
  obtain ⟨hn, -⟩ := normalize'_spec a v x h.circle
  rcases h.circle with hc | hc
  · have := ht.1 (by simp [Axis.isAngle, hc])
    rw [this]; exact hn.1 hc
  · have hang : a.isAngle = true := by simp [Axis.isAngle, hc]
    obtain ⟨h1, h2, k, h3⟩ := hn.2 _ hc
    obtain ⟨t1, k', t3⟩ := ht.2 hang
    obtain ⟨m, -, hm⟩ := h.stores.minValue
    obtain ⟨t1, t2⟩ := t1 m hm.1 hm.2
    have hmv := hm.2 v hv
    have hvc := hle hang
    generalize a.normalizeCoordinate' x v = r at *
    have hk : k' = k := by
      by_contra hne
      have e : c - r = ((k' - k : ℤ) : T) * 360 := by rw [t3, h3]; push_cast; ring
      rcases lt_or_gt_of_ne hne with hl | hl
      · have : ((k' - k : ℤ) : T) ≤ ((-1 : ℤ) : T) := by exact_mod_cast (by omega : k' - k ≤ -1)
        push_cast at this e
        nlinarith
      · have : ((1 : ℤ) : T) ≤ ((k' - k : ℤ) : T) := by exact_mod_cast (by omega : 1 ≤ k' - k)
        push_cast at this e
        nlinarith
    rw [t3, h3, hk]

/-- Which of the two indexes of the pair is below the coordinate. -/
theorem findIndexes_first {a : Axis T} {l : List T} (h : AxisOk a l) {x c : T}
    (hc : a.normalizeCoordinate x = .ok c) (hcc : a.normalizeCoordinate c = .ok c)
    {i j : Int} (he : a.findIndexes x = .ok (some (i, j))) :
    Outside l c ∨ (∃ v, a.cont.coord i = .ok v ∧ v ≤ c) ∨ (∃ v, a.cont.coord j = .ok v ∧ c < v) ∨
      (a.cont.coord j = .ok c ∧ j = l.length - 1 ∧ i = l.length - 2) := by
  obtain ⟨i0, hi1, hi2⟩ := h.find c false
  have hsz : a.size = (l.length : Int) := h.stores.size_eq
  have hfi : a.findIndex c false = .ok i0 := by
    unfold Axis.findIndex
    rw [hcc]; simpa [bind, Except.bind] using hi1
  have key : ∀ (P : Prop) [Decidable P] (p : Int × Int),
      (Except.ok (if P then some p else none) : Out (Option (Int × Int))) = .ok (some (i, j)) →
      p.1 = i ∧ p.2 = j := by
    intro P _ p hp
    split at hp
    · simp only [Except.ok.injEq, Option.some.injEq] at hp
      rw [hp]; exact ⟨rfl, rfl⟩
    · simp at hp
  unfold Axis.findIndexes at he
  rw [hc] at he
  simp only [bind, Except.bind, hfi] at he
  by_cases hneg : i0 = -1
  · rcases hi2 with h2 | ⟨v, h0, -, -⟩
    · exact Or.inl h2.2.2
    · omega
  · rw [if_neg hneg] at he
    cases hv : a.cont.coord i0 with
    | error e => rw [hv] at he; simp at he
    | ok v =>
      rw [hv] at he
      simp only [pure, Except.pure] at he
      by_cases h1 : c - v = 0
      · have hcv : c = v := sub_eq_zero.mp h1
        by_cases h2 : i0 = a.size - 1
        · rw [if_pos h1, if_pos h2] at he
          obtain ⟨rfl, rfl⟩ := key _ _ he
          · right; right; right
            exact ⟨by simpa [hcv] using hv, by dsimp only; omega, by dsimp only; omega⟩
        · rw [if_pos h1, if_neg h2] at he
          obtain ⟨rfl, rfl⟩ := key _ _ he
          · exact Or.inr (Or.inl ⟨v, hv, le_of_eq hcv.symm⟩)
      · by_cases h2 : c - v < 0
        · rw [if_neg h1, if_pos h2] at he
          obtain ⟨_, rfl⟩ := key _ _ he
          · exact Or.inr (Or.inr (Or.inl ⟨v, hv, by linarith⟩))
        · rw [if_neg h1, if_neg h2] at he
          obtain ⟨rfl, _⟩ := key _ _ he
          · exact Or.inr (Or.inl ⟨v, hv, by linarith⟩)

/-- The cell found for a point that lies within the coordinates of the axis. -/
theorem locate {a : Axis T} {l : List T} (h : AxisOk a l) (h2 : 2 ≤ l.length) {x c : T}
    (ht : OnTurn a l x c) (hin : ¬ Outside l c) :
    ∃ (i j : Nat) (hi : i < l.length) (hj : j < l.length), (j = i + 1 ∨ i = j + 1) ∧
      a.findIndexes x = .ok (some ((i : Int), (j : Int))) ∧ Between l[i] c l[j] ∧
      a.cont.coord i = .ok l[i] ∧ a.cont.coord j = .ok l[j] ∧
      ((a.isAngle = true → a.cont.isAscending = true ∨ ∃ v ∈ l, v < c) →
        a.normalizeCoordinate' x l[i] = c) := by
  obtain ⟨m, c', hm, hn, hr⟩ := findIndexes_spec h h2 x
  have hcc := onTurn_normOf h hm hn ht
  subst hcc
  rcases hr with ⟨i, j, he, hf, -, -⟩ | ⟨-, -, ho⟩
  · obtain ⟨f1, f2, f3, f4, hfr⟩ := hf
    obtain ⟨i, rfl⟩ := Int.eq_ofNat_of_zero_le f1
    obtain ⟨j, rfl⟩ := Int.eq_ofNat_of_zero_le f2
    simp only [Int.toNat_natCast] at f3 f4 hfr
    rcases hfr with ⟨hadj, hb⟩ | ⟨-, -, hout⟩
    · have hci : a.cont.coord (i : Int) = .ok l[i] := by
        simpa using h.stores.coord_int (i : Int) (by omega) (by simpa using f3)
      have hcj : a.cont.coord (j : Int) = .ok l[j] := by
        simpa using h.stores.coord_int (j : Int) (by omega) (by simpa using f4)
      refine ⟨i, j, f3, f4, by omega, he, hb, hci, hcj, ?_⟩
      intro hang
      apply normalize'_eq h ht (List.getElem_mem f3)
      intro hA
      obtain ⟨m', c2, hm', hn1, hn2, hn3⟩ := normalize_spec h x
      have e2 : c = c2 := onTurn_normOf h hm' hn2 ht
      subst e2
      rcases findIndexes_first h hn1 hn3 he with h1 | ⟨v, h1, h3⟩ | ⟨v, h1, h3⟩ | ⟨h1, h3, h4⟩
      · exact absurd h1 hin
      · rw [hci] at h1
        injection h1 with h1
        rw [h1]; exact h3
      · rw [hcj] at h1
        injection h1 with h1
        subst h1
        rcases hb with hb | hb
        · exact hb.1
        · exact absurd hb.1 (not_le.mpr h3)
      · rw [hcj] at h1
        injection h1 with h1
        rcases hang hA with hasc | ⟨v, hv, hlt⟩
        · have := List.pairwise_iff_getElem.mp (h.stores.asc hasc) i j f3 f4 (by omega)
          rw [h1] at this
          exact this.le
        · cases hd : a.cont.isAscending with
          | true =>
            have := List.pairwise_iff_getElem.mp (h.stores.asc hd) i j f3 f4 (by omega)
            rw [h1] at this
            exact this.le
          | false =>
            exfalso
            obtain ⟨k, hk, rfl⟩ := List.getElem_of_mem hv
            have hjl : j = l.length - 1 := by omega
            rcases Nat.lt_or_ge k j with hkj | hkj
            · have := List.pairwise_iff_getElem.mp (h.stores.desc hd) k j hk f4 hkj
              rw [h1] at this
              exact absurd hlt (not_lt.mpr this.le)
            · have : k = j := by omega
              subst this
              rw [h1] at hlt
              exact lt_irrefl _ hlt
    · exact absurd (Or.inr hout) hin
  · exact absurd ho hin

/-- A point outside the axis is not found. -/
theorem locate_none {a : Axis T} {l : List T} (h : AxisOk a l) (h2 : 2 ≤ l.length) {x c : T}
    (ht : OnTurn a l x c) (hc : a.isCircle = false) (hout : Outside l c) :
    a.findIndexes x = .ok none := by
  obtain ⟨m, c', hm, hn, hr⟩ := findIndexes_spec h h2 x
  have hcc := onTurn_normOf h hm hn ht
  subst hcc
  rcases hr with ⟨i, j, he, hf, -, ho⟩ | ⟨he, -, -⟩
  · rw [hc] at ho
    simp at ho
    exact absurd hout ho
  · exact he

/-- The search never fails. -/
theorem findIndexes_ok {a : Axis T} {l : List T} (h : AxisOk a l) (h2 : 2 ≤ l.length) (x : T) :
    a.findIndexes x = .ok none ∨ ∃ (i j : Nat) (hi : i < l.length) (hj : j < l.length),
      a.findIndexes x = .ok (some ((i : Int), (j : Int))) ∧
      a.cont.coord i = .ok l[i] ∧ a.cont.coord j = .ok l[j] := by
  obtain ⟨m, c', hm, hn, hr⟩ := findIndexes_spec h h2 x
  rcases hr with ⟨i, j, he, ⟨f1, f2, f3, f4, -⟩, -, -⟩ | ⟨he, -, -⟩
  · right
    obtain ⟨i, rfl⟩ := Int.eq_ofNat_of_zero_le f1
    obtain ⟨j, rfl⟩ := Int.eq_ofNat_of_zero_le f2
    simp only [Int.toNat_natCast] at f3 f4
    refine ⟨i, j, f3, f4, he, ?_, ?_⟩
    · simpa using h.stores.coord_int (i : Int) (by omega) (by simpa using f3)
    · simpa using h.stores.coord_int (j : Int) (by omega) (by simpa using f4)
  · exact Or.inl he

end
end Pyinterp.Variate
