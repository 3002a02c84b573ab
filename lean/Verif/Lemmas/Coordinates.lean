import Verif.Lemmas.AxisReach
import Verif.Spec.Coordinates

namespace Pyinterp
open Spec
set_option linter.unusedSectionVars false
set_option linter.unusedVariables false

section
variable {T : Type} [CommRing T] [LinearOrder T] [IsStrictOrderedRing T] [AxisNum T] [LawfulAxisNum T]

theorem Stores.coordinates {a : Axis T} {l : List T} (h : Stores a.cont l) : Coordinates a l := by
  refine ⟨h.size_eq, ?_⟩
  intro i hi
  unfold Axis.coordinateValue
  have hsz : a.size = l.length := h.size_eq
  rw [if_neg (by omega)]
  exact h.coord_eq i hi

theorem coordinates_unique {a : Axis T} {l l' : List T} (h : Coordinates a l) (h' : Coordinates a l') :
    l = l' := by
  have hlen : l.length = l'.length := by
    have := h.1; have := h'.1; omega
  apply List.ext_getElem hlen
  intro i h1 h2
  have e1 := h.2 i h1
  have e2 := h'.2 i h2
  rw [e1] at e2
  exact Except.ok.inj e2

theorem reach_irregular {it : Bool} {a : Axis T} (h : Reach it a) (hr : a.isRegular = false) :
    ContInv (fun _ => True) a.cont := by
  have key : ∀ {a : Axis T}, Reach it a → (∀ l asc, a.cont = .irregular l asc →
      l ≠ [] ∧ (asc = true → l.Pairwise (· < ·)) ∧ (asc = false → l.Pairwise (· > ·))) ∧ a.cont ≠ .undefined := by
    intro a h
    have hmk : ∀ {l : List T} {k : Container T} {circle : Option T} {eps : T} {a : Axis T}, mkIrregular l = .ok k →
        computeProperties it circle k eps = .ok a → (∀ l asc, a.cont = .irregular l asc →
      l ≠ [] ∧ (asc = true → l.Pairwise (· < ·)) ∧ (asc = false → l.Pairwise (· > ·))) ∧ a.cont ≠ .undefined := by
      intro l k circle eps a h1 h2
      obtain ⟨e1, e2⟩ := mkIrregular_ok h1
      obtain ⟨c1, _, _, c4, _⟩ := computeProperties_ok h2
      subst e2
      have inv := irregular_inv (P := fun _ => True) e1 c4
      constructor
      · intro l' asc hl'
        rw [c1] at hl'
        rw [hl'] at inv
        exact inv
      · rw [c1]; simp
    have hreg : ∀ {s t : T} {n : Int} {k : Container T}, mkRegular s t n = .ok k → ∃ r, k = .regular r := by
      intro s t n k h
      unfold mkRegular at h
      split at h
      · cases h
      · split at h
        · cases h
        · split at h
          · cases h
          · simp only [Except.ok.injEq] at h
            exact ⟨_, h.symm⟩
    have hregular : ∀ {a : Axis T} {r}, a.cont = .regular r → (∀ l asc, a.cont = .irregular l asc →
      l ≠ [] ∧ (asc = true → l.Pairwise (· < ·)) ∧ (asc = false → l.Pairwise (· > ·))) ∧ a.cont ≠ .undefined := by
      intro a r hr
      rw [hr]; simp
    have hinit : ∀ {circle : Option T} {v : List T} {eps : T} {a : Axis T},
        initializeFromValues it circle v eps = .ok a → (∀ l asc, a.cont = .irregular l asc →
      l ≠ [] ∧ (asc = true → l.Pairwise (· < ·)) ∧ (asc = false → l.Pairwise (· > ·))) ∧ a.cont ≠ .undefined := by
      intro circle v eps a h
      unfold initializeFromValues at h
      split at h
      · simp only [bind, Except.bind] at h
        split at h
        · cases h
        · rename_i k hk
          obtain ⟨r, hr⟩ := hreg hk
          exact hregular ((computeProperties_ok h).1.trans hr)
      · simp only [bind, Except.bind] at h
        split at h
        · cases h
        · rename_i k hk
          exact hmk hk h
    induction h with
    | values v eps ang a heps h =>
      unfold mkAxis at h
      cases ang
      · simp only [Bool.false_eq_true, if_false] at h
        exact hinit h
      · simp only [if_true] at h
        split at h
        · exact hinit h
        · exact hinit h
    | regular start stop num eps ang a h =>
      unfold mkAxisRegular at h
      simp only [bind, Except.bind] at h
      split at h
      · cases h
      · rename_i k hk
        obtain ⟨r, hr⟩ := hreg hk
        exact hregular ((computeProperties_ok h).1.trans hr)
    | flip a _ ih =>
      simp only [Axis.flip]
      cases hc : a.cont with
      | undefined => exact absurd hc ih.2
      | regular r => simp [Container.flip]
      | irregular l asc =>
        refine ⟨?_, by simp [Container.flip]⟩
        intro l' asc' hl'
        simp only [Container.flip, Container.irregular.injEq] at hl'
        obtain ⟨rfl, rfl⟩ := hl'
        have := (ih.1 l asc hc)
        exact (ContInv.flip (P := fun _ => True) (k := .irregular l asc) this (fun _ _ h => h))
    | pickle a b s _ hs hb ih =>
      unfold Axis.getstate at hs
      cases hc : a.cont with
      | undefined => exact absurd hc ih.2
      | regular r =>
        rw [hc] at hs
        simp only [Except.ok.injEq] at hs
        subst hs
        simp only [Axis.setstate, bind, Except.bind] at hb
        split at hb
        · cases hb
        · rename_i k hk
          obtain ⟨r, hr⟩ := hreg hk
          simp only [pure, Except.pure, Except.ok.injEq] at hb
          subst hb
          exact hregular hr
      | irregular l asc =>
        rw [hc] at hs
        simp only [Except.ok.injEq] at hs
        subst hs
        simp only [Axis.setstate, bind, Except.bind] at hb
        split at hb
        · cases hb
        · rename_i k hk
          obtain ⟨e1, e2⟩ := mkIrregular_ok hk
          simp only [pure, Except.pure, Except.ok.injEq] at hb
          subst hb
          subst e2
          have hl := ih.1 l asc hc
          have hmono : StrictlyMonotone l := by
            cases asc
            · exact Or.inr (hl.2.2 rfl)
            · exact Or.inl (hl.2.1 rfl)
          have inv := irregular_inv (P := fun _ => True) e1 ((isMonotonic_mk l).mpr hmono)
          refine ⟨?_, by simp⟩
          intro l' asc' hl'
          simp only [Container.irregular.injEq] at hl'
          obtain ⟨rfl, rfl⟩ := hl'
          exact inv
  have hk := key h
  cases hc : a.cont with
  | undefined => exact absurd hc hk.2
  | regular r => simp [Axis.isRegular, hc] at hr
  | irregular l asc => exact hk.1 l asc hc

end

/-- `Coordinates` gives back the stored list. -/
theorem coordinates_eq_contList {K : Type} [Field K] [LinearOrder K] [IsStrictOrderedRing K] [FloorRing K]
    {a : Axis K} {l : List K} (h : Reach false a) (hl : Coordinates a l) : l = contList a.cont :=
  coordinates_unique hl (reach_ok h).stores.coordinates

theorem coordinates_eq_contListI {a : Axis Int} {l : List Int} (h : ReachI a) (hl : Coordinates a l) :
    l = contList a.cont :=
  coordinates_unique hl (reachI_ok h).stores.coordinates

theorem reach_axisOk {K : Type} [Field K] [LinearOrder K] [IsStrictOrderedRing K] [FloorRing K]
    {a : Axis K} {l : List K} (h : Reach false a) (hl : Coordinates a l) : AxisOk a l := by
  rw [coordinates_eq_contList h hl]; exact reach_ok h

theorem reachI_axisOk {a : Axis Int} {l : List Int} (h : ReachI a) (hl : Coordinates a l) : AxisOk a l := by
  rw [coordinates_eq_contListI h hl]; exact reachI_ok h

end Pyinterp
