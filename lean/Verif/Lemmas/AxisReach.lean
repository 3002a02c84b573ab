import Verif.Lemmas.Axis

namespace Pyinterp
open Spec

set_option linter.unusedSectionVars false
set_option linter.unusedVariables false

section
variable {T : Type} [CommRing T] [LinearOrder T] [IsStrictOrderedRing T] [AxisNum T] [LawfulAxisNum T]

/-- Invariant of a container; `P` is the invariant of the auxiliary member. -/
def ContInv (P : RegData T → Prop) : Container T → Prop
  | .undefined => False
  | .irregular l asc => l ≠ [] ∧ (asc = true → l.Pairwise (· < ·)) ∧ (asc = false → l.Pairwise (· > ·))
  | .regular r => 0 < r.size ∧ r.step ≠ 0 ∧ (r.asc = true → 0 < r.step ∨ r.size = 1) ∧
      (r.asc = false → r.step < 0 ∨ r.size = 1) ∧ P r

/-- coordinates stored in a container -/
def contList : Container T → List T
  | .undefined => []
  | .irregular l _ => l
  | .regular r => regCoords r.start r.step r.size.toNat

theorem ContInv.stores {P : RegData T → Prop} {k : Container T} (h : ContInv P k) :
    Stores k (contList k) := by
  cases k with
  | undefined => exact h.elim
  | irregular l asc => exact irregular_stores l asc h.1 h.2.1 h.2.2
  | regular r => exact regular_stores r h.1 h.2.2.1 h.2.2.2.1

theorem ContInv.find {P : RegData T → Prop} {k : Container T} (h : ContInv P k)
    (hP : ∀ r, r.step ≠ 0 → P r → HalfStep r) : FindOk k (contList k) := by
  cases k with
  | undefined => exact h.elim
  | irregular l asc =>
    intro c b
    obtain ⟨i, h1, h2⟩ := irregular_find l asc h.1 h.2.1 h.2.2 c b
    exact ⟨i, h1, h2.imp id (fun x => x.1)⟩
  | regular r => exact regular_find r h.1 h.2.1 (hP r h.2.1 h.2.2.2.2)

theorem ContInv.flip {P : RegData T → Prop} {k : Container T} (h : ContInv P k)
    (hP : ∀ (r : RegData T) st, P r → P { r with
        start := st, step := -r.step, aux := AxisNum.flipAux r.aux, asc := !r.asc }) :
    ContInv P k.flip := by
  cases k with
  | undefined => exact h.elim
  | irregular l asc =>
    refine ⟨by simpa using h.1, ?_, ?_⟩
    · intro ha
      rw [List.pairwise_reverse]
      exact h.2.2 (by simpa using ha)
    · intro ha
      rw [List.pairwise_reverse]
      exact h.2.1 (by simpa using ha)
  | regular r =>
    refine ⟨h.1, by simpa using h.2.1, ?_, ?_, hP r _ h.2.2.2.2⟩
    · intro ha
      have := h.2.2.2.1 (by simpa using ha)
      simpa using this
    · intro ha
      have := h.2.2.1 (by simpa using ha)
      simpa using this

/-- What `compute_properties` guarantees. -/
theorem computeProperties_ok {it : Bool} {circle : Option T} {k : Container T} {eps : T} {a : Axis T}
    (h : computeProperties it circle k eps = .ok a) :
    a.cont = k ∧ a.circle = circle ∧ (a.isCircle = true → ∃ t, circle = some t) ∧
      k.isMonotonic = true ∧ k.size ≠ 0 := by
  unfold computeProperties at h
  by_cases h0 : k.size = 0
  · simp [h0] at h
  · simp only [h0, if_false] at h
    by_cases hm : k.isMonotonic = true
    · simp only [hm, Bool.not_true, Bool.false_eq_true, if_false] at h
      cases circle with
      | none =>
        simp only [pure, Except.pure, Except.ok.injEq] at h
        subst h; simp [hm, h0]
      | some ci =>
        cases k with
        | regular r =>
          simp only [pure, Except.pure, Except.ok.injEq] at h
          subst h; simp [hm, h0]
        | undefined => simp [Container.size] at h0
        | irregular l asc =>
          simp only at h
          split at h
          · split at h
            · cases h
            · simp only [pure, Except.pure, Except.ok.injEq] at h
              subst h; simp [hm, h0]
          · simp only [bind, Except.bind] at h
            split at h
            · cases h
            · split at h
              · cases h
              · split at h
                · cases h
                · split at h
                  · cases h
                  · simp only [pure, Except.pure, Except.ok.injEq] at h
                    subst h; simp [hm, h0]
    · simp [hm] at h

theorem mkIrregular_ok {l : List T} {k : Container T} (h : mkIrregular l = .ok k) :
    l ≠ [] ∧ k = .irregular l (isAscendingList l) := by
  unfold mkIrregular at h
  split at h
  · cases h
  · rename_i hl
    simp only [Except.ok.injEq] at h
    exact ⟨by rintro rfl; simp at hl, h.symm⟩

theorem irregular_inv {P : RegData T → Prop} {l : List T} (hne : l ≠ [])
    (hm : (Container.irregular l (isAscendingList l)).isMonotonic = true) :
    ContInv P (.irregular l (isAscendingList l)) := by
  rw [isMonotonic_irregular] at hm
  exact ⟨hne, hm.1, hm.2⟩

theorem ofInt360 : (AxisNum.ofInt 360 : T) = 360 := by
  rw [LawfulAxisNum.ofInt_eq]; norm_num

/-- Lift of a container invariant to a well formed axis. -/
def AxisInv (P : RegData T → Prop) (a : Axis T) : Prop :=
  ContInv P a.cont ∧ (a.circle = none ∨ a.circle = some (360 : T)) ∧
    (a.isCircle = true → a.circle = some (360 : T))

theorem AxisInv.ok {P : RegData T → Prop} {a : Axis T} (h : AxisInv P a)
    (hP : ∀ r, r.step ≠ 0 → P r → HalfStep r) : AxisOk a (contList a.cont) :=
  ⟨h.1.stores, h.1.find hP, h.2.1, h.2.2⟩

theorem axisInv_of_compute {P : RegData T → Prop} {it : Bool} {ang : Bool} {k : Container T} {eps : T}
    {a : Axis T} (hk : k.isMonotonic = true → ContInv P k)
    (h : computeProperties it (if ang then some (AxisNum.ofInt 360) else none) k eps = .ok a) :
    AxisInv P a := by
  obtain ⟨h1, h2, h3, h4, h5⟩ := computeProperties_ok h
  refine ⟨h1 ▸ hk h4, ?_, ?_⟩
  · rw [h2]; cases ang
    · simp
    · simp [ofInt360]
  · intro hc
    obtain ⟨t, ht⟩ := h3 hc
    rw [h2]; cases ang
    · simp at ht
    · simp [ofInt360]

theorem initializeFromValues_inv {P : RegData T → Prop} {it ang : Bool} {v : List T} {eps : T}
    {a : Axis T}
    (hreg : ∀ inc x y k, isEvenlySpaced v eps = some inc → v = x :: y →
      mkRegular x (y.getLastD x) v.length = .ok k → ContInv P k)
    (h : initializeFromValues it (if ang then some (AxisNum.ofInt 360) else none) v eps = .ok a) :
    AxisInv P a := by
  unfold initializeFromValues at h
  have hirr : ∀ k, mkIrregular v = .ok k → k.isMonotonic = true → ContInv P k := by
    intro k hk hm
    obtain ⟨h1, h2⟩ := mkIrregular_ok hk
    subst h2
    exact irregular_inv h1 hm
  split at h
  · rename_i inc x y he
    simp only [bind, Except.bind] at h
    split at h
    · cases h
    · rename_i k hk
      exact axisInv_of_compute (fun _ => hreg inc _ _ k he rfl hk) h
  · simp only [bind, Except.bind] at h
    split at h
    · cases h
    · rename_i k hk
      exact axisInv_of_compute (hirr k hk) h

theorem mkAxis_inv {P : RegData T → Prop} {it ang : Bool} {v : List T} {eps : T} {a : Axis T}
    (hreg : ∀ v inc x y k, isEvenlySpaced v eps = some inc → v = x :: y →
      mkRegular x (y.getLastD x) v.length = .ok k → ContInv P k)
    (h : mkAxis it v eps ang = .ok a) : AxisInv P a := by
  unfold mkAxis at h
  cases ang
  · simp only [Bool.false_eq_true, if_false] at h
    exact initializeFromValues_inv (ang := false) (hreg v) (by simpa using h)
  · simp only [if_true] at h
    split at h
    · exact initializeFromValues_inv (ang := true) (hreg _) (by simpa using h)
    · exact initializeFromValues_inv (ang := true) (hreg v) (by simpa using h)

end

section
variable {K : Type} [Field K] [LinearOrder K] [IsStrictOrderedRing K] [FloorRing K]

/-- floating point: `inv_step_` is the inverse of the step -/
def AuxF (r : RegData K) : Prop := r.aux = 1 / r.step

theorem mkRegular_float {start stop : K} {num : Int} {k : Container K}
    (h : mkRegular start stop num = .ok k) : ContInv AuxF k ∧
      ∃ r, k = .regular r ∧ r.size = num ∧ r.start = start ∧
        r.step = (if num = 1 then stop - start else (stop - start) / ((num - 1 : Int) : K)) ∧
        r.asc = (if num < 2 then true else decide (0 < r.step)) := by
  unfold mkRegular at h
  split at h
  · cases h
  · split at h
    · cases h
    · split at h
      · cases h
      · rename_i h1 h2 h3
        simp only [Except.ok.injEq] at h
        have hne : stop - start ≠ 0 := sub_ne_zero.mpr (fun h => h3 h.symm)
        have hstep : (if num = 1 then stop - start else (stop - start) / ((num - 1 : Int) : K)) ≠ 0 := by
          split
          · exact hne
          · rename_i h4
            refine div_ne_zero hne ?_
            have : num - 1 ≠ 0 := by omega
            exact_mod_cast this
        subst h
        have hasc : ∀ s : K, decide (start + AxisNum.mulInt 0 s < start + AxisNum.mulInt 1 s) = decide (0 < s) := by
          intro s
          simp only [AxisNum.mulInt]
          congr 1
          simp
        refine ⟨⟨by simp only; omega, hstep, ?_, ?_, rfl⟩, _, rfl, rfl, rfl, rfl, ?_⟩
        · simp only
          split
          · intro _; right; omega
          · rw [hasc]; intro hh; left; simpa [AxisNum.divInt] using hh
        · simp only
          split
          · intro hh; cases hh
          · rw [hasc]; intro hh; left
            simp only [decide_eq_false_iff_not, not_lt] at hh
            exact lt_of_le_of_ne hh hstep
        · simp only
          split
          · rfl
          · rw [hasc]

theorem setstate_inv {P : RegData K → Prop} {s : AxisState K} {b : Axis K}
    (hirr : ∀ l c, s = .irregular l c → StrictlyMonotone l)
    (hund : s ≠ .undefined)
    (hreg : ∀ x y n k, mkRegular x y n = .ok k → ContInv P k)
    (h : Axis.setstate s = .ok b) : AxisInv P b := by
  cases s with
  | undefined => exact absurd rfl hund
  | irregular l c =>
    simp only [Axis.setstate, bind, Except.bind] at h
    split at h
    · cases h
    · rename_i k hk
      obtain ⟨h1, h2⟩ := mkIrregular_ok hk
      simp only [pure, Except.pure, Except.ok.injEq] at h
      subst h
      subst h2
      refine ⟨irregular_inv h1 ((isMonotonic_mk l).mpr (hirr l c rfl)), ?_, ?_⟩
      · cases c <;> simp [ofInt360]
      · intro hc; simp only at hc; simp [hc, ofInt360]
  | regular x y n c =>
    simp only [Axis.setstate, bind, Except.bind] at h
    split at h
    · cases h
    · rename_i k hk
      simp only [pure, Except.pure, Except.ok.injEq] at h
      subst h
      refine ⟨hreg _ _ _ _ hk, ?_, ?_⟩
      · cases c <;> simp [ofInt360]
      · intro hc; simp only at hc; simp [hc, ofInt360]

/-- Every floating point axis that a program can hold satisfies the invariant. -/
theorem reach_inv {a : Axis K} (h : Reach false a) : AxisInv AuxF a := by
  induction h with
  | values v eps ang a heps h =>
    exact mkAxis_inv (fun _ _ _ _ k _ _ hk => (mkRegular_float hk).1) h
  | regular start stop num eps ang a h =>
    unfold mkAxisRegular at h
    simp only [bind, Except.bind] at h
    split at h
    · cases h
    · rename_i k hk
      exact axisInv_of_compute (fun _ => (mkRegular_float hk).1) h
  | flip a _ ih =>
    refine ⟨ih.1.flip ?_, ih.2.1, ih.2.2⟩
    intro r st hr
    simp only [AuxF, AxisNum.flipAux] at hr ⊢
    rw [hr, one_div, one_div, inv_neg]
  | pickle a b s _ hs hb ih =>
    unfold Axis.getstate at hs
    have hc := ih.1
    refine setstate_inv ?_ ?_ (fun _ _ _ k hk => (mkRegular_float hk).1) hb
    · intro l c hl
      subst hl
      cases hcont : a.cont with
      | undefined => rw [hcont] at hs; cases hs
      | regular r => rw [hcont] at hs; cases hs
      | irregular p asc =>
        rw [hcont] at hs hc
        simp only [Except.ok.injEq, AxisState.irregular.injEq] at hs
        rw [← hs.1]
        cases asc
        · exact Or.inr (hc.2.2 rfl)
        · exact Or.inl (hc.2.1 rfl)
    · intro hu
      subst hu
      cases hcont : a.cont with
      | undefined => rw [hcont] at hc; exact hc
      | regular r => rw [hcont] at hs; cases hs
      | irregular p asc => rw [hcont] at hs; cases hs

theorem reach_ok {a : Axis K} (h : Reach false a) : AxisOk a (contList a.cont) :=
  (reach_inv h).ok (fun r hs hr => halfStep_float r hs hr)

end

/-! ### Integral axes -/

/-- integral: `step_2_` is half of the absolute value of the step -/
def AuxI (r : RegData Int) : Prop := r.aux = |r.step| / 2

/-- what holds of every integral axis built from values -/
def AuxW (r : RegData Int) : Prop := r.aux = r.step / 2

theorem mkRegular_int {v : List Int} {eps inc x : Int} {y : List Int} {k : Container Int} (he : 0 ≤ eps)
    (hs : isEvenlySpaced v eps = some inc) (hv : v = x :: y)
    (h : mkRegular x (y.getLastD x) v.length = .ok k) : ContInv AuxW k := by
  subst hv
  unfold isEvenlySpaced at hs
  cases y with
  | nil => simp at hs
  | cons y ys =>
    simp only at hs
    split at hs
    · cases hs
    · rename_i hinc
      unfold mkRegular at h
      split at h
      · cases h
      · split at h
        · cases h
        · split at h
          · cases h
          · have hl : ¬ (((x :: y :: ys).length : Int) = 1) := by simp only [List.length_cons]; omega
            have hl2 : ¬ (((x :: y :: ys).length : Int) < 2) := by simp only [List.length_cons]; omega
            simp only [hl, hl2, if_false, Except.ok.injEq] at h
            subst h
            generalize hstep : AxisNum.divInt ((y :: ys).getLastD x - x) (((x :: y :: ys).length : Int) - 1) = st at *
            have hst : st ≠ 0 := by
              rintro rfl
              simp only [fabs] at hinc
              omega
            refine ⟨by simp only; omega, hst, ?_, ?_, rfl⟩
            · simp only [AxisNum.mulInt]; intro hh; left; simp at hh; omega
            · simp only [AxisNum.mulInt]; intro hh; left; simp at hh; omega

theorem reachI_inv {a : Axis Int} (h : ReachI a) : AxisInv AuxI a := by
  induction h with
  | values v eps ang a heps h hasc =>
    have hw : AxisInv AuxW a := mkAxis_inv (fun _ _ _ _ k h1 h2 hk => mkRegular_int heps h1 h2 hk) h
    refine ⟨?_, hw.2⟩
    have hc := hw.1
    cases hcont : a.cont with
    | undefined => rw [hcont] at hc; exact hc
    | irregular l asc => rw [hcont] at hc; exact hc
    | regular r =>
      rw [hcont] at hc
      have ha : r.asc = true := by
        have := hasc (by simp [Axis.isRegular, hcont])
        simpa [hcont, Container.isAscending] using this
      refine ⟨hc.1, hc.2.1, hc.2.2.1, hc.2.2.2.1, ?_⟩
      have haux : r.aux = r.step / 2 := hc.2.2.2.2
      have hstep : 0 < r.step := by
        rcases hc.2.2.1 ha with h1 | h1
        · exact h1
        · -- size 1: excluded, a regular axis built from values has two values at least
          exfalso
          have key : AxisInv (fun r : RegData Int => r.size ≠ 1) a := by
            refine mkAxis_inv ?_ h
            intro v inc x y k h1 h2 hk
            subst h2
            cases y with
            | nil => simp [isEvenlySpaced] at h1
            | cons y ys =>
              have hw' := mkRegular_int heps h1 rfl hk
              unfold mkRegular at hk
              split at hk
              · cases hk
              · split at hk
                · cases hk
                · split at hk
                  · cases hk
                  · simp only [Except.ok.injEq] at hk
                    subst hk
                    exact ⟨hw'.1, hw'.2.1, hw'.2.2.1, hw'.2.2.2.1, by simp only [List.length_cons]; omega⟩
          have := key.1
          rw [hcont] at this
          exact this.2.2.2.2 h1
      unfold AuxI
      rw [abs_of_pos hstep]; exact haux
  | flip a _ ih =>
    refine ⟨ih.1.flip ?_, ih.2.1, ih.2.2⟩
    intro r st hr
    simp only [AuxI, AxisNum.flipAux] at hr ⊢
    rw [hr, abs_neg]

theorem reachI_ok {a : Axis Int} (h : ReachI a) : AxisOk a (contList a.cont) :=
  (reachI_inv h).ok (fun r hs hr => halfStep_int r hs hr)

end Pyinterp
