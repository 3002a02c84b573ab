import Verif.Spec.GridPy
import Verif.Props.C08_FlipPickle
import Verif.Props.C47_Grid2D
import Verif.Lemmas.Grid34
import Mathlib.Data.List.GetD

namespace Pyinterp.GridPy
open Pyinterp Variate Pyinterp.Spec Pyinterp.Spec.GridPy
set_option linter.unusedSectionVars false
set_option linter.unusedVariables false

theorem bind_inv {α β : Type} {x : Out α} {f : α → Out β} {b : β} (h : (x >>= f) = .ok b) :
    ∃ a, x = .ok a ∧ f a = .ok b := by
  cases x with
  | error e => cases h
  | ok a => exact ⟨a, rfl, h⟩

section
variable {T : Type} [CommRing T] [LinearOrder T] [IsStrictOrderedRing T] [AxisNum T] [LawfulAxisNum T]

/-- no condition on the auxiliary member -/
abbrev Tr : RegData T → Prop := fun _ => True

theorem ContInv.mono {P Q : RegData T → Prop} (hPQ : ∀ r, P r → Q r) {k : Container T} (h : ContInv P k) :
    ContInv Q k := by
  cases k with
  | undefined => exact h
  | irregular l asc => exact h
  | regular r => exact ⟨h.1, h.2.1, h.2.2.1, h.2.2.2.1, hPQ r h.2.2.2.2⟩

/-- Rebuilding an axis from its state keeps the coordinates. -/
theorem copy_ok (hdiv : ∀ (n : Int) (s : T), n ≠ 0 → (AxisNum.divInt ((n : T) * s) n : T) = s)
    {a b : Axis T} {s : AxisState T} (h : ContInv Tr a.cont) (hs : a.getstate = .ok s)
    (hb : Axis.setstate s = .ok b) : ContInv Tr b.cont ∧ contList b.cont = contList a.cont := by
  unfold Axis.getstate at hs
  cases hc : a.cont with
  | undefined => rw [hc] at h; exact h.elim
  | irregular l asc =>
    rw [hc] at h hs
    simp only [Except.ok.injEq] at hs
    subst hs
    simp only [Axis.setstate, bind, Except.bind] at hb
    split at hb
    · cases hb
    · rename_i k hk
      obtain ⟨h1, h2⟩ := mkIrregular_ok hk
      simp only [pure, Except.pure, Except.ok.injEq] at hb
      subst hb; subst h2
      refine ⟨irregular_inv h1 ((isMonotonic_mk l).mpr ?_), rfl⟩
      cases asc
      · exact Or.inr (h.2.2 rfl)
      · exact Or.inl (h.2.1 rfl)
  | regular r =>
    rw [hc] at h hs
    simp only [Except.ok.injEq] at hs
    subst hs
    simp only [Axis.setstate, bind, Except.bind] at hb
    split at hb
    · cases hb
    · rename_i k hk
      simp only [pure, Except.pure, Except.ok.injEq] at hb
      subst hb
      obtain ⟨n0, s0, a1, a2, -⟩ := h
      unfold mkRegular at hk
      split at hk
      · cases hk
      split at hk
      · cases hk
      split at hk
      · cases hk
      rename_i hne
      have hn1 : r.size ≠ 1 := by
        intro h1
        apply hne
        rw [h1]
        simp [LawfulAxisNum.mulInt_eq]
      have hn2 : ¬ (r.size < 2) := by omega
      have hstep : (AxisNum.divInt (r.start + AxisNum.mulInt (r.size - 1) r.step - r.start) (r.size - 1) : T)
          = r.step := by
        rw [LawfulAxisNum.mulInt_eq, add_sub_cancel_left]
        exact hdiv _ _ (by omega)
      simp only [hn1, hn2, if_false, hstep, Except.ok.injEq] at hk
      subst hk
      refine ⟨⟨n0, s0, ?_, ?_, trivial⟩, rfl⟩
      · simp only [LawfulAxisNum.mulInt_eq]
        intro hh
        left
        simpa using hh
      · simp only [LawfulAxisNum.mulInt_eq]
        intro hh
        left
        simp only [decide_eq_false_iff_not, not_lt] at hh
        have : r.step ≤ 0 := by simpa using hh
        exact lt_of_le_of_ne this s0

end

theorem div_int (n : Int) (s : Int) (hn : n ≠ 0) : (AxisNum.divInt (((n : Int) : Int) * s) n : Int) = s := by
  show Int.tdiv (n * s) n = s
  exact Int.mul_tdiv_cancel_left s hn

theorem timeReach_inv {a : Axis Int} (h : TimeReach a) : ContInv Tr a.cont := by
  induction h with
  | values v a h =>
    exact ContInv.mono (fun _ _ => trivial)
      (mkAxis_inv (P := AuxW) (fun _ _ _ _ k h1 h2 hk => mkRegular_int (le_refl 0) h1 h2 hk) h).1
  | flip a _ ih => exact ContInv.flip ih (fun _ _ _ => trivial)
  | pickle a b s _ hs hb ih => exact (copy_ok div_int ih hs hb).1

section
variable {K : Type} [Field K] [LinearOrder K] [IsStrictOrderedRing K] [FloorRing K]

theorem div_field (n : Int) (s : K) (hn : n ≠ 0) : (AxisNum.divInt ((n : K) * s) n : K) = s := by
  show (n : K) * s / (n : K) = s
  have : (n : K) ≠ 0 := by exact_mod_cast hn
  field_simp

/-- the coordinates of an axis object -/
def coordsL : AxisObj K → List (K ⊕ Int)
  | .float a => (contList a.cont).map .inl
  | .time a => (contList a.cont).map .inr

def OInv : AxisObj K → Prop
  | .float a => ContInv Tr a.cont
  | .time a => ContInv Tr a.cont

theorem held_inv {o : AxisObj K} (h : Held o) : OInv o := by
  cases o with
  | float a => exact ContInv.mono (fun _ _ => trivial) (reach_inv h).1
  | time a => exact timeReach_inv h

theorem size_coords {o : AxisObj K} (h : OInv o) : o.size = (coordsL o).length := by
  cases o with
  | float a => simpa [coordsL, AxisObj.size] using (ContInv.stores h).coordinates.1
  | time a => simpa [coordsL, AxisObj.size] using (ContInv.stores h).coordinates.1

theorem item_coords {o : AxisObj K} (h : OInv o) (i : Nat) (hi : i < (coordsL o).length) :
    o.item i = .ok (coordsL o)[i] := by
  cases o with
  | float a =>
    simp only [coordsL, List.length_map] at hi
    have := (ContInv.stores h).coordinates.2 i hi
    simp [AxisObj.item, this, coordsL, bind, Except.bind, pure, Except.pure]
  | time a =>
    simp only [coordsL, List.length_map] at hi
    have := (ContInv.stores h).coordinates.2 i hi
    simp [AxisObj.item, this, coordsL, bind, Except.bind, pure, Except.pure]

theorem flip_coords {o : AxisObj K} (h : OInv o) : OInv o.flip ∧ coordsL o.flip = (coordsL o).reverse := by
  cases o with
  | float a =>
    refine ⟨ContInv.flip h (fun _ _ _ => trivial), ?_⟩
    have := contList_flip h
    simp only [AxisObj.flip, coordsL, ← List.map_reverse]
    exact congrArg _ this
  | time a =>
    refine ⟨ContInv.flip h (fun _ _ _ => trivial), ?_⟩
    have := contList_flip h
    simp only [AxisObj.flip, coordsL, ← List.map_reverse]
    exact congrArg _ this

theorem copy_coords {o b : AxisObj K} (h : OInv o) (hb : o.copy = .ok b) : OInv b ∧ coordsL b = coordsL o := by
  cases o with
  | float a =>
    simp only [AxisObj.copy] at hb
    obtain ⟨s, hs, hb⟩ := bind_inv hb
    obtain ⟨c, hc, hb⟩ := bind_inv hb
    cases hb
    obtain ⟨h1, h2⟩ := copy_ok div_field h hs hc
    exact ⟨h1, by simp [coordsL, h2]⟩
  | time a =>
    simp only [AxisObj.copy] at hb
    obtain ⟨s, hs, hb⟩ := bind_inv hb
    obtain ⟨c, hc, hb⟩ := bind_inv hb
    cases hb
    obtain ⟨h1, h2⟩ := copy_ok div_int h hs hc
    exact ⟨h1, by simp [coordsL, h2]⟩

/-- strictly increasing coordinates -/
def Incr : AxisObj K → Prop
  | .float a => (contList a.cont).Pairwise (· < ·)
  | .time a => (contList a.cont).Pairwise (· < ·)

theorem incr_asc {o : AxisObj K} (h : OInv o) (ha : o.isAscending = true) : Incr o := by
  cases o with
  | float a => exact (ContInv.stores h).asc ha
  | time a => exact (ContInv.stores h).asc ha

theorem incr_of_reverse {o p : AxisObj K} (h : OInv o) (ha : o.isAscending = false)
    (hp : coordsL p = (coordsL o).reverse) : Incr p := by
  have inj1 : Function.Injective (Sum.inl : K → K ⊕ Int) := Sum.inl_injective
  have inj2 : Function.Injective (Sum.inr : Int → K ⊕ Int) := Sum.inr_injective
  cases o with
  | float a =>
    have hd := (ContInv.stores h).desc ha
    cases p with
    | float b =>
      simp only [coordsL, ← List.map_reverse] at hp
      have := List.map_injective_iff.mpr inj1 hp
      show (contList b.cont).Pairwise _
      rw [this, List.pairwise_reverse]
      exact hd
    | time b =>
      simp only [coordsL, ← List.map_reverse] at hp
      have hl : (contList b.cont) = [] := by
        cases hb : contList b.cont with
        | nil => rfl
        | cons x xs =>
          rw [hb] at hp
          cases hr : (contList a.cont).reverse with
          | nil => rw [hr] at hp; cases hp
          | cons y ys => rw [hr] at hp; simp at hp
      show (contList b.cont).Pairwise _
      rw [hl]; exact List.Pairwise.nil
  | time a =>
    have hd := (ContInv.stores h).desc ha
    cases p with
    | time b =>
      simp only [coordsL, ← List.map_reverse] at hp
      have := List.map_injective_iff.mpr inj2 hp
      show (contList b.cont).Pairwise _
      rw [this, List.pairwise_reverse]
      exact hd
    | float b =>
      simp only [coordsL, ← List.map_reverse] at hp
      have hl : (contList b.cont) = [] := by
        cases hb : contList b.cont with
        | nil => rfl
        | cons x xs =>
          rw [hb] at hp
          cases hr : (contList a.cont).reverse with
          | nil => rw [hr] at hp; cases hp
          | cons y ys => rw [hr] at hp; simp at hp
      show (contList b.cont).Pairwise _
      rw [hl]; exact List.Pairwise.nil

theorem incr_increasing {o : AxisObj K} (h : OInv o) (hi : Incr o) : Increasing o := by
  cases o with
  | float a => exact ⟨_, (ContInv.stores h).coordinates, hi⟩
  | time a => exact ⟨_, (ContInv.stores h).coordinates, hi⟩

/-! ### references -/

theorem rd_ok {α : Type} {l : List α} {i : Nat} {v : α} : rd l (i : Int) = .ok v ↔ l[i]? = some v := by
  unfold rd
  rw [if_neg (by omega)]
  simp only [Int.toNat_natCast]
  cases l[i]? <;> simp

theorem deref_iff (heap : List (AxisObj K)) (refs : List Nat) (axes : List (AxisObj K)) :
    deref heap refs = .ok axes ↔
      axes.length = refs.length ∧ ∀ k (hk : k < refs.length), heap[refs[k]]? = axes[k]? := by
  induction refs generalizing axes with
  | nil =>
    simp only [deref, Except.ok.injEq]
    constructor
    · rintro rfl; simp
    · rintro ⟨h, -⟩
      exact (List.length_eq_zero_iff.mp (by simpa using h)).symm
  | cons r refs ih =>
    simp only [deref]
    constructor
    · intro h
      obtain ⟨a, ha, h⟩ := bind_inv h
      obtain ⟨rest, hr, h⟩ := bind_inv h
      cases h
      obtain ⟨h1, h2⟩ := (ih rest).mp hr
      refine ⟨by simp [h1], ?_⟩
      intro k hk
      cases k with
      | zero => simpa using rd_ok.mp ha
      | succ k => simpa using h2 k (by simpa using hk)
    · rintro ⟨h1, h2⟩
      cases axes with
      | nil => simp at h1
      | cons a axes =>
        have h0 := h2 0 (by simp)
        simp only [List.getElem_cons_zero, List.getElem?_cons_zero] at h0
        have ha : rd heap (r : Int) = .ok a := rd_ok.mpr h0
        have hr : deref heap refs = .ok axes := by
          refine (ih axes).mpr ⟨by simpa using h1, ?_⟩
          intro k hk
          exact h2 (k + 1) (by simpa using hk)
        simp [ha, hr, bind, Except.bind, pure, Except.pure]

/-- What one iteration of the loop does. -/
theorem flipStep_spec {inplace : Bool} {st st' : Args K} {k : Nat} {axes : List (AxisObj K)}
    (h : flipStep inplace st k = .ok st') (hd : deref st.heap st.refs = .ok axes)
    (hv : ∀ r ∈ st.refs, r < st.heap.length) (hn : inplace = true → st.refs.Nodup)
    (hi : ∀ a ∈ axes, OInv a) :
    ∃ o o', axes[k]? = some o ∧ deref st'.heap st'.refs = .ok (axes.set k o') ∧
      (∀ r ∈ st'.refs, r < st'.heap.length) ∧ (inplace = true → st'.refs = st.refs) ∧
      (inplace = false → ∃ more, st'.heap = st.heap ++ more) ∧ OInv o' ∧
      (inplace = true → o.isAscending = false → o' = o.flip) ∧
      (o.isAscending = true → o' = o ∧ st' = st) ∧
      (o.isAscending = false → coordsL o' = (coordsL o).reverse ∧ npFlip st.arr k = .ok st'.arr) := by
  obtain ⟨hl, hg⟩ := (deref_iff _ _ _).mp hd
  unfold flipStep at h
  obtain ⟨ref, hr, h⟩ := bind_inv h
  obtain ⟨item, hit, h⟩ := bind_inv h
  have hr' := rd_ok.mp hr
  have hit' := rd_ok.mp hit
  obtain ⟨hk, hrk⟩ := List.getElem?_eq_some_iff.mp hr'
  have hax : axes[k]? = some item := by
    rw [← hg k hk, hrk]; exact hit'
  have hOI : OInv item := hi item (List.mem_of_getElem? hax)
  have hka : k < axes.length := by omega
  split at h
  · rename_i hasc
    cases h
    refine ⟨item, item, hax, ?_, hv, fun _ => rfl, fun _ => ⟨[], by simp⟩, hOI, ?_, fun _ => ⟨rfl, rfl⟩, ?_⟩
    · have : axes.set k item = axes := by
        apply List.ext_getElem?
        intro j
        rw [List.getElem?_set]
        by_cases hkj : k = j
        · rw [if_pos hkj, if_pos hka, ← hkj, hax]
        · rw [if_neg hkj]
      rw [this]; exact hd
    · intro _ hf; rw [hasc] at hf; cases hf
    · intro hf; rw [hasc] at hf; cases hf
  · rename_i hasc
    split at h
    · rename_i hinp
      obtain ⟨arr, harr, h⟩ := bind_inv h
      cases h
      refine ⟨item, item.flip, hax, ?_, ?_, fun _ => rfl, ?_, (flip_coords hOI).1, fun _ _ => rfl, ?_, ?_⟩
      · refine (deref_iff _ _ _).mpr ⟨by simp [hl], ?_⟩
        intro j hj
        simp only at hj ⊢
        have hrefl : ref < st.heap.length := hv _ (List.mem_of_getElem? hr')
        by_cases hjk : j = k
        · subst hjk
          rw [List.getElem?_set, List.getElem?_set, if_pos hrk.symm, if_pos rfl, if_pos hrefl, if_pos hka]
        · rw [List.getElem?_set, List.getElem?_set, if_neg, if_neg (fun h => hjk h.symm)]
          · exact hg j hj
          · intro hh
            rw [← hrk] at hh
            exact hjk (((List.Nodup.getElem_inj_iff (hn hinp)).mp hh).symm)
      · intro r hr
        simpa using hv r hr
      · intro hf; rw [hinp] at hf; cases hf
      · intro hf; exact absurd hf hasc
      · intro _; exact ⟨(flip_coords hOI).2, harr⟩
    · rename_i hinp
      obtain ⟨c, hc, h⟩ := bind_inv h
      obtain ⟨arr, harr, h⟩ := bind_inv h
      cases h
      obtain ⟨c1, c2⟩ := copy_coords hOI hc
      obtain ⟨f1, f2⟩ := flip_coords c1
      refine ⟨item, c.flip, hax, ?_, ?_, fun hh => absurd hh hinp, fun _ => ⟨_, rfl⟩, f1,
        fun hh => absurd hh hinp, fun hf => absurd hf hasc, fun _ => ⟨by rw [f2, c2], harr⟩⟩
      · refine (deref_iff _ _ _).mpr ⟨by simp [hl], ?_⟩
        intro j hj
        simp only [List.length_set] at hj ⊢
        by_cases hjk : j = k
        · subst hjk
          rw [List.getElem_set_self, List.getElem?_set, if_pos rfl, if_pos hka]
          simp
        · rw [List.getElem_set_ne (fun h => hjk h.symm), List.getElem?_set, if_neg (fun h => hjk h.symm), ← hg j hj]
          rw [List.getElem?_append_left]
          exact hv _ (List.getElem_mem hj)
      · intro r hr
        simp only at hr ⊢
        have := List.mem_or_eq_of_mem_set hr
        rcases this with h1 | h1
        · have := hv r h1; simp; omega
        · simp [h1]

/-- mirror along the first `n` axes -/
def mirrorTo (axes : List (AxisObj K)) (shape : List Nat) (n : Nat) (i : List Nat) : List Nat :=
  i.mapIdx fun k j =>
    if k < n then
      match axes[k]? with
      | some a => if a.isAscending then j else shape.getD k 0 - 1 - j
      | none => j
    else j

theorem npFlip_ok {a b : Arr K} {k : Nat} (h : npFlip a k = .ok b) :
    k < a.shape.length ∧ b.shape = a.shape ∧
      ∀ i, b.at' i = a.at' (i.modify k fun j => a.shape.getD k 0 - 1 - j) := by
  unfold npFlip at h
  split at h
  · cases h
  · rename_i n hn
    cases h
    obtain ⟨h1, h2⟩ := List.getElem?_eq_some_iff.mp hn
    refine ⟨h1, rfl, ?_⟩
    intro i
    simp only [List.getD_eq_getElem?_getD, hn, Option.getD_some]

theorem flipUpTo_spec {inplace : Bool} {st : Args K} {axes : List (AxisObj K)}
    (hd : deref st.heap st.refs = .ok axes)
    (hv : ∀ r ∈ st.refs, r < st.heap.length) (hn : inplace = true → st.refs.Nodup)
    (hi : ∀ a ∈ axes, OInv a) (n : Nat) (hnr : n ≤ st.refs.length) {st' : Args K}
    (h : flipUpTo inplace st n = .ok st') :
    ∃ axes', deref st'.heap st'.refs = .ok axes' ∧ axes'.length = axes.length ∧
      (∀ r ∈ st'.refs, r < st'.heap.length) ∧ (inplace = true → st'.refs = st.refs) ∧
      (inplace = false → ∃ more, st'.heap = st.heap ++ more) ∧ (∀ a ∈ axes', OInv a) ∧
      st'.arr.shape = st.arr.shape ∧
      (∀ i, st'.arr.at' i = st.arr.at' (mirrorTo axes st.arr.shape n i)) ∧
      (∀ k, n ≤ k → axes'[k]? = axes[k]?) ∧
      (∀ k o, k < n → axes[k]? = some o → ∃ o', axes'[k]? = some o' ∧ (o.isAscending = true → o' = o) ∧
        (o.isAscending = false → coordsL o' = (coordsL o).reverse) ∧
        (inplace = true → o.isAscending = false → o' = o.flip)) := by
  induction n generalizing st' with
  | zero =>
    cases h
    refine ⟨axes, hd, rfl, hv, fun _ => rfl, fun _ => ⟨[], by simp⟩, hi, rfl, ?_, fun _ _ => rfl, ?_⟩
    · intro i
      congr 1
      apply List.ext_getElem <;> simp [mirrorTo]
    · intro k o hk; omega
  | succ n ih =>
    simp only [flipUpTo] at h
    obtain ⟨s1, hs1, h⟩ := bind_inv h
    obtain ⟨ax1, d1, l1, v1, r1, hp1, i1, sh1, at1, ge1, lt1⟩ := ih (by omega) hs1
    obtain ⟨o, o', ho, d2, v2, r2, hp2, i2, fl2, asc2, desc2⟩ :=
      flipStep_spec h d1 v1 (fun hh => by rw [r1 hh]; exact hn hh) i1
    have hon : axes[n]? = some o := by rw [← ge1 n le_rfl]; exact ho
    refine ⟨ax1.set n o', d2, by simp [l1], v2, fun hh => (r2 hh).trans (r1 hh), ?_, ?_, ?_, ?_, ?_, ?_⟩
    · intro hh
      obtain ⟨m1, e1⟩ := hp1 hh
      obtain ⟨m2, e2⟩ := hp2 hh
      exact ⟨m1 ++ m2, by rw [e2, e1, List.append_assoc]⟩
    · intro a ha
      rcases List.mem_or_eq_of_mem_set ha with h1 | h1
      · exact i1 a h1
      · exact h1 ▸ i2
    · cases hasc : o.isAscending
      · rw [(npFlip_ok (desc2 hasc).2).2.1, sh1]
      · rw [(asc2 hasc).2, sh1]
    · intro i
      cases hasc : o.isAscending
      · rw [(npFlip_ok (desc2 hasc).2).2.2, at1]
        congr 1
        apply List.ext_getElem
        · simp [mirrorTo]
        · intro k hk1 hk2
          simp only [mirrorTo, List.getElem_mapIdx, List.getElem_modify, sh1]
          by_cases hkn : k = n
          · subst hkn
            simp [hon, hasc]
          · have hkn' : n ≠ k := fun h => hkn h.symm
            by_cases hlt : k < n
            · have : k < n + 1 := by omega
              simp [hlt, hkn', this]
            · have : ¬ k < n + 1 := by omega
              simp [hlt, hkn', this]
      · rw [(asc2 hasc).2, at1]
        congr 1
        apply List.ext_getElem
        · simp [mirrorTo]
        · intro k hk1 hk2
          simp only [mirrorTo, List.getElem_mapIdx]
          by_cases hkn : k = n
          · subst hkn
            rw [if_neg (by omega), if_pos (by omega), hon]
            simp [hasc]
          · by_cases hlt : k < n
            · rw [if_pos hlt, if_pos (by omega)]
            · rw [if_neg hlt, if_neg (by omega)]
    · intro k hk
      rw [List.getElem?_set, if_neg (by omega)]
      exact ge1 k (by omega)
    · intro k p hk hp
      by_cases hkn : k = n
      · subst hkn
        rw [hon] at hp
        cases hp
        refine ⟨o', ?_, fun ha => (asc2 ha).1, fun ha => (desc2 ha).1, fl2⟩
        have : k < ax1.length := by
          rw [l1]; exact (List.getElem?_eq_some_iff.mp hon).1
        rw [List.getElem?_set, if_pos rfl, if_pos this]
      · obtain ⟨p', e1, e2, e3⟩ := lt1 k p (by omega) hp
        refine ⟨p', ?_, e2, e3⟩
        rw [List.getElem?_set, if_neg (fun h => hkn h.symm)]
        exact e1

/-- The object of `core` has as many nodes along each axis as the array. -/
theorem construct_shape {dims : Nat} {axes : List (AxisObj K)} {arr : Arr K} {g : GridObj K}
    (h : construct dims axes arr = .ok g) :
    axes.length = dims ∧ arr.shape.length = dims ∧
      ∀ (k : Nat) (o : AxisObj K) (n : Nat), axes[k]? = some o → arr.shape[k]? = some n → o.size = n := by
  unfold construct at h
  split at h
  · obtain ⟨g', hg, h⟩ := bind_inv h
    obtain ⟨-, -, -, -, nx, ny, e, h1, h2⟩ := mkGrid2D_ok hg
    refine ⟨rfl, by simp [e], ?_⟩
    rw [e]
    rintro (_ | _ | k) o n ho hn <;> simp at ho hn
    · subst ho; subst hn; exact h1
    · subst ho; subst hn; exact h2
  · obtain ⟨g', hg, h⟩ := bind_inv h
    obtain ⟨-, -, -, -, -, -, nx, ny, nz, e, h1, h2, h3⟩ := mkGrid3D_ok hg
    refine ⟨rfl, by simp [e], ?_⟩
    rw [e]
    rintro (_ | _ | _ | k) o n ho hn <;> simp at ho hn
    · subst ho; subst hn; exact h1
    · subst ho; subst hn; exact h2
    · subst ho; subst hn; exact h3
  · obtain ⟨g', hg, h⟩ := bind_inv h
    obtain ⟨-, -, -, -, -, -, nx, ny, nz, e, h1, h2, h3⟩ := mkGrid3D_ok hg
    refine ⟨rfl, by simp [e], ?_⟩
    rw [e]
    rintro (_ | _ | _ | k) o n ho hn <;> simp at ho hn
    · subst ho; subst hn; exact h1
    · subst ho; subst hn; exact h2
    · subst ho; subst hn; exact h3
  · obtain ⟨g', hg, h⟩ := bind_inv h
    obtain ⟨-, -, -, -, -, -, -, -, nx, ny, nz, nu, e, h1, h2, h3, h4⟩ := mkGrid4D_ok hg
    refine ⟨rfl, by simp [e], ?_⟩
    rw [e]
    rintro (_ | _ | _ | _ | k) o n ho hn <;> simp at ho hn
    · subst ho; subst hn; exact h1
    · subst ho; subst hn; exact h2
    · subst ho; subst hn; exact h3
    · subst ho; subst hn; exact h4
  · obtain ⟨g', hg, h⟩ := bind_inv h
    obtain ⟨-, -, -, -, -, -, -, -, nx, ny, nz, nu, e, h1, h2, h3, h4⟩ := mkGrid4D_ok hg
    refine ⟨rfl, by simp [e], ?_⟩
    rw [e]
    rintro (_ | _ | _ | _ | k) o n ho hn <;> simp at ho hn
    · subst ho; subst hn; exact h1
    · subst ho; subst hn; exact h2
    · subst ho; subst hn; exact h3
    · subst ho; subst hn; exact h4
  · cases h

end
end Pyinterp.GridPy

namespace Pyinterp.GridPy
open Pyinterp Variate Pyinterp.Spec Pyinterp.Spec.GridPy

/-- The pickled state of a temporal axis built from dates gives back the axis. -/
theorem time_pickle {v : List Int} {a : Axis Int} (h : mkAxis true v 0 false = .ok a) (h2 : 2 ≤ a.size) :
    axisPickle a = .ok a := by
  have inv : AxisInv AuxW a := mkAxis_inv (fun _ _ _ _ k h1 h2 hk => mkRegular_int (le_refl 0) h1 h2 hk) h
  have hcirc : a.circle = none ∧ a.isCircle = false := by
    have key : ∀ k, computeProperties true none k (0 : Int) = .ok a → a.circle = none ∧ a.isCircle = false := by
      intro k hk
      obtain ⟨_, e2, e3, _⟩ := computeProperties_ok hk
      refine ⟨e2, ?_⟩
      cases hc : a.isCircle
      · rfl
      · obtain ⟨t, ht⟩ := e3 hc; cases ht
    unfold mkAxis at h
    simp only [Bool.false_eq_true, if_false] at h
    unfold initializeFromValues at h
    split at h
    · obtain ⟨k, -, h⟩ := bind_inv h
      exact key k h
    · obtain ⟨k, -, h⟩ := bind_inv h
      exact key k h
  obtain ⟨ic, ci, k⟩ := a
  obtain ⟨i1, -, -⟩ := inv
  simp only at i1 hcirc
  obtain ⟨rfl, rfl⟩ := hcirc
  cases k with
  | undefined => exact i1.elim
  | irregular l asc =>
    have hlen : 2 ≤ l.length := by simpa [Axis.size, Container.size] using h2
    have hasc : isAscendingList l = asc := by
      cases asc
      · exact (isAscendingList_eq l).2 (i1.2.2 rfl) hlen
      · exact (isAscendingList_eq l).1 (i1.2.1 rfl)
    have hl : l.length ≠ 0 := by omega
    simp only [axisPickle, Axis.getstate, Axis.setstate, mkIrregular, hl, if_false, bind, Except.bind, pure,
      Except.pure, hasc, Bool.false_eq_true]
  | regular r =>
    obtain ⟨n0, s0, a1, a2, haux⟩ := i1
    have hn : 2 ≤ r.size := by simpa [Axis.size, Container.size] using h2
    have hnn : ¬ (r.size < 0) := by omega
    have hn0 : ¬ (r.size = 0) := by omega
    have hn1 : ¬ (r.size = 1) := by omega
    have hn2 : ¬ (r.size < 2) := by omega
    have hne : ¬ (r.start = r.start + AxisNum.mulInt (r.size - 1) r.step) := by
      intro hh
      have : (r.size - 1) * r.step = 0 := by
        have : r.start + (r.size - 1) * r.step = r.start := hh.symm
        linarith
      rcases mul_eq_zero.mp this with h' | h'
      · omega
      · exact s0 h'
    have hstep : (AxisNum.divInt (r.start + AxisNum.mulInt (r.size - 1) r.step - r.start) (r.size - 1) : Int)
        = r.step := by
      have := div_int (r.size - 1) r.step (by omega)
      rw [show (r.start + AxisNum.mulInt (r.size - 1) r.step - r.start : Int) = (r.size - 1) * r.step by
        simp only [AxisNum.mulInt]; ring]
      exact this
    have hasc : decide (r.start + (AxisNum.mulInt 0 r.step : Int) < r.start + AxisNum.mulInt 1 r.step) = r.asc := by
      simp only [AxisNum.mulInt]
      cases ha : r.asc
      · rcases a2 ha with h' | h'
        · simp only [decide_eq_false_iff_not, not_lt]; omega
        · omega
      · rcases a1 ha with h' | h'
        · simp only [decide_eq_true_eq]; omega
        · omega
    have haux' : (AxisNum.regAux r.step : Int) = r.aux := haux.symm
    simp only [axisPickle, Axis.getstate, Axis.setstate, mkRegular, hnn, hn0, hn1, hn2, if_false, hne, bind,
      Except.bind, pure, Except.pure, hstep, hasc, haux', Bool.false_eq_true]

end Pyinterp.GridPy
