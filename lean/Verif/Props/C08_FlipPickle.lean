import Verif.Lemmas.Coordinates
import Mathlib.Data.Rat.Floor
import Mathlib.Tactic.FieldSimp

/-
C08 – flipping; C09 – pickling; C10 – bounds checking of axis accesses.
-/
namespace Pyinterp
open Spec
set_option linter.unusedVariables false
set_option linter.unusedSectionVars false

section
variable {T : Type} [CommRing T] [LinearOrder T] [IsStrictOrderedRing T] [AxisNum T] [LawfulAxisNum T]

theorem contList_flip {P : RegData T → Prop} {k : Container T} (h : ContInv P k) :
    contList k.flip = (contList k).reverse := by
  cases k with
  | undefined => exact h.elim
  | irregular l asc => rfl
  | regular r =>
    have hn : 0 < r.size := h.1
    simp only [contList, Container.flip]
    apply List.ext_getElem
    · simp
    · intro i h1 h2
      rw [regCoords_getElem, List.getElem_reverse, regCoords_getElem, LawfulAxisNum.mulInt_eq]
      simp only [regCoords_length] at h1 h2 ⊢
      have e : ((r.size.toNat - 1 - i : Nat) : T) = ((r.size - 1 : Int) : T) - (i : T) := by
        have : ((r.size.toNat - 1 - i : Nat) : Int) = (r.size - 1) - (i : Int) := by omega
        have := congrArg (Int.cast : Int → T) this
        push_cast at this ⊢
        exact this
      rw [e]; ring

theorem flip_flip {P : RegData T → Prop} {k : Container T} (h : ContInv P k)
    (haux : ∀ x : T, (AxisNum.flipAux (AxisNum.flipAux x) : T) = x) : k.flip.flip = k := by
  cases k with
  | undefined => rfl
  | irregular l asc => simp [Container.flip]
  | regular r =>
    simp only [Container.flip, haux, Bool.not_not, neg_neg, LawfulAxisNum.mulInt_eq]
    cases r
    simp

theorem nearest_same_dist {l l' : List T} (hl : ∀ v, v ∈ l ↔ v ∈ l') {c : T} {i j : Int}
    (h : Nearest l c i) (h' : Nearest l' c j) :
    ∃ v w, l[i.toNat]? = some v ∧ l'[j.toNat]? = some w ∧ |c - v| = |c - w| := by
  obtain ⟨v, h0, hv, hv'⟩ := h
  obtain ⟨w, h0', hw, hw'⟩ := h'
  refine ⟨v, w, hv, hw, le_antisymm (hv' _ ?_) (hw' _ ?_)⟩
  · exact (hl w).mpr (List.mem_of_getElem? hw)
  · exact (hl v).mp (List.mem_of_getElem? hv)
end

section
variable {K : Type} [Field K] [LinearOrder K] [IsStrictOrderedRing K] [FloorRing K]

/-- **C08**: flipping reverses the list of coordinates. -/
theorem C08_flip_reverses (a : Axis K) (l : List K) (h : Reach false a) (hl : Coordinates a l) :
    Coordinates a.flip l.reverse := by
  have hf := (reach_ok (.flip a h)).stores.coordinates
  have e : contList a.flip.cont = l.reverse := by
    rw [coordinates_eq_contList h hl]
    exact contList_flip (reach_inv h).1
  rwa [e] at hf

/-- **C08**: flipping twice gives back the very same axis. -/
theorem C08_flip_involutive (a : Axis K) (h : Reach false a) : a.flip.flip = a := by
  have := flip_flip (reach_inv h).1 (fun x => neg_neg x)
  cases a
  simp only [Axis.flip] at this ⊢
  rw [this]

/-- **C08**: for a coordinate inside the axis, the coordinate found on the flipped axis is
at the same distance as the one found on the axis (so the two indexes are mirror images
whenever the nearest coordinate is unique). -/
theorem C08_flip_search (a : Axis K) (l : List K) (h : Reach false a) (hl : Coordinates a l)
    (c : K) (b : Bool) (hin : b = true ∨ ¬ Outside l c) :
    ∃ i j v w, a.cont.findIndex c b = .ok i ∧ a.flip.cont.findIndex c b = .ok j ∧
      l[i.toNat]? = some v ∧ l.reverse[j.toNat]? = some w ∧ |c - v| = |c - w| ∧
      ((∀ u ∈ l, |c - u| = |c - v| → u = v) → v = w ∧ j = (l.length : Int) - 1 - i) := by
  have hok := reach_axisOk h hl
  have hok' := reach_axisOk (.flip a h) (C08_flip_reverses a l h hl)
  obtain ⟨i, hi, hi'⟩ := hok.find c b
  obtain ⟨j, hj, hj'⟩ := hok'.find c b
  have hni : Nearest l c i := by
    rcases hi' with ⟨_, hb, ho⟩ | hh
    · rcases hin with h1 | h1
      · rw [hb] at h1; cases h1
      · exact absurd ho h1
    · exact hh
  have hnj : Nearest l.reverse c j := by
    rcases hj' with ⟨_, hb, ho⟩ | hh
    · rcases hin with h1 | h1
      · rw [hb] at h1; cases h1
      · refine absurd ?_ h1
        rcases ho with ho | ho
        · exact Or.inl fun v hv => ho v (List.mem_reverse.mpr hv)
        · exact Or.inr fun v hv => ho v (List.mem_reverse.mpr hv)
    · exact hh
  obtain ⟨v, w, e1, e2, e3⟩ := nearest_same_dist (fun v => (List.mem_reverse).symm) hni hnj
  refine ⟨i, j, v, w, hi, hj, e1, e2, e3, ?_⟩
  intro huniq
  have hw : w ∈ l := List.mem_reverse.mp (List.mem_of_getElem? e2)
  have hvw : w = v := huniq w hw e3.symm
  refine ⟨hvw.symm, ?_⟩
  obtain ⟨_, i0, _, _⟩ := hni
  obtain ⟨_, j0, _, _⟩ := hnj
  have hil : i.toNat < l.length := (List.getElem?_eq_some_iff.mp e1).1
  have hjl : j.toNat < l.reverse.length := (List.getElem?_eq_some_iff.mp e2).1
  have g1 : l[i.toNat] = v := (List.getElem?_eq_some_iff.mp e1).2
  have g2 : l.reverse[j.toNat] = w := (List.getElem?_eq_some_iff.mp e2).2
  rw [List.getElem_reverse] at g2
  have hnd : l.Nodup := by
    cases ha : a.cont.isAscending
    · exact (hok.stores.desc ha).imp (fun hh => ne_of_gt hh)
    · exact (hok.stores.asc ha).imp (fun hh => ne_of_lt hh)
  have e : l.length - 1 - j.toNat = i.toNat := by
    rw [← List.Nodup.getElem_inj_iff hnd (hi := by omega) (hj := hil)]
    rw [g1, g2, hvw]
  rw [List.length_reverse] at hjl
  omega

/-- **C09** (floating point axes with at least two coordinates; the axis is either not an
angle or covers the full circle): the axis rebuilt from the pickled state is the very
same object – same storage, same direction, same circle flags – hence answers every query
identically. -/
theorem C09_pickle_identity_partial (a : Axis K) (h : Reach false a) (h2 : 2 ≤ a.size)
    (hang : a.isAngle = true → a.isCircle = true) :
    ∃ s, a.getstate = .ok s ∧ Axis.setstate s = .ok a := by
  have inv := reach_inv h
  obtain ⟨ic, ci, k⟩ := a
  obtain ⟨i1, i2, i3⟩ := inv
  simp only at i1 i2 i3
  have hci : (if ic = true then some (AxisNum.ofInt 360 : K) else none) = ci := by
    cases ic
    · simp only [Bool.false_eq_true, if_false]
      rcases i2 with h' | h'
      · exact h'.symm
      · have := hang (by simp [Axis.isAngle, h'])
        cases this
    · simp only [if_true]
      rw [i3 rfl, ofInt360]
  cases k with
  | undefined => exact i1.elim
  | irregular l asc =>
    refine ⟨.irregular l ic, rfl, ?_⟩
    have hlen : 2 ≤ l.length := by simpa [Axis.size, Container.size] using h2
    have hasc : isAscendingList l = asc := by
      cases asc
      · exact (isAscendingList_eq l).2 (i1.2.2 rfl) hlen
      · exact (isAscendingList_eq l).1 (i1.2.1 rfl)
    have hl : l.length ≠ 0 := by omega
    simp only [Axis.setstate, mkIrregular, hl, if_false, bind, Except.bind, pure, Except.pure, hci, hasc]
  | regular r =>
    refine ⟨_, rfl, ?_⟩
    obtain ⟨n0, s0, a1, a2, haux⟩ := i1
    have hn : 2 ≤ r.size := by simpa [Axis.size, Container.size] using h2
    have hnn : ¬ (r.size < 0) := by omega
    have hn0 : ¬ (r.size = 0) := by omega
    have hn1 : ¬ (r.size = 1) := by omega
    have hn2 : ¬ (r.size < 2) := by omega
    have hk : ((r.size - 1 : Int) : K) ≠ 0 := by
      have : (r.size - 1 : Int) ≠ 0 := by omega
      exact_mod_cast this
    have hne : ¬ (r.start = r.start + AxisNum.mulInt (r.size - 1) r.step) := by
      intro hh
      have : ((r.size - 1 : Int) : K) * r.step = 0 := by
        have : r.start + ((r.size - 1 : Int) : K) * r.step = r.start := hh.symm
        linarith
      exact mul_ne_zero hk s0 this
    have hstep : (AxisNum.divInt (r.start + AxisNum.mulInt (r.size - 1) r.step - r.start) (r.size - 1) : K)
        = r.step := by
      simp only [AxisNum.divInt, AxisNum.mulInt]
      field_simp
      ring
    have hasc : decide (r.start + (AxisNum.mulInt 0 r.step : K) < r.start + AxisNum.mulInt 1 r.step) = r.asc := by
      simp only [AxisNum.mulInt]
      cases ha : r.asc
      · rcases a2 ha with h' | h'
        · simp only [decide_eq_false_iff_not, not_lt]; push_cast; linarith
        · omega
      · rcases a1 ha with h' | h'
        · simp only [decide_eq_true_eq]; push_cast; linarith
        · omega
    have haux' : (AxisNum.regAux r.step : K) = r.aux := haux.symm
    simp only [Axis.setstate, mkRegular, hnn, hn0, hn1, hn2, if_false, hne, bind, Except.bind, pure, Except.pure,
      hci, hstep, hasc, haux']
end

/-- C09 fails for an angle axis that is not a full circle: the pickled state stores only
`is_circle`, so the rebuilt axis is not an angle any more and 365° is not found. -/
theorem C09_angle_lost :
    ∃ (a b : Axis ℚ) (s : AxisState ℚ), Reach false a ∧ a.getstate = .ok s ∧ Axis.setstate s = .ok b ∧
      a.findNearestIndex 365 false = .ok 1 ∧ b.findNearestIndex 365 false = .ok (-1) ∧ a.isAngle = true ∧
      b.isAngle = false := by
  refine ⟨⟨false, some 360, .regular ⟨3, 0, 5, 1/5, true⟩⟩, ⟨false, none, .regular ⟨3, 0, 5, 1/5, true⟩⟩,
    .regular 0 10 3 false, ?_, by decide +kernel, by decide +kernel, by decide +kernel, by decide +kernel, rfl, rfl⟩
  exact .regular 0 10 3 (1/1000000) true _ (by decide +kernel)

/-- C09 fails for a flipped integral axis: the rounding term of the search is recomputed
from the negative step, and the nearest index changes. -/
theorem C09_int_flip_wrong :
    ∃ (a b : Axis Int) (s : AxisState Int), ReachI a ∧ a.getstate = .ok s ∧ Axis.setstate s = .ok b ∧
      a.findNearestIndex 8 false = .ok 1 ∧ b.findNearestIndex 8 false = .ok 0 := by
  refine ⟨⟨false, none, .regular ⟨5, 12, -3, 1, false⟩⟩, ⟨false, none, .regular ⟨5, 12, -3, -2, false⟩⟩,
    .regular 12 0 5 false, ?_, by decide, by decide, by decide, by decide⟩
  have h : ReachI ⟨false, none, .regular ⟨5, 0, 3, 1, true⟩⟩ :=
    .values [0, 3, 6, 9, 12] 0 false _ (by decide) (by decide) (by decide)
  exact ReachI.flip _ h

/-- C09 fails for a regular axis with a single coordinate: its state has front = back and
is refused by the constructor. -/
theorem C09_single_refused :
    ∃ (a : Axis ℚ) (s : AxisState ℚ), Reach false a ∧ a.getstate = .ok s ∧ Axis.setstate s = .error .exn :=
  ⟨⟨false, none, .regular ⟨1, 0, 5, 1/5, true⟩⟩, .regular 0 0 1 false,
    .regular 0 5 1 (1/1000000) false _ (by decide +kernel), by decide +kernel, by decide +kernel⟩

section
variable {T : Type} [CommRing T] [LinearOrder T] [IsStrictOrderedRing T] [AxisNum T] [LawfulAxisNum T]

theorem mapM_coord {k : Container T} {l : List T} (h : Stores k l) (s n : Nat) (hn : s + n ≤ l.length) :
    (List.range n).mapM (fun i : Nat => k.coord ((s : Int) + (i : Int))) = .ok ((l.drop s).take n) := by
  induction n with
  | zero => rfl
  | succ n ih =>
    have e : k.coord ((s : Int) + (n : Int)) = .ok (l[s + n]'(by omega)) := by
      have := h.coord_eq (s + n) (by omega)
      push_cast at this
      exact this
    rw [List.range_succ, List.mapM_append, ih (by omega)]
    simp only [List.mapM_cons, List.mapM_nil, e, bind, Except.bind, pure, Except.pure]
    congr 1
    rw [List.take_add_one]
    congr 1
    rw [List.getElem?_drop, List.getElem?_eq_getElem (by omega)]
    rfl
end

section
variable {K : Type} [Field K] [LinearOrder K] [IsStrictOrderedRing K] [FloorRing K]

/-- **C10**: `axis[i]` raises for every index outside `[0, len(axis))` and otherwise returns
a coordinate; never an undefined read. -/
theorem C10_access (a : Axis K) (l : List K) (h : Reach false a) (hl : Coordinates a l) (i : Int) :
    ((i < 0 ∨ (l.length : Int) ≤ i) ↔ a.coordinateValue i = .error .exn) ∧
    (∀ v, a.coordinateValue i = .ok v ↔ (0 ≤ i ∧ l[i.toNat]? = some v)) := by
  have hsz : a.size = l.length := hl.1
  have hin : ∀ (h0 : 0 ≤ i) (h1 : i < l.length), a.coordinateValue i = .ok (l[i.toNat]'(by omega)) := by
    intro h0 h1
    have := hl.2 i.toNat (by omega)
    rwa [Int.toNat_of_nonneg h0] at this
  have hout : (i < 0 ∨ (l.length : Int) ≤ i) → a.coordinateValue i = .error .exn := by
    intro ho
    unfold Axis.coordinateValue
    rw [if_pos (by omega)]
  refine ⟨⟨hout, ?_⟩, ?_⟩
  · intro he
    by_contra hc
    rw [hin (by omega) (by omega)] at he
    cases he
  · intro v
    by_cases ho : i < 0 ∨ (l.length : Int) ≤ i
    · rw [hout ho]
      constructor
      · intro hh; cases hh
      · rintro ⟨h0, hv⟩
        rw [List.getElem?_eq_none (by omega)] at hv
        cases hv
    · rw [hin (by omega) (by omega), List.getElem?_eq_getElem (by omega)]
      simp only [Except.ok.injEq, Option.some.injEq]
      exact ⟨fun hh => ⟨by omega, hh⟩, fun hh => hh.2⟩

/-- **C10** for slices `axis[s:s+n]` (`n ≥ 0`, which the Python wrapper guarantees): an
exception when the slice is not inside the axis, otherwise the coordinates in order. -/
theorem C10_slice (a : Axis K) (l : List K) (h : Reach false a) (hl : Coordinates a l) (s : Int) (n : Nat) :
    a.slice s n = if s < 0 ∨ (l.length : Int) < s + n then .error .exn
      else .ok ((l.drop s.toNat).take n) := by
  have hok := reach_axisOk h hl
  have hsz : a.size = l.length := hl.1
  unfold Axis.slice
  by_cases hc : s < 0 ∨ (l.length : Int) < s + n
  · rw [if_pos hc, if_pos (by omega)]
  · rw [if_neg hc, if_neg (by omega)]
    unfold Axis.containerSlice
    rw [if_neg (by omega)]
    have := mapM_coord hok.stores s.toNat n (by omega)
    rw [Int.toNat_of_nonneg (by omega)] at this
    simpa using this
end

theorem pySlice_range (len start stop step : Int) (hlen : 0 ≤ len) (hs : step ≠ 0) (k : Nat)
    (hk : (k : Int) < (pySlice len start stop step).2) :
    0 ≤ (pySlice len start stop step).1 + k * step ∧ (pySlice len start stop step).1 + k * step < len := by
  unfold pySlice at hk ⊢
  simp only at hk ⊢
  generalize hS : (if start < 0 then (if start + len < 0 then (if step < 0 then (-1 : Int) else 0) else start + len)
    else if start ≥ len then (if step < 0 then len - 1 else len) else start) = s at *
  generalize hE : (if stop < 0 then (if stop + len < 0 then (if step < 0 then (-1 : Int) else 0) else stop + len)
    else if stop ≥ len then (if step < 0 then len - 1 else len) else stop) = e at *
  have hs1 : -1 ≤ s ∧ s ≤ len ∧ (step < 0 → s ≤ len - 1) ∧ (0 < step → 0 ≤ s) := by
    subst hS; split_ifs <;> refine ⟨?_, ?_, ?_, ?_⟩ <;> intros <;> omega
  have he1 : -1 ≤ e ∧ e ≤ len ∧ (step < 0 → e ≤ len - 1) ∧ (0 < step → 0 ≤ e) := by
    subst hE; split_ifs <;> refine ⟨?_, ?_, ?_, ?_⟩ <;> intros <;> omega
  by_cases hneg : step < 0
  · simp only [hneg, if_true] at hk
    split at hk
    · rename_i hlt
      have h0 : 0 ≤ s - e - 1 := by omega
      rw [Int.tdiv_eq_ediv_of_nonneg h0] at hk
      have hk' : (k : Int) ≤ (s - e - 1) / (-step) := by omega
      have := (Int.le_ediv_iff_mul_le (by omega)).mp hk'
      constructor
      · nlinarith [he1.1]
      · have : (k : Int) * step ≤ 0 := by nlinarith
        have := hs1.2.2.1 hneg
        omega
    · omega
  · simp only [hneg, if_false] at hk
    have hpos : 0 < step := by omega
    split at hk
    · rename_i hlt
      have h0 : 0 ≤ e - s - 1 := by omega
      rw [Int.tdiv_eq_ediv_of_nonneg h0] at hk
      have hk' : (k : Int) ≤ (e - s - 1) / step := by omega
      have := (Int.le_ediv_iff_mul_le hpos).mp hk'
      constructor
      · have : 0 ≤ (k : Int) * step := by nlinarith
        have := hs1.2.2.2 hpos
        omega
      · omega
    · omega

/-- **C10**: a slice with a step of zero is refused. -/
theorem C10_step_zero {K : Type} [Field K] [LinearOrder K] [IsStrictOrderedRing K] [FloorRing K] (a : Axis K)
    (start stop : Int) : a.coordinateValues start stop 0 = .error .exn := by
  unfold Axis.coordinateValues
  rw [if_pos rfl]

/-- **C10** for Python slices with arbitrary bounds and non-zero step: every element is a
coordinate of the axis read at the index Python designates, which is always inside the axis. -/
theorem C10_python_slice {K : Type} [Field K] [LinearOrder K] [IsStrictOrderedRing K] [FloorRing K]
    (a : Axis K) (l : List K) (h : Reach false a) (hl : Coordinates a l) (start stop step : Int) (hs : step ≠ 0) :
    ∃ r, a.coordinateValues start stop step = .ok r ∧
      r.length = (pySlice l.length start stop step).2.toNat ∧
      ∀ k (hk : k < r.length), ∃ j : Nat, (j : Int) = (pySlice l.length start stop step).1 + k * step ∧
        l[j]? = some r[k] := by
  have hok := reach_axisOk h hl
  have hsz : a.size = l.length := hl.1
  have hr := pySlice_range l.length start stop step (by omega) hs
  generalize hp : pySlice (l.length : Int) start stop step = p at *
  obtain ⟨s, n⟩ := p
  simp only at hr
  have key : ∀ m : Nat, (m : Int) ≤ n ∨ m = 0 → ∃ r : List K,
      (List.range m).mapM (fun (k : Nat) => a.cont.coord (s + (k : Int) * step)) = .ok r ∧ r.length = m ∧
      ∀ k (hk : k < r.length), ∃ j : Nat, (j : Int) = s + k * step ∧ l[j]? = some r[k] := by
    intro m
    induction m with
    | zero => intro _; exact ⟨[], rfl, rfl, by simp⟩
    | succ m ih =>
      intro hm
      obtain ⟨r, e1, e2, e3⟩ := ih (by omega)
      obtain ⟨b1, b2⟩ := hr m (by omega)
      have e := hok.stores.coord_int _ b1 b2
      refine ⟨r ++ [l[(s + (m : Int) * step).toNat]'(by omega)], ?_, by simp [e2], ?_⟩
      · rw [List.range_succ, List.mapM_append, e1]
        simp only [List.mapM_cons, List.mapM_nil, e, bind, Except.bind, pure, Except.pure]
      · intro k hk
        simp only [List.length_append, List.length_cons, List.length_nil] at hk
        by_cases hkm : k < r.length
        · rw [List.getElem_append_left hkm]; exact e3 k hkm
        · have : k = m := by omega
          subst this
          refine ⟨(s + (k : Int) * step).toNat, by omega, ?_⟩
          rw [List.getElem_append_right (by omega), List.getElem?_eq_getElem (by omega)]
          simp
  obtain ⟨r, e1, e2, e3⟩ := key n.toNat (by omega)
  refine ⟨r, ?_, e2, e3⟩
  unfold Axis.coordinateValues
  rw [if_neg hs, hsz, hp]
  exact e1

/- Non vacuity: a flipped irregular axis and its slice. -/
example : ∃ a : Axis ℚ, Reach false a.flip ∧ Coordinates a.flip [7, 3, 2] ∧
    a.flip.slice 1 2 = .ok [3, 2] ∧ a.flip.slice 2 2 = .error .exn ∧ 2 ≤ a.flip.size ∧ a.flip.isAngle = false := by
  refine ⟨⟨false, none, .irregular [2, 3, 7] true⟩, ?_, ⟨rfl, by decide +kernel⟩, by decide +kernel, by decide +kernel,
    by decide, rfl⟩
  exact .flip _ (.values [2, 3, 7] (1/1000000) false _ (by norm_num) (by decide +kernel))

end Pyinterp
