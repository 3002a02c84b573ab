import Verif.Model.Interpolate1D
import Verif.Spec.Segment
import Verif.Spec.Cell
import Verif.Lemmas.Variate
import Verif.Lemmas.Interp1D
import Verif.Props.C40_Interp1D
import Verif.Props.C44_Interp1D
import Verif.Props.C65_Periodic

namespace Pyinterp.Interp
open Spec
set_option linter.unusedSectionVars false
set_option linter.unusedVariables false
set_option linter.unusedSimpArgs false

/-! ### windows -/

section
variable {T : Type}

theorem around_length (l : List T) {i : Nat} (hi : i < l.length) (h : Nat) :
    (around l i h).length = min (i + h) (l.length - 1) - (i - h) + 1 := by
  unfold around
  rw [List.length_drop, List.length_take]
  omega

theorem around_getElem (l : List T) (i h j : Nat) (hj : j < (around l i h).length)
    (hj' : i - h + j < l.length) : (around l i h)[j] = l[i - h + j] := by
  simp [around, List.getElem_drop, List.getElem_take]

theorem around_pairwise {l : List T} {R : T → T → Prop} (hl : l.Pairwise R) (i h : Nat) :
    (around l i h).Pairwise R := by
  unfold around
  exact (hl.sublist (List.take_sublist _ _)).sublist (List.drop_sublist _ _)

theorem around_mem {l : List T} {i h : Nat} {v : T} (hv : v ∈ around l i h) : v ∈ l := by
  unfold around at hv
  exact List.mem_of_mem_take (List.mem_of_mem_drop hv)

theorem segment_around {K : Type} [Field K] [LinearOrder K] (y : List K) {i : Nat} (hi : i < y.length)
    (h : Nat) : segment y (startEndSize i y.length h).1 (startEndSize i y.length h).2.2 =
      .ok (around y i h) := by
  unfold segment startEndSize
  simp only
  rw [if_neg (by omega)]
  congr 1
  unfold around
  rw [List.drop_take]
  have e1 : (max ((i : Int) - h) 0).toNat = i - h := by omega
  have e2 : (min ((i : Int) + h) (↑y.length - 1) - max ((i : Int) - h) 0 + 1).toNat =
      min (i + h) (y.length - 1) - (i - h) + 1 := by omega
  rw [e1, e2]
  apply List.ext_getElem
  · simp only [List.length_take, List.length_drop]; omega
  · intro j h1 h2
    simp [List.getElem_take, List.getElem_drop]
end

section
variable {T : Type} [CommRing T] [LinearOrder T] [IsStrictOrderedRing T] [AxisNum T] [LawfulAxisNum T]

theorem mapM_ok {α β : Type} (f : α → Out β) (g : α → β) (l : List α)
    (h : ∀ a ∈ l, f a = .ok (g a)) : l.mapM f = .ok (l.map g) := by
  induction l with
  | nil => rfl
  | cons a l ih =>
    rw [List.mapM_cons, h a (by simp)]
    simp only [bind, Except.bind]
    rw [ih (fun b hb => h b (by simp [hb]))]
    rfl

theorem slice_eq {a : Axis T} {l : List T} (h : Stores a.cont l) {s n : Nat} (hs : s + n ≤ l.length) :
    a.slice (s : Int) (n : Int) = .ok ((l.drop s).take n) := by
  unfold Axis.slice Axis.containerSlice
  have hsz : a.size = (l.length : Int) := h.size_eq
  rw [if_neg (by omega), if_neg (by omega)]
  rw [Int.toNat_natCast]
  by_cases h0 : l.length = 0
  · have : n = 0 := by omega
    subst this
    rfl
  have h0' : 0 < l.length := by omega
  rw [mapM_ok _ (fun i : Nat => l.getD (s + i) (l[0]'h0'))]
  · congr 1
    apply List.ext_getElem
    · simp; omega
    · intro j h1 h2
      simp only [List.length_map, List.length_range] at h1
      have : s + j < l.length := by omega
      simp [List.getElem_take, List.getElem_drop, List.getD, List.getElem?_eq_getElem this]
  · intro i hi
    rw [List.mem_range] at hi
    have : s + i < l.length := by omega
    rw [show (s : Int) + (i : Int) = ((s + i : Nat) : Int) by push_cast; rfl, h.coord_eq _ this]
    simp [List.getD, List.getElem?_eq_getElem this]

theorem slice_around {a : Axis T} {l : List T} (h : Stores a.cont l) {i : Nat} (hi : i < l.length)
    (hw : Nat) : a.slice (startEndSize i a.size hw).1 (startEndSize i a.size hw).2.2 =
      .ok (around l i hw) := by
  have hsz : a.size = (l.length : Int) := h.size_eq
  unfold startEndSize
  simp only
  rw [hsz]
  have e1 : max ((i : Int) - hw) 0 = ((i - hw : Nat) : Int) := by omega
  have e2 : min ((i : Int) + hw) (↑l.length - 1) - max ((i : Int) - hw) 0 + 1 =
      ((min (i + hw) (l.length - 1) - (i - hw) + 1 : Nat) : Int) := by omega
  rw [e2, e1, slice_eq h (by omega)]
  congr 1
  unfold around
  rw [List.drop_take]
  apply List.ext_getElem
  · simp only [List.length_take, List.length_drop]; omega
  · intro j h1 h2
    simp [List.getElem_take, List.getElem_drop]

theorem findIndex_bounded {a : Axis T} {l : List T} (h : AxisOk a l) (x : T) :
    ∃ (c : T) (i : Nat), a.findIndex x true = .ok (i : Int) ∧ OnTurn a l x c ∧ i < l.length ∧
      Nearest l c i := by
  obtain ⟨m, c, hm, e, hn, -⟩ := normalize_spec h x
  obtain ⟨i, hi1, hi2⟩ := h.find c true
  rcases hi2 with ⟨-, hb, -⟩ | hi2
  · cases hb
  obtain ⟨v, h0, hv, hw⟩ := hi2
  obtain ⟨i, rfl⟩ := Int.eq_ofNat_of_zero_le h0
  refine ⟨c, i, ?_, ?_, ?_, v, h0, hv, hw⟩
  · unfold Axis.findIndex
    simp only [e, bind, Except.bind]
    exact hi1
  · refine ⟨fun ha => hn.1 (by simpa [Axis.isAngle] using ha), fun ha => ?_⟩
    rcases h.circle with hc | hc
    · simp [Axis.isAngle, hc] at ha
    · obtain ⟨h1, h2, k, h3⟩ := hn.2 _ hc
      refine ⟨?_, k, h3⟩
      intro v hv hv'
      have : v = m := le_antisymm (hv' _ hm.1) (hm.2 _ hv)
      rw [this]; exact ⟨h1, h2⟩
  · simp only [Int.toNat_natCast] at hv
    exact (List.getElem?_eq_some_iff.1 hv).1

end

/-! ### interpolator objects -/

section
variable {K : Type} [Field K] [LinearOrder K] [IsStrictOrderedRing K]

/-- The class of an object. -/
def Obj.kind : Obj K → Kind
  | .linear => .linear
  | .polynomial _ => .polynomial
  | .cspline _ => .cspline
  | .csplinePeriodic _ => .csplinePeriodic
  | .akima p _ => if p then .akimaPeriodic else .akima
  | .steffen _ => .steffen

/-- The object was left in this state by calls. -/
def Obj.Used (same : Nat → Nat → Bool) : Obj K → Prop
  | .linear => True
  | .polynomial b => PolyReach same b
  | .cspline b => CSplineReach b
  | .csplinePeriodic st => PeriodicReach st
  | .akima p st => AkimaReach p st
  | .steffen b => SteffenReach b

theorem Obj.new_used (same : Nat → Nat → Bool) (junk : Nat → K) (k : Kind) :
    (Obj.new junk k).Used same ∧ (Obj.new junk k).kind = k := by
  cases k <;> simp only [Obj.new, Obj.Used, Obj.kind, if_true, Bool.false_eq_true, if_false, and_true]
  · exact .new _
  · exact .new _
  · exact .new _ _ _
  · exact .new _ _
  · exact .new _ _
  · exact .new _

theorem Obj.call_used {same : Nat → Nat → Bool} {junk : Nat → K} {o o' : Obj K} {xa ya : List K}
    {x : K} {r : Option K} (ho : o.Used same) (h : o.call same junk xa ya x = .ok (r, o')) :
    o'.Used same ∧ o'.kind = o.kind := by
  cases o with
  | linear =>
    simp only [Obj.call, bind, Except.bind] at h
    split at h
    · cases h
    · cases h; exact ⟨trivial, rfl⟩
  | polynomial w =>
    simp only [Obj.call, bind, Except.bind, Interp.polynomial] at h
    cases e : polyCompute junk same w xa ya with
    | error => simp [e] at h
    | ok b =>
      simp only [e] at h
      cases e' : polyEval b xa x with
      | error => simp [e'] at h
      | ok v =>
        simp only [e'] at h
        cases h
        exact ⟨.call junk xa ya ho e, rfl⟩
  | cspline w =>
    simp only [Obj.call, bind, Except.bind, Interp.cspline] at h
    cases e : csplineCompute w xa ya with
    | error => simp [e] at h
    | ok b =>
      simp only [e] at h
      cases e' : csplineEval b xa ya x with
      | error => simp [e'] at h
      | ok v =>
        simp only [e'] at h
        cases h
        exact ⟨.call xa ya ho e, rfl⟩
  | csplinePeriodic w =>
    simp only [Obj.call, bind, Except.bind, Interp.csplinePeriodic] at h
    cases e : periodicCompute junk w xa ya with
    | error => simp [e] at h
    | ok b =>
      simp only [e] at h
      cases e' : csplineEval b.x xa ya x with
      | error => simp [e'] at h
      | ok v =>
        simp only [e'] at h
        cases h
        exact ⟨.call junk xa ya ho e, rfl⟩
  | akima p w =>
    simp only [Obj.call, bind, Except.bind, Interp.akima] at h
    cases e : akimaCompute junk p w xa ya with
    | error => simp [e] at h
    | ok b =>
      simp only [e] at h
      cases e' : akimaEval b xa ya x with
      | error => simp [e'] at h
      | ok v =>
        simp only [e'] at h
        cases h
        exact ⟨.call junk xa ya ho e, rfl⟩
  | steffen w =>
    simp only [Obj.call, bind, Except.bind, Interp.steffen] at h
    cases e : steffenCompute junk w xa ya with
    | error => simp [e] at h
    | ok b =>
      simp only [e] at h
      cases e' : steffenEval b xa ya x with
      | error => simp [e'] at h
      | ok v =>
        simp only [e'] at h
        cases h
        exact ⟨.call junk xa ya ho e, rfl⟩

theorem map_bind_fst {α β γ δ : Type} {m m' : Out (α × β)} (g : α → γ) (w : β → δ)
    {β' δ' : Type} {m' : Out (α × β')} (w' : β' → δ')
    (h : m.map (·.1) = m'.map (·.1)) :
    (m.bind fun r => (Except.ok (g r.1, w r.2) : Out (γ × δ))).map (·.1) =
      (m'.bind fun r => (Except.ok (g r.1, w' r.2) : Out (γ × δ'))).map (·.1) := by
  cases m <;> cases m' <;> simp only [Except.map, Except.bind] at *
  · exact congrArg _ (Except.error.inj h)
  · cases h
  · cases h
  · rw [Except.ok.inj h]

theorem Obj.call_fresh (same : Nat → Nat → Bool) (junk junk' : Nat → K) (o o' : Obj K)
    (xa ya : List K) (x : K) (ho : o.Used same) (ho' : o'.Used same) (hk : o.kind = o'.kind)
    (hp : o.kind ≠ .csplinePeriodic) :
    (o.call same junk xa ya x).map (·.1) = (o'.call same junk' xa ya x).map (·.1) := by
  obtain ⟨h1, h2, h3, h4⟩ := C64_no_history xa ya x junk junk'
  cases o with
  | linear =>
    cases o' <;> simp [Obj.kind] at hk
    · rfl
    · split at hk <;> cases hk
  | polynomial w =>
    cases o' <;> simp [Obj.kind] at hk
    · rename_i w'
      exact map_bind_fst (m' := Interp.polynomial junk' same w' xa ya x) some Obj.polynomial Obj.polynomial (h3 same _ _ ho ho')
    · split at hk <;> cases hk
  | cspline w =>
    cases o' <;> simp [Obj.kind] at hk
    · rename_i w'
      exact map_bind_fst (m' := Interp.cspline w' xa ya x) id Obj.cspline Obj.cspline (h4 _ _ ho ho')
    · split at hk <;> cases hk
  | csplinePeriodic w => exact absurd rfl hp
  | akima p w =>
    cases o' with
    | akima p' w' =>
      have : p = p' := by
        simp only [Obj.kind] at hk
        cases p <;> cases p' <;> simp at hk ⊢
      subst this
      exact map_bind_fst (m' := Interp.akima junk' p w' xa ya x) some (Obj.akima p) (Obj.akima p) (h2 p _ _ ho ho')
    | _ => cases p <;> simp [Obj.kind] at hk
  | steffen w =>
    cases o' <;> simp [Obj.kind] at hk
    · split at hk <;> cases hk
    · rename_i w'
      exact map_bind_fst (m' := Interp.steffen junk' w' xa ya x) id Obj.steffen Obj.steffen (h1 _ _ ho ho')

end
end Pyinterp.Interp
