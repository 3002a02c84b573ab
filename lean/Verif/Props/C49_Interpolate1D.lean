import Mathlib.Data.Rat.Floor
import Verif.Lemmas.Interpolate1D

/-
C49: `interpolate1d`.
-/
namespace Pyinterp.Interp
open Spec
set_option linter.unusedSectionVars false
set_option linter.unusedVariables false
set_option linter.unusedSimpArgs false

variable {K : Type} [Field K] [LinearOrder K] [IsStrictOrderedRing K] [FloorRing K]

theorem interpolateOne_eq (same : Nat → Nat → Bool) (junk : Nat → K) {a : Axis K} {l y : List K}
    (h : AxisOk a l) (hy : y.length = l.length) (hw : Nat) (be : Bool) (o : Obj K) (x : K) :
    ∃ (c : K) (i : Nat), OnTurn a l x c ∧ i < l.length ∧ Nearest l c i ∧
      interpolateOne same junk a y hw be o x = o.call same junk (around l i hw) (around y i hw) x := by
  obtain ⟨c, i, e, ht, hi, hn⟩ := findIndex_bounded h x
  refine ⟨c, i, ht, hi, hn, ?_⟩
  have hsz : a.size = (y.length : Int) := by rw [hy]; exact h.stores.size_eq
  unfold interpolateOne
  simp only [e, bind, Except.bind]
  rw [if_neg (by omega), slice_around h.stores hi, hsz, segment_around y (by omega)]

theorem loop_values (same : Nat → Nat → Bool) (junk : Nat → Nat → K) {a : Axis K} {l y : List K}
    (h : AxisOk a l) (hy : y.length = l.length) (hw : Nat) (be : Bool) (kd : Kind)
    (hp : kd ≠ .csplinePeriodic) (xi : List K) (n : Nat) (o : Obj K) (ho : o.Used same)
    (hk : o.kind = kd) (r : List (Option K))
    (hr : interpolateLoop same junk a y hw be n o xi = .ok r) :
    List.Forall₂ (fun x v => ∃ (c : K) (i : Nat), OnTurn a l x c ∧ i < l.length ∧ Nearest l c i ∧
      ∀ junk', ((Obj.new junk' kd).call same junk' (around l i hw) (around y i hw) x).map (·.1) = .ok v)
      xi r := by
  induction xi generalizing n o r with
  | nil => simp only [interpolateLoop] at hr; cases hr; exact .nil
  | cons x xi ih =>
    obtain ⟨c, i, ht, hi, hn, e⟩ := interpolateOne_eq same (junk n) h hy hw be o x
    simp only [interpolateLoop, e, bind, Except.bind] at hr
    cases hc : o.call same (junk n) (around l i hw) (around y i hw) x with
    | error => simp [hc] at hr
    | ok p =>
      obtain ⟨v, o'⟩ := p
      simp only [hc] at hr
      obtain ⟨hu, hk'⟩ := Obj.call_used ho hc
      cases hrest : interpolateLoop same junk a y hw be (n + 1) o' xi with
      | error => simp [hrest] at hr
      | ok rest =>
        simp only [hrest] at hr
        cases hr
        refine .cons ⟨c, i, ht, hi, hn, ?_⟩ (ih _ _ hu (hk'.trans hk) _ hrest)
        intro junk'
        obtain ⟨hu2, hk2⟩ := Obj.new_used same junk' kd
        rw [← Obj.call_fresh same (junk n) junk' o _ _ _ x ho hu2 (hk.trans hk2.symm)
          (by rw [hk]; exact hp), hc]
        rfl

/-- C49: when `interpolate1d` returns, it returns one value per coordinate and each of them is the
one that a new interpolator of the requested kind computes from the part of the axis and of the
values at most `half_window_size` places from the node nearest to the coordinate: neither the
other coordinates nor their order matter. All kinds except `c_spline_periodic` (for which the
statement is false, see `C65_history`). -/
theorem C49_values (same : Nat → Nat → Bool) (junk : Nat → Nat → K) (a : Axis K) (l y xi : List K)
    (ha : Reach false a) (hl : Coordinates a l) (hw : Nat) (be : Bool) (kind : String) (kd : Kind)
    (hkd : kindOf kind = .ok kd) (hp : kd ≠ .csplinePeriodic) (r : List (Option K))
    (hr : interpolate1d same junk a y xi hw be kind = .ok r) :
    y.length = l.length ∧ r.length = xi.length ∧
    ∀ k (h : k < xi.length) (h' : k < r.length), ∃ (c : K) (i : Nat), OnTurn a l xi[k] c ∧
      i < l.length ∧ Nearest l c i ∧
      ∀ junk', ((Obj.new junk' kd).call same junk' (around l i hw) (around y i hw) xi[k]).map (·.1) =
        .ok r[k] := by
  have hok := reach_axisOk ha hl
  unfold interpolate1d at hr
  have hsz : a.size = (l.length : Int) := hok.stores.size_eq
  by_cases hy : a.size ≠ y.length
  · rw [if_pos hy] at hr; cases hr
  rw [if_neg hy] at hr
  simp only [hkd, bind, Except.bind] at hr
  have hy' : y.length = l.length := by omega
  have := loop_values same junk hok hy' hw be kd hp xi 0 _ (Obj.new_used same _ kd).1
    (Obj.new_used same _ kd).2 r hr
  obtain ⟨e1, e2⟩ := List.forall₂_iff_get.1 this
  exact ⟨hy', e1.symm, fun k h h' => by simpa using e2 k h h'⟩

/-- C49: the arguments that are refused. -/
theorem C49_refused (same : Nat → Nat → Bool) (junk : Nat → Nat → K) (a : Axis K) (l y xi : List K)
    (ha : Reach false a) (hl : Coordinates a l) (half : Int) (be : Bool) (kind : String)
    (h : y.length ≠ l.length ∨ kind ∉ ["linear", "polynomial", "c_spline", "c_spline_periodic",
      "akima", "akima_periodic", "steffen"]) :
    interpolate1d same junk a y xi half be kind = .error .exn := by
  have hok := reach_axisOk ha hl
  have hsz : a.size = (l.length : Int) := hok.stores.size_eq
  unfold interpolate1d
  by_cases hy : a.size ≠ y.length
  · rw [if_pos hy]
  · rw [if_neg hy]
    rcases h with h | h
    · omega
    · simp only [List.mem_cons, List.not_mem_nil, or_false, not_or] at h
      obtain ⟨h1, h2, h3, h4, h5, h6, h7⟩ := h
      simp [kindOf, h1, h2, h3, h4, h5, h6, h7, bind, Except.bind]

theorem Obj.of_linear {o : Obj K} (h : o.kind = .linear) : o = .linear := by
  cases o <;> simp [Obj.kind] at h ⊢
  split at h <;> cases h

theorem Obj.of_cspline {o : Obj K} (h : o.kind = .cspline) : ∃ b, o = .cspline b := by
  cases o <;> simp [Obj.kind] at h ⊢
  split at h <;> cases h

theorem Obj.of_steffen {o : Obj K} (h : o.kind = .steffen) : ∃ b, o = .steffen b := by
  cases o <;> simp [Obj.kind] at h ⊢
  split at h <;> cases h

theorem nearest_cell {l : List K} (hs : l.Pairwise (· < ·)) {x : K} {i j : Nat} (hi : i + 1 < l.length)
    (h0 : l[i] ≤ x) (h1 : x ≤ l[i + 1]) (hj : j < l.length) (hn : Nearest l x j) :
    j = i ∨ j = i + 1 := by
  obtain ⟨v, -, hv, hw⟩ := hn
  simp only [Int.toNat_natCast, List.getElem?_eq_getElem hj, Option.some.injEq] at hv
  subst hv
  by_contra hne
  rw [not_or] at hne
  rcases Nat.lt_or_ge j i with h | h
  · have := pairwise_lt hs hj (by omega : i < l.length) h
    have := hw l[i] (List.getElem_mem _)
    rw [abs_of_nonneg (by linarith), abs_of_nonneg (by linarith)] at this
    linarith
  · have := pairwise_lt hs hi hj (by omega)
    have := hw l[i + 1] (List.getElem_mem _)
    rw [abs_of_nonpos (by linarith), abs_of_nonpos (by linarith)] at this
    linarith

theorem loop_total (same : Nat → Nat → Bool) (junk : Nat → Nat → K) {a : Axis K} {l y : List K}
    (h : AxisOk a l) (hy : y.length = l.length) (hang : a.isAngle = false) (hw : Nat) (be : Bool)
    (P : K → Option K → Prop) (kd : Kind)
    (hP : ∀ x (i : Nat), i < l.length → Nearest l x i → ∀ (o : Obj K) (junk : Nat → K), o.Used same →
      o.kind = kd →
      ∃ v o', o.call same junk (around l i hw) (around y i hw) x = .ok (v, o') ∧ P x v)
    (xi : List K) (n : Nat) (o : Obj K) (ho : o.Used same) (hk : o.kind = kd) :
    ∃ r, interpolateLoop same junk a y hw be n o xi = .ok r ∧ List.Forall₂ P xi r := by
  induction xi generalizing n o with
  | nil => exact ⟨_, rfl, .nil⟩
  | cons x xi ih =>
    obtain ⟨c, i, ht, hi, hn, e⟩ := interpolateOne_eq same (junk n) h hy hw be o x
    have hc := ht.1 hang
    subst hc
    obtain ⟨v, o', ec, pv⟩ := hP c i hi hn o (junk n) ho hk
    obtain ⟨hu, hk'⟩ := Obj.call_used ho ec
    obtain ⟨r, er, pr⟩ := ih (n + 1) o' hu (hk'.trans hk)
    refine ⟨v :: r, ?_, .cons pv pr⟩
    simp only [interpolateLoop, e, ec, er, bind, Except.bind]

theorem window_facts {l y : List K} (hs : l.Pairwise (· < ·)) (hy : y.length = l.length) {hw i : Nat}
    (hi : i < l.length) {m : Nat} (h1 : 2 ≤ m) (hm : m ≤ l.length) (hmw : m ≤ hw + 1) (x : K)
    (hn : Nearest l x i) :
    (around l i hw).Pairwise (· < ·) ∧ (around l i hw).length = (around y i hw).length ∧
    m ≤ (around l i hw).length ∧
    (Outside l x → ∀ h2 : 2 ≤ (around l i hw).length,
      x < (around l i hw)[0] ∨ (around l i hw)[(around l i hw).length - 1] < x) ∧
    (∀ j (hj : j + 1 < l.length), l[j] ≤ x → x ≤ l[j + 1] →
      ∃ k, ∃ (hk : k + 1 < (around l i hw).length) (hk' : k + 1 < (around y i hw).length),
        (around l i hw)[k] = l[j] ∧ (around l i hw)[k + 1] = l[j + 1] ∧
        (around y i hw)[k] = y[j] ∧ (around y i hw)[k + 1] = y[j + 1]) := by
  have e1 := around_length l hi hw
  have e2 := around_length y (by omega : i < y.length) hw
  refine ⟨around_pairwise hs i hw, by rw [e1, e2, hy], by omega, ?_, ?_⟩
  · rintro (ho | ho) h2
    · exact Or.inl (ho _ (around_mem (List.getElem_mem _)))
    · exact Or.inr (ho _ (around_mem (List.getElem_mem _)))
  · intro j hj h0 h3
    have hc := nearest_cell hs hj h0 h3 hi hn
    refine ⟨j - (i - hw), by omega, by rw [e2, hy]; omega, ?_, ?_, ?_, ?_⟩
    · rw [around_getElem _ _ _ _ _ (by omega)]; congr 1; omega
    · rw [around_getElem _ _ _ _ _ (by omega)]; congr 1; omega
    · rw [around_getElem _ _ _ _ _ (by omega)]; congr 1; omega
    · rw [around_getElem _ _ _ _ _ (by omega)]; congr 1; omega

theorem interpolate1d_total (same : Nat → Nat → Bool) (junk : Nat → Nat → K) {a : Axis K}
    {l y xi : List K} (ha : Reach false a) (hl : Coordinates a l) (hang : a.isAngle = false)
    (hy : y.length = l.length) (hw : Nat) (be : Bool) (kind : String) (kd : Kind)
    (hkd : kindOf kind = .ok kd) (P : K → Option K → Prop)
    (hP : ∀ x (i : Nat), i < l.length → Nearest l x i → ∀ (o : Obj K) (junk : Nat → K), o.Used same →
      o.kind = kd →
      ∃ v o', o.call same junk (around l i hw) (around y i hw) x = .ok (v, o') ∧ P x v) :
    ∃ r, interpolate1d same junk a y xi hw be kind = .ok r ∧ r.length = xi.length ∧
      ∀ k (h : k < xi.length) (h' : k < r.length), P xi[k] r[k] := by
  have hok := reach_axisOk ha hl
  have hsz : a.size = (l.length : Int) := hok.stores.size_eq
  obtain ⟨r, er, pr⟩ := loop_total same junk hok hy hang hw be P kd hP xi 0 _
    (Obj.new_used same (junk 0) kd).1 (Obj.new_used same (junk 0) kd).2
  obtain ⟨e1, e2⟩ := List.forall₂_iff_get.1 pr
  refine ⟨r, ?_, e1.symm, fun k h h' => by simpa using e2 k h h'⟩
  unfold interpolate1d
  rw [if_neg (by omega)]
  simp only [hkd, bind, Except.bind]
  exact er

/-- C49 for the linear interpolator, on an increasing axis that is not an angle and with a half
window of at least 1: the call succeeds, the value is NaN exactly for the coordinates outside of
the axis, and otherwise it is on the straight line between the two nodes of the cell. -/
theorem C49_linear (same : Nat → Nat → Bool) (junk : Nat → Nat → K) (a : Axis K) (l y xi : List K)
    (ha : Reach false a) (hl : Coordinates a l) (hang : a.isAngle = false)
    (hs : l.Pairwise (· < ·)) (h2 : 2 ≤ l.length) (hy : y.length = l.length) (hw : Nat) (h1 : 1 ≤ hw)
    (be : Bool) :
    ∃ r, interpolate1d same junk a y xi hw be "linear" = .ok r ∧ r.length = xi.length ∧
      ∀ k (h : k < xi.length) (h' : k < r.length),
        (r[k] = none ↔ Outside l xi[k]) ∧
        ∀ i (hi : i + 1 < l.length), l[i] ≤ xi[k] → xi[k] ≤ l[i + 1] →
          ∃ v, r[k] = some v ∧ OnLine l[i] l[i + 1] y[i] y[i + 1] xi[k] v := by
  refine interpolate1d_total same junk ha hl hang hy hw be "linear" .linear rfl
    (fun x v => (v = none ↔ Outside l x) ∧
        ∀ i (hi : i + 1 < l.length), l[i] ≤ x → x ≤ l[i + 1] →
          ∃ w, v = some w ∧ OnLine l[i] l[i + 1] y[i] y[i + 1] x w) ?_
  intro x i hi hn o junk ho hk
  obtain rfl := Obj.of_linear hk
  obtain ⟨w1, w2, w3, w4, w5⟩ := window_facts (hw := hw) hs hy hi (le_refl 2) h2 (by omega) x hn
  rcases search_spec hs h2 x with ⟨j, hj, e, c, d, -⟩ | ⟨-, ho⟩
  · have hno : ¬ Outside l x := by
      rintro (ho | ho)
      · exact absurd (ho l[j] (List.getElem_mem _)) (not_lt.2 c)
      · exact absurd (ho l[j + 1] (List.getElem_mem _)) (not_lt.2 d)
    have key : ∀ j' (hj' : j' + 1 < l.length), l[j'] ≤ x → x ≤ l[j' + 1] →
        ∃ v, linear (around l i hw) (around y i hw) x = .ok (some v) ∧
          OnLine l[j'] l[j' + 1] y[j'] y[j' + 1] x v := by
      intro j' hj' c d
      obtain ⟨k, hk1, hk2, q1, q2, q3, q4⟩ := w5 j' hj' c d
      obtain ⟨v, ev, -, -, hv⟩ := C41_between _ _ w1 w2 k hk1 x (by rw [q1]; exact c) (by rw [q2]; exact d)
      refine ⟨v, ev, ?_⟩
      rw [q1, q2, q3, q4] at hv
      unfold OnLine
      rw [hv]; ring
    obtain ⟨v, ev, -⟩ := key j hj c d
    refine ⟨some v, .linear, ?_, by simp [hno], ?_⟩
    · simp only [Obj.call, ev, bind, Except.bind]
    · intro j' hj' c' d'
      obtain ⟨v', ev', o'⟩ := key j' hj' c' d'
      rw [ev] at ev'
      exact ⟨v', by simpa using ev', o'⟩
  · have ho' : Outside l x := by
      rcases ho with ho | ho
      · exact Or.inr ho
      · exact Or.inl ho
    refine ⟨none, .linear, ?_, by simp [ho'], ?_⟩
    · simp only [Obj.call, (C41_outside _ _ x).2 w1 w2 w3 (w4 ho' w3), bind, Except.bind]
    · intro j hj c d
      rcases ho' with ho | ho
      · exact absurd (ho l[j] (List.getElem_mem _)) (not_lt.2 c)
      · exact absurd (ho l[j + 1] (List.getElem_mem _)) (not_lt.2 d)

theorem steffen_outside (junk : Nat → K) (b : Buf K) {xa ya : List K} (hs : xa.Pairwise (· < ·))
    (hl : xa.length = ya.length) (h3 : 3 ≤ xa.length) {x : K}
    (h : x < xa[0] ∨ xa[xa.length - 1] < x) : ∃ b', steffen junk b xa ya x = .ok (none, b') := by
  obtain ⟨b', e, -⟩ := steffenCompute_eq junk b xa ya hl h3
  refine ⟨b', ?_⟩
  unfold steffen steffenEval
  simp only [e, search_outside hs (by omega) h, bind, Except.bind]

theorem cspline_outside (b : Buf K) (hb : CSplineReach b) {xa ya : List K} (hs : xa.Pairwise (· < ·))
    (hl : xa.length = ya.length) (h4 : 4 ≤ xa.length) {x : K}
    (h : x < xa[0] ∨ xa[xa.length - 1] < x) : ∃ b', cspline b xa ya x = .ok (none, b') := by
  obtain ⟨b', e, -⟩ := csplineCompute_eq b xa ya hb hl h4
  refine ⟨b', ?_⟩
  unfold cspline csplineEval
  simp only [e, search_outside hs (by omega) h, bind, Except.bind]

/-- C49 for the spline (default) and Steffen interpolators, on an increasing axis that is not an
angle, with a half window of at least 3 (2 for Steffen): the call succeeds, the value is NaN
exactly for the coordinates outside of the axis, and at a node it is the value of the node; for
Steffen it is between the values of the two nodes of the cell. -/
theorem C49_splines (same : Nat → Nat → Bool) (junk : Nat → Nat → K) (a : Axis K) (l y xi : List K)
    (ha : Reach false a) (hl : Coordinates a l) (hang : a.isAngle = false)
    (hs : l.Pairwise (· < ·)) (hy : y.length = l.length) (hw : Nat) (be : Bool) (kind : String)
    (hk : (kind = "c_spline" ∧ 4 ≤ l.length ∧ 3 ≤ hw) ∨ (kind = "steffen" ∧ 3 ≤ l.length ∧ 2 ≤ hw)) :
    ∃ r, interpolate1d same junk a y xi hw be kind = .ok r ∧ r.length = xi.length ∧
      ∀ k (h : k < xi.length) (h' : k < r.length),
        (r[k] = none ↔ Outside l xi[k]) ∧
        (∀ i (hi : i < l.length), xi[k] = l[i] → r[k] = some y[i]) ∧
        (kind = "steffen" → ∀ i (hi : i + 1 < l.length), l[i] ≤ xi[k] → xi[k] ≤ l[i + 1] →
          ∃ v, r[k] = some v ∧ InRange [y[i], y[i + 1]] v) := by
  obtain ⟨kd, hkd, hcase⟩ : ∃ kd, kindOf kind = .ok kd ∧
      ((kd = .cspline ∧ kind = "c_spline" ∧ 4 ≤ l.length ∧ 3 ≤ hw) ∨
       (kd = .steffen ∧ kind = "steffen" ∧ 3 ≤ l.length ∧ 2 ≤ hw)) := by
    rcases hk with ⟨rfl, h, h'⟩ | ⟨rfl, h, h'⟩
    · exact ⟨_, rfl, Or.inl ⟨rfl, rfl, h, h'⟩⟩
    · exact ⟨_, rfl, Or.inr ⟨rfl, rfl, h, h'⟩⟩
  refine interpolate1d_total same junk ha hl hang hy hw be kind kd hkd
    (fun x v => (v = none ↔ Outside l x) ∧
        (∀ i (hi : i < l.length), x = l[i] → v = some y[i]) ∧
        (kind = "steffen" → ∀ i (hi : i + 1 < l.length), l[i] ≤ x → x ≤ l[i + 1] →
          ∃ w, v = some w ∧ InRange [y[i], y[i + 1]] w)) ?_
  intro x i hi hn o junk ho hko
  have h3 : 3 ≤ l.length := by rcases hcase with h | h <;> omega
  obtain ⟨w1, w2, w3, w4, w5⟩ := window_facts (hw := hw) hs hy hi (by omega : 2 ≤ 3) h3
    (by rcases hcase with h | h <;> omega) x hn
  have notOut : ∀ j (hj : j + 1 < l.length), l[j] ≤ x → x ≤ l[j + 1] → ¬ Outside l x := by
    rintro j hj c d (ho | ho)
    · exact absurd (ho l[j] (List.getElem_mem _)) (not_lt.2 c)
    · exact absurd (ho l[j + 1] (List.getElem_mem _)) (not_lt.2 d)
  -- the evaluation in a cell of the window
  have inside : ∀ j (hj : j + 1 < l.length), l[j] ≤ x → x ≤ l[j + 1] →
      ∃ v o', o.call same junk (around l i hw) (around y i hw) x = .ok (some v, o') ∧
        (x = l[j] → v = y[j]) ∧ (x = l[j + 1] → v = y[j + 1]) ∧
        (kind = "steffen" → InRange [y[j], y[j + 1]] v) := by
    intro j hj c d
    obtain ⟨k, hk1, hk2, q1, q2, q3, q4⟩ := w5 j hj c d
    rcases hcase with ⟨hkd', hkind, h4, hw3⟩ | ⟨hkd', hkind, h4, hw3⟩
    · subst hkd'
      obtain ⟨b, rfl⟩ := Obj.of_cspline hko
      obtain ⟨-, -, w3', -, -⟩ := window_facts (hw := hw) hs hy hi (by omega : 2 ≤ 4) h4 (by omega) x hn
      obtain ⟨P, hP, hev⟩ := C43_natural _ _ w1 w2 w3'
      obtain ⟨b', e, -⟩ := hev b ho k hk1 x (by rw [q1]; exact c) (by rw [q2]; exact d)
      refine ⟨(P k).eval x, .cspline b', by simp only [Obj.call, e, bind, Except.bind], ?_, ?_, ?_⟩
      · intro hx
        have := hP.left k hk1 (by omega)
        rw [hx, ← q1, this, q3]
      · intro hx
        have := hP.right k hk1 (by omega)
        rw [hx, ← q2, this, q4]
      · intro h; rw [hkind] at h; exact absurd h (by decide)
    · subst hkd'
      obtain ⟨b, rfl⟩ := Obj.of_steffen hko
      obtain ⟨P, hP, hev⟩ := C42_pieces _ _ w1 w2 w3
      obtain ⟨b', e, -⟩ := hev b junk ho k hk1 x (by rw [q1]; exact c) (by rw [q2]; exact d)
      refine ⟨(P k).eval x, .steffen b', by simp only [Obj.call, e, bind, Except.bind], ?_, ?_, ?_⟩
      · intro hx
        have := hP.left k hk1 (by omega)
        rw [hx, ← q1, this, q3]
      · intro hx
        have := hP.right k hk1 (by omega)
        rw [hx, ← q2, this, q4]
      · intro _
        obtain ⟨v, v', b1, c1, e1, e2, m1, m2⟩ := C42_monotone _ _ w1 w2 w3 b b junk ho ho k hk1 x x
          (by rw [q1]; exact c) (le_refl _) (by rw [q2]; exact d)
        rw [e] at e1
        have hv := (Prod.mk.inj (Except.ok.inj e1)).1
        rw [Option.some.injEq] at hv
        rw [hv]
        rw [e] at e2
        have hv' := (Prod.mk.inj (Except.ok.inj e2)).1
        rw [Option.some.injEq] at hv'
        have hvv : v' = v := by rw [← hv, hv']
        subst hvv
        rw [q3, q4] at m1 m2
        rcases le_total y[j] y[j + 1] with hle | hle
        · obtain ⟨a1, -, a2⟩ := m1 hle
          exact ⟨⟨_, by simp, a1⟩, ⟨_, List.mem_cons_of_mem _ (List.mem_cons_self ..), a2⟩⟩
        · obtain ⟨a1, -, a2⟩ := m2 hle
          exact ⟨⟨_, List.mem_cons_of_mem _ (List.mem_cons_self ..), a1⟩, ⟨_, by simp, a2⟩⟩
  rcases search_spec hs (by omega) x with ⟨j, hj, e, c, d, -⟩ | ⟨-, ho'⟩
  · obtain ⟨v, o', ev, -, -, -⟩ := inside j hj c d
    refine ⟨some v, o', ev, by simp [notOut j hj c d], ?_, ?_⟩
    · intro p hp hx
      cases p with
      | zero =>
        obtain ⟨v', o'', ev', a1, -, -⟩ := inside 0 (by omega) hx.ge
          (hx.le.trans (pairwise_le hs _ (by omega) (by omega)))
        rw [ev] at ev'
        have := (Prod.mk.inj (Except.ok.inj ev')).1
        rw [this, a1 hx]
      | succ p =>
        obtain ⟨v', o'', ev', -, a1, -⟩ := inside p hp
          ((pairwise_le hs (by omega) hp (by omega)).trans hx.ge) hx.le
        rw [ev] at ev'
        have := (Prod.mk.inj (Except.ok.inj ev')).1
        rw [this, a1 hx]
    · intro hst p hp c' d'
      obtain ⟨v', o'', ev', -, -, a1⟩ := inside p hp c' d'
      rw [ev] at ev'
      exact ⟨v', (Prod.mk.inj (Except.ok.inj ev')).1, a1 hst⟩
  · have ho2 : Outside l x := ho'.symm
    have hcall : ∃ o', o.call same junk (around l i hw) (around y i hw) x = .ok (none, o') := by
      rcases hcase with ⟨hkd', hkind, h4, hw3⟩ | ⟨hkd', hkind, h4, hw3⟩
      · subst hkd'
        obtain ⟨b, rfl⟩ := Obj.of_cspline hko
        obtain ⟨-, -, w3', -, -⟩ := window_facts (hw := hw) hs hy hi (by omega : 2 ≤ 4) h4 (by omega) x hn
        obtain ⟨b', e⟩ := cspline_outside b ho w1 w2 w3' (w4 ho2 (by omega))
        exact ⟨.cspline b', by simp only [Obj.call, e, bind, Except.bind]⟩
      · subst hkd'
        obtain ⟨b, rfl⟩ := Obj.of_steffen hko
        obtain ⟨b', e⟩ := steffen_outside junk b w1 w2 w3 (w4 ho2 (by omega))
        exact ⟨.steffen b', by simp only [Obj.call, e, bind, Except.bind]⟩
    obtain ⟨o', e⟩ := hcall
    have ni : ∀ j (hj : j < l.length), x ≠ l[j] := by
      rintro j hj rfl
      rcases ho2 with ho | ho
      · exact absurd (ho l[j] (List.getElem_mem _)) (lt_irrefl _)
      · exact absurd (ho l[j] (List.getElem_mem _)) (lt_irrefl _)
    refine ⟨none, o', e, by simp [ho2], fun p hp hx => absurd hx (ni p hp), fun _ p hp c d =>
      absurd ho2 (notOut p hp c d)⟩

/-- C49, the part that fails: `bounds_error` has no effect, whatever the arguments: the nearest
index is searched with `bounded = true`, which never gives -1. -/
theorem C49_bounds_error_false (same : Nat → Nat → Bool) (junk : Nat → Nat → K) (a : Axis K)
    (l y xi : List K) (ha : Reach false a) (hl : Coordinates a l) (half : Int) (kind : String) :
    interpolate1d same junk a y xi half true kind = interpolate1d same junk a y xi half false kind := by
  have hok := reach_axisOk ha hl
  have one : ∀ junk o x, interpolateOne same junk a y half true o x =
      interpolateOne same junk a y half false o x := by
    intro junk o x
    obtain ⟨c, i, e, -⟩ := findIndex_bounded hok x
    unfold interpolateOne
    simp only [e, bind, Except.bind]
    rw [if_neg (by omega), if_neg (by omega)]
  have loop : ∀ n o, interpolateLoop same junk a y half true n o xi =
      interpolateLoop same junk a y half false n o xi := by
    induction xi with
    | nil => intro n o; rfl
    | cons x xi ih =>
      intro n o
      simp only [interpolateLoop, one, ih]
  unfold interpolate1d
  simp only [loop]

section Examples

/-- A regular axis 0, 1, …, 5 of rational numbers. -/
def exAxis : Axis ℚ := ⟨false, none, .regular ⟨6, 0, 1, 1, true⟩⟩

theorem exAxis_reach : Reach false exAxis :=
  .regular 0 5 6 (1 / 1000000) false _ (by decide +kernel)

theorem exAxis_coordinates : Coordinates exAxis [0, 1, 2, 3, 4, 5] :=
  ⟨rfl, by decide +kernel⟩

/- Non vacuity of `C49_values`, `C49_linear` and `C49_splines`. -/
example : interpolate1d (fun _ _ => true) (fun _ _ => 7) exAxis [0, 1, 4, 9, 16, 25] [5 / 2, 5, 6, 0]
    3 true "linear" = .ok [some (13 / 2), some 25, none, some 0] := by decide +kernel

example : interpolate1d (fun _ _ => true) (fun _ _ => 7) exAxis [0, 1, 4, 9, 16, 25] [5, 6]
    3 true "c_spline" = .ok [some 25, none] := by decide +kernel

example : exAxis.isAngle = false ∧ ([0, 1, 2, 3, 4, 5] : List ℚ).Pairwise (· < ·) := by decide +kernel

/-- C49, the part that fails: on an axis of longitudes the coordinate is brought back to the axis to
choose the window, but not to interpolate: 365 degrees gives NaN, 5 degrees a value. -/
theorem C49_angle_false :
    ∃ (a : Axis ℚ) (y : List ℚ), mkAxis false [0, 90, 180, 270] 0 true = .ok a ∧
      interpolate1d (fun _ _ => true) (fun _ _ => 0) a y [5, 365] 1 false "linear" =
        .ok [some 5, none] :=
  ⟨⟨true, some 360, .regular ⟨4, 0, 90, 1 / 90, true⟩⟩, [0, 90, 180, 270], by decide +kernel,
    by decide +kernel⟩

/-- C49, the part that fails: on a decreasing axis coordinates inside of the axis give NaN. -/
theorem C49_descending_false :
    ∃ (a : Axis ℚ) (y : List ℚ), mkAxis false [3, 2, 1, 0] 0 false = .ok a ∧
      interpolate1d (fun _ _ => true) (fun _ _ => 0) a y [3 / 2] 1 false "linear" = .ok [none] :=
  ⟨⟨false, none, .regular ⟨4, 3, -1, -1, false⟩⟩, [3, 2, 1, 0], by decide +kernel,
    by decide +kernel⟩

end Examples
end Pyinterp.Interp
