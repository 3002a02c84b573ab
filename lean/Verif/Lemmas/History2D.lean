import Verif.Lemmas.Bicubic

/-
The interpolators of windows of a constant size do not remember the previous windows.
-/
namespace Pyinterp.Interp
open Spec
set_option linter.unusedSectionVars false
set_option linter.unusedVariables false
set_option linter.unusedSimpArgs false

section
variable {K : Type} [Field K] [LinearOrder K] [IsStrictOrderedRing K]

/-! ### the solver of CSplinePeriodic only reads what `compute_coefficients` writes -/

/-- The elements that the solver reads. -/
def Band (n r s : Nat) : Prop :=
  r < n ∧ s < n ∧ (r = s ∨ s = r + 1 ∨ r = s + 1 ∨ (r = n - 1 ∧ s = 0))

variable {A A' : Nat → Nat → K} {b b' : Nat → K} {n : Nat}

theorem cycGamma_congr (h : ∀ r s, Band n r s → A r s = A' r s) (i : Nat) (hi : i + 1 < n) :
    cycGamma A i = cycGamma A' i := by
  induction i with
  | zero => simp only [cycGamma]; rw [h 0 1 (by unfold Band; omega), h 0 0 (by unfold Band; omega)]
  | succ i ih =>
    simp only [cycGamma]
    rw [h (i + 1) (i + 2) (by unfold Band; omega), h (i + 1) (i + 1) (by unfold Band; omega),
      h (i + 1) i (by unfold Band; omega), ih (by omega)]

theorem cycAlpha_congr (h : ∀ r s, Band n r s → A r s = A' r s) (i : Nat) (hi : i < n) :
    cycAlpha A i = cycAlpha A' i := by
  cases i with
  | zero => simp only [cycAlpha]; rw [h 0 0 (by unfold Band; omega)]
  | succ i =>
    simp only [cycAlpha]
    rw [h (i + 1) (i + 1) (by unfold Band; omega), h (i + 1) i (by unfold Band; omega),
      cycGamma_congr h i hi]

theorem cycDelta_congr (h : ∀ r s, Band n r s → A r s = A' r s) (i : Nat) (hi : i < n) :
    cycDelta A n i = cycDelta A' n i := by
  induction i with
  | zero => simp only [cycDelta]; rw [h (n - 1) 0 (by unfold Band; omega), cycAlpha_congr h 0 hi]
  | succ i ih =>
    simp only [cycDelta]
    rw [ih (by omega), h (i + 1) i (by unfold Band; omega), cycAlpha_congr h (i + 1) hi]

theorem cycGammaLast_congr (h : ∀ r s, Band n r s → A r s = A' r s) (hn : 3 ≤ n) :
    cycGammaLast A n = cycGammaLast A' n := by
  simp only [cycGammaLast]
  rw [h (n - 2) (n - 1) (by unfold Band; omega), h (n - 2) (n - 3) (by unfold Band; omega),
    cycDelta_congr h (n - 3) (by omega), cycAlpha_congr h (n - 2) (by omega)]

theorem sumTo_congr (f g : Nat → K) (k : Nat) (h : ∀ i, i < k → f i = g i) : sumTo f k = sumTo g k := by
  induction k with
  | zero => rfl
  | succ k ih => simp only [sumTo]; rw [ih (fun i hi => h i (by omega)), h k (by omega)]

theorem cycAlphaLast_congr (h : ∀ r s, Band n r s → A r s = A' r s) (hn : 3 ≤ n) :
    cycAlphaLast A n = cycAlphaLast A' n := by
  simp only [cycAlphaLast]
  rw [h (n - 1) (n - 1) (by unfold Band; omega), cycGammaLast_congr h hn,
    cycAlpha_congr h (n - 2) (by omega), sumTo_congr _ _ (n - 2) (fun i hi => by
      rw [cycAlpha_congr h i (by omega), cycDelta_congr h i (by omega)])]

theorem cycZ_congr (h : ∀ r s, Band n r s → A r s = A' r s) (hb : ∀ r, r < n → b r = b' r) (i : Nat)
    (hi : i < n) : cycZ A b i = cycZ A' b' i := by
  induction i with
  | zero => simp only [cycZ]; rw [hb 0 hi]
  | succ i ih => simp only [cycZ]; rw [hb (i + 1) hi, ih (by omega), cycGamma_congr h i hi]

theorem cycLast_congr (h : ∀ r s, Band n r s → A r s = A' r s) (hb : ∀ r, r < n → b r = b' r)
    (hn : 3 ≤ n) : cycLast A b n = cycLast A' b' n := by
  simp only [cycLast]
  rw [hb (n - 1) (by omega), cycGammaLast_congr h hn, cycZ_congr h hb (n - 2) (by omega),
    cycAlphaLast_congr h hn, sumTo_congr _ _ (n - 2) (fun i hi => by
      rw [cycDelta_congr h i (by omega), cycZ_congr h hb i (by omega)])]

theorem cycBack_congr (h : ∀ r s, Band n r s → A r s = A' r s) (hb : ∀ r, r < n → b r = b' r)
    (hn : 3 ≤ n) (j : Nat) : cycBack A b n j = cycBack A' b' n j := by
  induction j with
  | zero =>
    simp only [cycBack]
    rw [cycZ_congr h hb (n - 2) (by omega), cycAlpha_congr h (n - 2) (by omega),
      cycGammaLast_congr h hn, cycLast_congr h hb hn]
  | succ j ih =>
    simp only [cycBack]
    rw [cycZ_congr h hb (n - 3 - j) (by omega), cycAlpha_congr h (n - 3 - j) (by omega),
      cycGamma_congr h (n - 3 - j) (by omega), ih, cycDelta_congr h (n - 3 - j) (by omega),
      cycLast_congr h hb hn]

theorem cycSolve_congr (h : ∀ r s, Band n r s → A r s = A' r s) (hb : ∀ r, r < n → b r = b' r)
    (h1 : 1 ≤ n) : cycSolve A b n = cycSolve A' b' n := by
  unfold cycSolve
  by_cases e1 : n = 1
  · rw [if_pos e1, if_pos e1, hb 0 (by omega), h 0 0 (by unfold Band; omega)]
  · rw [if_neg e1, if_neg e1]
    by_cases e3 : n < 3
    · rw [if_pos e3, if_pos e3]
    · rw [if_neg e3, if_neg e3]
      congr 1
      funext i
      rw [cycLast_congr h hb (by omega), cycBack_congr h hb (by omega)]

theorem cycMatrix_band (xa : List K) (old old' : Nat → Nat → K) (h2 : 2 ≤ xa.length) (r s : Nat)
    (h : Band (xa.length - 1) r s) : cycMatrix xa old r s = cycMatrix xa old' r s := by
  unfold Band at h
  unfold cycMatrix
  simp only
  split
  · rfl
  split
  · rfl
  split
  · rfl
  split
  · rfl
  split
  · rfl
  split
  · rfl
  · omega

theorem cycRhs_band (xa ya : List K) (old old' : Nat → K) (h2 : 2 ≤ xa.length) (r : Nat)
    (h : r < xa.length - 1) : cycRhs xa ya old r = cycRhs xa ya old' r := by
  unfold cycRhs
  simp only
  split
  · rfl
  split
  · rfl
  · omega

/-- The second part of `periodicCompute`. -/
theorem periodicTail (rows : Nat) (x x' : Buf K) (size : Nat) (hx : x.size = rows + 1)
    (hx' : x'.size = rows + 1) (hs : size = rows + 1)
    (hr : 1 ≤ rows) (sol : Nat → K) :
    ∃ y y' : Buf K, (do
        let x ← x.fill 1 (rows + 1) (fun i => sol (i - 1))
        x.fill 0 1 (fun _ => x.val (size - 1))) = .ok y ∧ (do
        let x ← x'.fill 1 (rows + 1) (fun i => sol (i - 1))
        x.fill 0 1 (fun _ => x.val (size - 1))) = .ok y' ∧ y.size = size ∧ y'.size = size ∧ ∀ i, y.rd i = y'.rd i := by
  simp only [bind, Except.bind, Buf.fill]
  rw [if_pos (Or.inr (by omega)), if_pos (Or.inr (by omega))]
  simp only
  rw [if_pos (Or.inr (by omega)), if_pos (Or.inr (by omega))]
  refine ⟨_, _, rfl, rfl, by simp only; omega, by simp only; omega, ?_⟩
  intro i
  simp only [Buf.rd, hx, hx']
  by_cases hi : i < rows + 1
  · rw [if_pos hi, if_pos hi]
    congr 1
    by_cases h0 : 0 ≤ i ∧ i < 1
    · rw [if_pos h0, if_pos h0]
      by_cases h1 : 1 ≤ size - 1 ∧ size - 1 < rows + 1
      · rw [if_pos h1, if_pos h1]
      · omega
    · rw [if_neg h0, if_neg h0, if_pos (by omega), if_pos (by omega)]
  · rw [if_neg hi, if_neg hi]


/-- The state used by a call whose window has the size of the previous ones. -/
theorem periodic_start (junk : Nat → K) {st : PeriodicState K} (hst : PeriodicReach st) (xa : List K)
    (h2 : 2 ≤ xa.length) (hz : st.x.size = 0 ∨ st.x.size = xa.length) :
    let t := if st.x.size < xa.length then
      ⟨xa.length - 1, fun _ _ => 0, junk, ⟨xa.length, fun _ => 0⟩⟩ else st
    t.rows = xa.length - 1 ∧ t.x.size = xa.length := by
  by_cases h : st.x.size < xa.length
  · simp only [if_pos h, and_self]
  · simp only [if_neg h]
    rcases hst.sizes with ⟨_, h'⟩ | ⟨h', _⟩ <;> omega

/-- `CSplinePeriodic::compute_coefficients` on two objects that have only seen windows of this
size. -/
theorem periodicCompute_fresh (junk junk' : Nat → K) {st st' : PeriodicState K}
    (hst : PeriodicReach st) (hst' : PeriodicReach st') (xa ya : List K)
    (hz : st.x.size = 0 ∨ st.x.size = xa.length) (hz' : st'.x.size = 0 ∨ st'.x.size = xa.length) :
    (∃ e, periodicCompute junk st xa ya = .error e ∧ periodicCompute junk' st' xa ya = .error e) ∨
    ∃ s s', periodicCompute junk st xa ya = .ok s ∧ periodicCompute junk' st' xa ya = .ok s' ∧
      s.x.size = xa.length ∧ s'.x.size = xa.length ∧ ∀ i, s.x.rd i = s'.x.rd i := by
  rcases checkSizes_cases 2 xa ya with ⟨hc, hl, h2⟩ | hc
  · obtain ⟨r1, r2⟩ := periodic_start junk hst xa h2 hz
    obtain ⟨r1', r2'⟩ := periodic_start junk' hst' xa h2 hz'
    unfold periodicCompute
    simp only [hc, bind, Except.bind]
    generalize (if st.x.size < xa.length then
      (⟨xa.length - 1, fun _ _ => 0, junk, ⟨xa.length, fun _ => 0⟩⟩ : PeriodicState K) else st) = t at *
    generalize (if st'.x.size < xa.length then
      (⟨xa.length - 1, fun _ _ => 0, junk', ⟨xa.length, fun _ => 0⟩⟩ : PeriodicState K) else st') = t' at *
    have hsol : cycSolve (cycMatrix xa t.A) (cycRhs xa ya t.b) t.rows =
        cycSolve (cycMatrix xa t'.A) (cycRhs xa ya t'.b) t'.rows := by
      rw [r1, r1']
      exact cycSolve_congr (fun r s h => cycMatrix_band xa _ _ h2 r s h)
        (fun r h => cycRhs_band xa ya _ _ h2 r h) (by omega)
    rw [hsol]
    cases cycSolve (cycMatrix xa t'.A) (cycRhs xa ya t'.b) t'.rows with
    | error e => exact Or.inl ⟨e, rfl, rfl⟩
    | ok sol =>
      right
      obtain ⟨y, y', e, e', z, z', hy⟩ := periodicTail (xa.length - 1) t.x t'.x xa.length (by omega)
        (by omega) (by omega) (by omega) sol
      rw [r1, r1']
      simp only [bind, Except.bind] at e e' ⊢
      cases f : t.x.fill 1 (xa.length - 1 + 1) (fun i => sol (i - 1)) with
      | error => rw [f] at e; cases e
      | ok g =>
        cases f' : t'.x.fill 1 (xa.length - 1 + 1) (fun i => sol (i - 1)) with
        | error => rw [f'] at e'; cases e'
        | ok g' =>
          rw [f] at e
          rw [f'] at e'
          simp only at e e' ⊢
          rw [e, e']
          exact ⟨_, _, rfl, rfl, z, z', hy⟩
  · left
    unfold periodicCompute
    simp only [hc, bind, Except.bind]
    exact ⟨_, rfl, rfl⟩

theorem csplineEval_congr {b c : Buf K} (h : ∀ i, b.rd i = c.rd i) (xa ya : List K) (x : K) :
    csplineEval b xa ya x = csplineEval c xa ya x := by
  unfold csplineEval
  simp only [h]

/-- The object has only seen windows of the size `n`. -/
def Obj.Sized (n : Nat) : Obj K → Prop
  | .csplinePeriodic st => st.x.size = 0 ∨ st.x.size = n
  | _ => True

theorem Obj.new_sized (n : Nat) (junk : Nat → K) (k : Kind) : (Obj.new junk k).Sized n := by
  cases k <;> simp [Obj.new, Obj.Sized]

theorem Obj.call_sized {same : Nat → Nat → Bool} {junk : Nat → K} {o o' : Obj K} {xa ya : List K}
    {x : K} {r : Option K} (ho : o.Used same) (hs : o.Sized xa.length)
    (h : o.call same junk xa ya x = .ok (r, o')) : o'.Sized xa.length := by
  have hk := (Obj.call_used ho h).2
  cases o' with
  | csplinePeriodic st' =>
    cases o with
    | csplinePeriodic st =>
      simp only [Obj.call, Interp.csplinePeriodic, bind, Except.bind] at h
      rcases periodicCompute_fresh junk junk ho ho xa ya hs hs with ⟨e, h1, -⟩ | ⟨s, s', h1, -, h3, -, -⟩
      · rw [h1] at h; cases h
      · rw [h1] at h
        simp only at h
        cases e : csplineEval s.x xa ya x with
        | error => rw [e] at h; cases h
        | ok v =>
          rw [e] at h
          cases h
          exact Or.inr h3
    | akima p s => cases p <;> simp [Obj.kind] at hk
    | _ => simp [Obj.kind] at hk
  | _ => trivial

/-- The result of a call does not depend on the previous calls, all on windows of the same size. -/
theorem Obj.call_const (same : Nat → Nat → Bool) (junk junk' : Nat → K) (o o' : Obj K)
    (xa ya : List K) (x : K) (ho : o.Used same) (ho' : o'.Used same) (hk : o.kind = o'.kind)
    (hs : o.Sized xa.length) (hs' : o'.Sized xa.length) :
    (o.call same junk xa ya x).map (·.1) = (o'.call same junk' xa ya x).map (·.1) := by
  by_cases hp : o.kind = .csplinePeriodic
  · cases o with
    | csplinePeriodic st =>
      cases o' with
      | csplinePeriodic st' =>
        simp only [Obj.call, Interp.csplinePeriodic, bind, Except.bind]
        rcases periodicCompute_fresh junk junk' ho ho' xa ya hs hs' with
          ⟨e, h1, h2⟩ | ⟨s, s', h1, h2, -, -, h5⟩
        · rw [h1, h2]
        · rw [h1, h2]
          simp only [csplineEval_congr h5]
          cases csplineEval s'.x xa ya x <;> rfl
      | akima p s => cases p <;> simp [Obj.kind] at hk
      | _ => simp [Obj.kind] at hk
    | akima p s => cases p <;> simp [Obj.kind] at hp
    | _ => simp [Obj.kind] at hp
  · exact Obj.call_fresh same junk junk' o o' xa ya x ho ho' hk hp

/-! ### 2D interpolators -/

/-- The classes of the objects, the state of which was left by calls on windows of `nx` by `ny`
points. -/
def Obj2D.Used (same : Nat → Nat → Bool) (nx ny : Nat) : Kind2D → Obj2D K → Prop
  | .bilinear, .bilinear => True
  | .bicubic, .bicubic b => CSplineReach b
  | .spline k, .spline ox oy => ox.Used same ∧ ox.kind = k ∧ ox.Sized nx ∧
      oy.Used same ∧ oy.kind = k ∧ oy.Sized ny
  | _, _ => False

theorem Obj2D.new_used (same : Nat → Nat → Bool) (nx ny : Nat) (junk : Nat → K) (k : Kind2D) :
    (Obj2D.new junk k).Used same nx ny k := by
  cases k with
  | bilinear => trivial
  | bicubic => exact .new _
  | spline k =>
    exact ⟨(Obj.new_used same junk k).1, (Obj.new_used same junk k).2, Obj.new_sized _ _ _,
      (Obj.new_used same junk k).1, (Obj.new_used same junk k).2, Obj.new_sized _ _ _⟩

theorem columnLoop_used {same : Nat → Nat → Bool} {junk : Nat → K} {xa : List K} {x : K} {k : Kind}
    (cs : List (List K)) {o o' : Obj K} {r : List K} (ho : o.Used same) (hk : o.kind = k)
    (hs : o.Sized xa.length) (h : columnLoop same junk xa x o cs = .ok (r, o')) :
    o'.Used same ∧ o'.kind = k ∧ o'.Sized xa.length := by
  induction cs generalizing o r with
  | nil => simp only [columnLoop] at h; cases h; exact ⟨ho, hk, hs⟩
  | cons c cs ih =>
    simp only [columnLoop, bind, Except.bind] at h
    cases e : o.call same junk xa c x with
    | error => rw [e] at h; cases h
    | ok w =>
      obtain ⟨v, o1⟩ := w
      rw [e] at h
      simp only at h
      obtain ⟨u1, u2⟩ := Obj.call_used ho e
      have u3 := Obj.call_sized ho hs e
      cases ev : noNan v with
      | error => rw [ev] at h; cases h
      | ok v' =>
        rw [ev] at h
        simp only at h
        cases et : columnLoop same junk xa x o1 cs with
        | error => rw [et] at h; cases h
        | ok t =>
          obtain ⟨tr, tobj⟩ := t
          rw [et] at h
          cases h
          exact ih u1 (u2.trans hk) u3 et

theorem columnLoop_const {same : Nat → Nat → Bool} {junk junk' : Nat → K} {xa : List K} {x : K}
    (cs : List (List K)) {o o' : Obj K} (ho : o.Used same) (ho' : o'.Used same) (hk : o.kind = o'.kind)
    (hs : o.Sized xa.length) (hs' : o'.Sized xa.length) :
    (columnLoop same junk xa x o cs).map (·.1) = (columnLoop same junk' xa x o' cs).map (·.1) := by
  induction cs generalizing o o' with
  | nil => rfl
  | cons c cs ih =>
    have h := Obj.call_const same junk junk' o o' xa c x ho ho' hk hs hs'
    simp only [columnLoop, bind, Except.bind]
    cases e : o.call same junk xa c x with
    | error =>
      rw [e] at h
      cases e' : o'.call same junk' xa c x with
      | error => rw [e'] at h; simp only [Except.map] at h ⊢; exact congrArg _ (Except.error.inj h)
      | ok w => rw [e'] at h; cases h
    | ok w =>
      rw [e] at h
      obtain ⟨v, o1⟩ := w
      cases e' : o'.call same junk' xa c x with
      | error => rw [e'] at h; cases h
      | ok w' =>
        rw [e'] at h
        obtain ⟨v', o1'⟩ := w'
        have hv : v = v' := Except.ok.inj h
        subst hv
        simp only
        obtain ⟨u1, u2⟩ := Obj.call_used ho e
        obtain ⟨u1', u2'⟩ := Obj.call_used ho' e'
        have ih' := ih u1 u1' (u2.trans (hk.trans u2'.symm)) (Obj.call_sized ho hs e)
          (Obj.call_sized ho' hs' e')
        cases noNan v with
        | error => rfl
        | ok v' =>
          simp only
          cases et : columnLoop same junk xa x o1 cs with
          | error =>
            rw [et] at ih'
            cases et' : columnLoop same junk' xa x o1' cs with
            | error => rw [et'] at ih'; simp only [Except.map] at ih' ⊢; exact congrArg _ (Except.error.inj ih')
            | ok w => rw [et'] at ih'; cases ih'
          | ok t =>
            rw [et] at ih'
            cases et' : columnLoop same junk' xa x o1' cs with
            | error => rw [et'] at ih'; cases ih'
            | ok t' =>
              rw [et'] at ih'
              simp only [Except.map] at ih' ⊢
              rw [Except.ok.inj ih']


theorem csplineDerivEval_congr {b c : Buf K} {xa : List K} (h : ∀ i, i < xa.length → b.rd i = c.rd i)
    (ya : List K) (x : K) : csplineDerivEval b xa ya x = csplineDerivEval c xa ya x := by
  unfold csplineDerivEval
  cases hsr : search xa x with
  | none => rfl
  | some p =>
    obtain ⟨i, j⟩ := p
    simp only
    have out : ∀ k, xa.length ≤ k → rd xa (k : Nat) = .error .ub := by
      intro k hk
      simp [rd, List.getElem?_eq_none hk]
    by_cases hi : i < xa.length
    · by_cases hj : j < xa.length
      · rw [h i hi, h j hj]
      · cases rd ya (i : Nat) with
        | error => rw [rd_eq hi]; rfl
        | ok v => rw [rd_eq hi, out j (by omega)]; simp only [bind, Except.bind]
    · rw [out i (by omega)]
      simp only [bind, Except.bind]

/-- Two computations with the same result, that leave splines in a state they can have. -/
def SameResult {α : Type} (m m' : Out (α × Buf K)) : Prop :=
  (∃ e, m = .error e ∧ m' = .error e) ∨
    ∃ a b b', m = .ok (a, b) ∧ m' = .ok (a, b') ∧ CSplineReach b ∧ CSplineReach b'

theorem nodeDerivatives_const {b b' : Buf K} (hb : CSplineReach b) (hb' : CSplineReach b') (xa ya : List K) :
    SameResult (nodeDerivatives b xa ya) (nodeDerivatives b' xa ya) := by
  unfold nodeDerivatives
  rcases checkSizes_cases 4 xa ya with ⟨_, hl, h4⟩ | hck
  · obtain ⟨c, e, hc⟩ := csplineCompute_eq b xa ya hb hl h4
    obtain ⟨c', e', hc'⟩ := csplineCompute_eq b' xa ya hb' hl h4
    have he : ∀ x, csplineDerivEval c xa ya x = csplineDerivEval c' xa ya x := fun x =>
      csplineDerivEval_congr (fun i hi => (hc i hi).trans (hc' i hi).symm) ya x
    have hf : (fun x => csplineDerivEval c xa ya x >>= noNan) =
        (fun x => csplineDerivEval c' xa ya x >>= noNan) := funext fun x => by rw [he]
    rw [e, e']
    change SameResult (Except.bind (xa.mapM _) _) (Except.bind (xa.mapM _) _)
    rw [hf]
    cases h : xa.mapM (fun x => csplineDerivEval c' xa ya x >>= noNan) with
    | error er => exact Or.inl ⟨er, rfl, rfl⟩
    | ok v => exact Or.inr ⟨v, c, c', rfl, rfl, .call xa ya hb e, .call xa ya hb' e'⟩
  · left
    unfold csplineCompute
    simp only [hck, bind, Except.bind]
    exact ⟨_, rfl, rfl⟩

theorem derivativeLoop_const (xs : List K) (cs : List (List K)) {b b' : Buf K} (hb : CSplineReach b)
    (hb' : CSplineReach b') : SameResult (derivativeLoop xs b cs) (derivativeLoop xs b' cs) := by
  induction cs generalizing b b' with
  | nil => exact Or.inr ⟨[], b, b', rfl, rfl, hb, hb'⟩
  | cons c cs ih =>
    rcases nodeDerivatives_const hb hb' xs c with ⟨e, h1, h2⟩ | ⟨a, c1, c2, h1, h2, h3, h4⟩
    · exact Or.inl ⟨e, by simp only [derivativeLoop, h1, bind, Except.bind],
        by simp only [derivativeLoop, h2, bind, Except.bind]⟩
    · rcases ih h3 h4 with ⟨e, g1, g2⟩ | ⟨a', d1, d2, g1, g2, g3, g4⟩
      · exact Or.inl ⟨e, by simp only [derivativeLoop, h1, g1, bind, Except.bind],
          by simp only [derivativeLoop, h2, g2, bind, Except.bind]⟩
      · exact Or.inr ⟨a :: a', d1, d2, by simp only [derivativeLoop, h1, g1, bind, Except.bind],
          by simp only [derivativeLoop, h2, g2, bind, Except.bind], g3, g4⟩

theorem bicubicCompute_const (xa ya : List K) (za : Mat K) {b b' : Buf K} (hb : CSplineReach b)
    (hb' : CSplineReach b') : SameResult (bicubicCompute b xa ya za) (bicubicCompute b' xa ya za) := by
  unfold bicubicCompute
  cases checkSizes2D xa ya za with
  | error e => exact Or.inl ⟨e, rfl, rfl⟩
  | ok u =>
    simp only [bind, Except.bind]
    rcases derivativeLoop_const xa ((List.range ya.length).map za.col) hb hb' with
      ⟨e, h1, h2⟩ | ⟨a, c1, c2, h1, h2, h3, h4⟩
    · rw [h1, h2]; exact Or.inl ⟨e, rfl, rfl⟩
    rw [h1, h2]
    simp only
    rcases derivativeLoop_const ya ((List.range xa.length).map za.row) h3 h4 with
      ⟨e, g1, g2⟩ | ⟨a', d1, d2, g1, g2, g3, g4⟩
    · rw [g1, g2]; exact Or.inl ⟨e, rfl, rfl⟩
    rw [g1, g2]
    simp only
    rcases derivativeLoop_const xa ((List.range ya.length).map fun (j : Nat) =>
      (List.range xa.length).map fun (i : Nat) => at2 a' i j) g3 g4 with
      ⟨e, f1, f2⟩ | ⟨a'', k1, k2, f1, f2, f3, f4⟩
    · rw [f1, f2]; exact Or.inl ⟨e, rfl, rfl⟩
    rw [f1, f2]
    exact Or.inr ⟨_, k1, k2, rfl, rfl, f3, f4⟩

theorem Obj2D.call_used {same : Nat → Nat → Bool} {junk : Nat → K} {k : Kind2D} {o o' : Obj2D K}
    {xa ya : List K} {za : Mat K} {x y : K} {r : Option K} (ho : o.Used same xa.length ya.length k)
    (h : o.call same junk xa ya za x y = .ok (r, o')) : o'.Used same xa.length ya.length k := by
  cases o with
  | bilinear =>
    cases k <;> simp only [Obj2D.Used] at ho
    simp only [Obj2D.call, bind, Except.bind] at h
    cases e : checkSizes2D xa ya za with
    | error => rw [e] at h; cases h
    | ok =>
      rw [e] at h
      simp only at h
      cases e' : bilinearEval xa ya za x y with
      | error => rw [e'] at h; cases h
      | ok => rw [e'] at h; cases h; trivial
  | bicubic b =>
    cases k <;> simp only [Obj2D.Used] at ho
    simp only [Obj2D.call, bind, Except.bind] at h
    rcases bicubicCompute_const xa ya za ho ho with ⟨e, h1, -⟩ | ⟨a, c1, c2, h1, -, h3, -⟩
    · rw [h1] at h; cases h
    · rw [h1] at h
      simp only at h
      cases e' : bicubicEval a xa ya za x y with
      | error => rw [e'] at h; cases h
      | ok => rw [e'] at h; cases h; exact h3
  | spline ox oy =>
    cases k with
    | bilinear => simp only [Obj2D.Used] at ho
    | bicubic => simp only [Obj2D.Used] at ho
    | spline k =>
      obtain ⟨u1, u2, u3, v1, v2, v3⟩ := ho
      simp only [Obj2D.call, bind, Except.bind] at h
      cases e : columnLoop same junk xa x ox ((List.range ya.length).map za.col) with
      | error => rw [e] at h; cases h
      | ok c =>
        obtain ⟨cr, co⟩ := c
        rw [e] at h
        simp only at h
        obtain ⟨w1, w2, w3⟩ := columnLoop_used _ u1 u2 u3 e
        cases e' : oy.call same junk ya cr y with
        | error => rw [e'] at h; cases h
        | ok t =>
          obtain ⟨tr, tobj⟩ := t
          rw [e'] at h
          cases h
          exact ⟨w1, w2, w3, (Obj.call_used v1 e').1, (Obj.call_used v1 e').2.trans v2,
            Obj.call_sized v1 v3 e'⟩

/-- The result of a call does not depend on the previous calls, all on windows of the same size. -/
theorem Obj2D.call_const {same : Nat → Nat → Bool} (junk junk' : Nat → K) {k : Kind2D} {o o' : Obj2D K}
    {xa ya : List K} (za : Mat K) (x y : K) (ho : o.Used same xa.length ya.length k)
    (ho' : o'.Used same xa.length ya.length k) :
    (o.call same junk xa ya za x y).map (·.1) = (o'.call same junk' xa ya za x y).map (·.1) := by
  cases k with
  | bilinear =>
    cases o <;> simp only [Obj2D.Used] at ho
    cases o' <;> simp only [Obj2D.Used] at ho'
    rfl
  | bicubic =>
    cases o <;> simp only [Obj2D.Used] at ho
    cases o' <;> simp only [Obj2D.Used] at ho'
    simp only [Obj2D.call, bind, Except.bind]
    rcases bicubicCompute_const xa ya za ho ho' with ⟨e, h1, h2⟩ | ⟨a, c1, c2, h1, h2, h3, h4⟩
    · rw [h1, h2]
    · rw [h1, h2]
      simp only
      cases bicubicEval a xa ya za x y <;> rfl
  | spline k =>
    cases o with
    | bilinear => simp only [Obj2D.Used] at ho
    | bicubic => simp only [Obj2D.Used] at ho
    | spline ox oy =>
      cases o' with
      | bilinear => simp only [Obj2D.Used] at ho'
      | bicubic => simp only [Obj2D.Used] at ho'
      | spline ox' oy' =>
        obtain ⟨u1, u2, u3, v1, v2, v3⟩ := ho
        obtain ⟨u1', u2', u3', v1', v2', v3'⟩ := ho'
        have hc := columnLoop_const (junk := junk) (junk' := junk') (x := x)
          ((List.range ya.length).map za.col) u1 u1' (u2.trans u2'.symm) u3 u3'
        simp only [Obj2D.call, bind, Except.bind]
        cases e : columnLoop same junk xa x ox ((List.range ya.length).map za.col) with
        | error =>
          rw [e] at hc
          cases e' : columnLoop same junk' xa x ox' ((List.range ya.length).map za.col) with
          | error => rw [e'] at hc; simp only [Except.map] at hc ⊢; exact congrArg _ (Except.error.inj hc)
          | ok => rw [e'] at hc; cases hc
        | ok c =>
          rw [e] at hc
          cases e' : columnLoop same junk' xa x ox' ((List.range ya.length).map za.col) with
          | error => rw [e'] at hc; cases hc
          | ok c' =>
            rw [e'] at hc
            have hcc : c.1 = c'.1 := Except.ok.inj hc
            simp only [hcc]
            have hy := Obj.call_const same junk junk' oy oy' ya c'.1 y v1 v1' (v2.trans v2'.symm) v3 v3'
            cases f : oy.call same junk ya c'.1 y with
            | error =>
              rw [f] at hy
              cases f' : oy'.call same junk' ya c'.1 y with
              | error => rw [f'] at hy; simp only [Except.map] at hy ⊢; exact congrArg _ (Except.error.inj hy)
              | ok => rw [f'] at hy; cases hy
            | ok t =>
              rw [f] at hy
              cases f' : oy'.call same junk' ya c'.1 y with
              | error => rw [f'] at hy; cases hy
              | ok t' =>
                rw [f'] at hy
                simp only [Except.map] at hy ⊢
                rw [Except.ok.inj hy]

end
end Pyinterp.Interp
