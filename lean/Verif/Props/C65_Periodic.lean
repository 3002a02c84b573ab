import Verif.Props.C44_Interp1D
import Verif.Lemmas.CSplinePeriodic

/-
C65: the periodic cubic spline.
-/
namespace Pyinterp.Interp

open Spec Polynomial

set_option linter.unusedSectionVars false
set_option linter.unusedVariables false

variable {K : Type} [Field K] [LinearOrder K] [IsStrictOrderedRing K]

/-- The states that a `CSplinePeriodic` object can have. -/
inductive PeriodicReach : PeriodicState K → Prop
  | new (A : Nat → Nat → K) (b j : Nat → K) : PeriodicReach ⟨0, A, b, ⟨0, j⟩⟩
  | call {s s' : PeriodicState K} (junk : Nat → K) (xa ya : List K) : PeriodicReach s →
      periodicCompute junk s xa ya = .ok s' → PeriodicReach s'

theorem PeriodicReach.sizes {s : PeriodicState K} (h : PeriodicReach s) :
    (s.rows = 0 ∧ s.x.size = 0) ∨ (s.rows + 1 = s.x.size ∧ 1 ≤ s.rows) := by
  induction h with
  | new => exact Or.inl ⟨rfl, rfl⟩
  | @call s s' junk xa ya hs e ih =>
    rcases checkSizes_cases 2 xa ya with ⟨hc, hl, h2⟩ | hc
    · unfold periodicCompute at e
      simp only [hc, bind, Except.bind] at e
      have key : ∀ t : PeriodicState K, (t.rows + 1 = t.x.size ∧ 1 ≤ t.rows) →
          (match cycSolve (cycMatrix xa t.A) (cycRhs xa ya t.b) t.rows with
          | .error e => (.error e : Out (PeriodicState K))
          | .ok sol => match t.x.fill 1 (t.rows + 1) (fun i => sol (i - 1)) with
            | .error e => .error e
            | .ok x => match x.fill 0 1 (fun _ => x.val (xa.length - 1)) with
              | .error e => .error e
              | .ok x => .ok ⟨t.rows, cycMatrix xa t.A, cycRhs xa ya t.b, x⟩) = .ok s' →
          (s'.rows = 0 ∧ s'.x.size = 0) ∨ (s'.rows + 1 = s'.x.size ∧ 1 ≤ s'.rows) := by
        rintro t ⟨h1, h1'⟩ h
        right
        cases hsol : cycSolve (cycMatrix xa t.A) (cycRhs xa ya t.b) t.rows with
        | error => rw [hsol] at h; cases h
        | ok sol =>
          rw [hsol] at h
          simp only [Buf.fill] at h
          rw [if_pos (Or.inr (by omega))] at h
          simp only at h
          rw [if_pos (Or.inr (by omega))] at h
          cases h
          exact ⟨h1, h1'⟩
      by_cases hz : s.x.size < xa.length
      · rw [if_pos hz] at e
        refine key ⟨xa.length - 1, fun _ _ => 0, junk, ⟨xa.length, fun _ => 0⟩⟩
          ⟨by simp only; omega, by simp only; omega⟩ ?_
        revert e
        simp only
        intro e
        revert e
        cases cycSolve (cycMatrix xa fun _ _ => 0) (cycRhs xa ya junk) (xa.length - 1) with
        | error => intro e; cases e
        | ok sol =>
          simp only [Buf.fill]
          rw [if_pos (Or.inr (by omega))]
          simp only
          rw [if_pos (Or.inr (by omega))]
          exact id
      · rw [if_neg hz] at e
        have : s.rows + 1 = s.x.size ∧ 1 ≤ s.rows := by
          rcases ih with ⟨_, h⟩ | h
          · omega
          · exact h
        refine key s this ?_
        revert e
        cases cycSolve (cycMatrix xa s.A) (cycRhs xa ya s.b) s.rows with
        | error => intro e; cases e
        | ok sol =>
          simp only [Buf.fill]
          rw [if_pos (Or.inr (by omega))]
          simp only
          rw [if_pos (Or.inr (by omega))]
          exact id
    · unfold periodicCompute at e
      simp [hc, bind, Except.bind] at e

/-- The second order coefficients of `CSplinePeriodic`. -/
def periodicC (A : Nat → Nat → K) (b : Nat → K) (n : Nat) : Nat → K
  | 0 => cycSol A b n (n - 1)
  | i + 1 => cycSol A b n i

/-- With an object that has not seen a longer series, the coefficients come from the solution of
the system of the data. -/
theorem periodicCompute_eq (junk : Nat → K) (st : PeriodicState K) (hst : PeriodicReach st)
    (xa ya : List K) (hle : st.x.size ≤ xa.length) (hl : xa.length = ya.length)
    (h4 : 4 ≤ xa.length) :
    ∃ (st' : PeriodicState K) (old : Nat → Nat → K) (oldb : Nat → K),
      periodicCompute junk st xa ya = .ok st' ∧ ∀ i, i < xa.length → st'.x.rd i =
        .ok (periodicC (cycMatrix xa old) (cycRhs xa ya oldb) (xa.length - 1) i) := by
  have fin : ∀ (A : Nat → Nat → K) (b : Nat → K) (x : Buf K), x.size = xa.length →
      ∃ x', (do
        let sol ← cycSolve A b (xa.length - 1)
        let x ← x.fill 1 (xa.length - 1 + 1) (fun i => sol (i - 1))
        x.fill 0 1 (fun _ => x.val (xa.length - 1))) = .ok x' ∧
        ∀ i, i < xa.length → x'.rd i = .ok (periodicC A b (xa.length - 1) i) := by
    intro A b x hx
    unfold cycSolve
    rw [if_neg (by omega), if_neg (by omega)]
    simp only [bind, Except.bind, Buf.fill]
    rw [if_pos (Or.inr (by omega))]
    simp only
    rw [if_pos (Or.inr (by omega))]
    refine ⟨_, rfl, ?_⟩
    intro i hi
    simp only [Buf.rd, hx, if_pos hi]
    congr 1
    cases i with
    | zero =>
      rw [if_pos (by omega), if_pos (by omega)]
      simp only [periodicC, cycSol]
    | succ k =>
      rw [if_neg (by omega), if_pos (by omega)]
      simp only [periodicC, cycSol, Nat.add_sub_cancel]
  unfold periodicCompute
  rw [checkSizes_ok hl (by omega)]
  by_cases hz : st.x.size < xa.length
  · obtain ⟨x', e, hx⟩ := fin (cycMatrix xa fun _ _ => 0) (cycRhs xa ya junk)
      ⟨xa.length, fun _ => 0⟩ rfl
    refine ⟨⟨xa.length - 1, cycMatrix xa fun _ _ => 0, cycRhs xa ya junk, x'⟩, fun _ _ => 0, junk,
      ?_, hx⟩
    simp only [bind, Except.bind] at e ⊢
    rw [if_pos hz]
    simp only
    cases hsol : cycSolve (cycMatrix xa fun _ _ => 0) (cycRhs xa ya junk) (xa.length - 1) with
    | error => rw [hsol] at e; cases e
    | ok sol =>
      rw [hsol] at e
      simp only at e ⊢
      cases h1 : (⟨xa.length, fun _ => 0⟩ : Buf K).fill 1 (xa.length - 1 + 1) (fun i => sol (i - 1)) with
      | error => rw [h1] at e; cases e
      | ok x1 =>
        rw [h1] at e
        simp only at e ⊢
        rw [e]
  · have hsz : st.rows = xa.length - 1 := by
      rcases hst.sizes with ⟨_, h⟩ | ⟨h, _⟩ <;> omega
    obtain ⟨x', e, hx⟩ := fin (cycMatrix xa st.A) (cycRhs xa ya st.b) st.x (by omega)
    refine ⟨⟨xa.length - 1, cycMatrix xa st.A, cycRhs xa ya st.b, x'⟩, st.A, st.b, ?_, hx⟩
    simp only [bind, Except.bind] at e ⊢
    rw [if_neg hz]
    simp only [hsz]
    cases hsol : cycSolve (cycMatrix xa st.A) (cycRhs xa ya st.b) (xa.length - 1) with
    | error => rw [hsol] at e; cases e
    | ok sol =>
      rw [hsol] at e
      simp only at e ⊢
      cases h1 : st.x.fill 1 (xa.length - 1 + 1) (fun i => sol (i - 1)) with
      | error => rw [h1] at e; cases e
      | ok x1 =>
        rw [h1] at e
        simp only at e ⊢
        rw [e]

theorem cycMatrix_spec {xa : List K} (hs : xa.Pairwise (· < ·)) (h4 : 4 ≤ xa.length)
    (old : Nat → Nat → K) : CycMatrix (cycMatrix xa old) (width xa) (xa.length - 1) := by
  refine ⟨by omega, fun i hi => width_pos hs (by omega), ?_, ?_, ?_, ?_, ?_⟩
  · intro i hi
    simp only [cycMatrix]
    rw [if_neg (by omega), if_neg (by omega), if_neg (by omega), if_neg (by omega),
      if_pos ⟨trivial, by omega⟩]
  · intro i hi
    simp only [cycMatrix]
    rw [if_neg (by omega), if_neg (by omega), if_neg (by omega), if_pos ⟨trivial, by omega⟩]
  · intro i hi
    simp only [cycMatrix]
    rw [if_neg (by omega), if_neg (by omega), if_neg (by omega), if_neg (by omega),
      if_neg (by omega), if_pos ⟨trivial, by omega⟩]
  · simp only [cycMatrix]
    rw [if_neg (by omega), if_pos (by omega), show xa.length - 1 - 1 = xa.length - 2 by omega]
  · simp only [cycMatrix]
    rw [if_neg (by omega), if_neg (by omega), if_pos ⟨by omega, trivial⟩]

/-- The pieces of `CSplinePeriodic` are the periodic spline. -/
theorem periodicC_spline (xa ya : List K) (hs : xa.Pairwise (· < ·)) (hl : xa.length = ya.length)
    (h4 : 4 ≤ xa.length) (old : Nat → Nat → K) (oldb : Nat → K) :
    PeriodicSpline xa ya (splinePiece xa ya
      (periodicC (cycMatrix xa old) (cycRhs xa ya oldb) (xa.length - 1))) := by
  obtain ⟨rows, last⟩ := cyc_solves (b := cycRhs xa ya oldb) (cycMatrix_spec hs h4 old)
  set c := periodicC (cycMatrix xa old) (cycRhs xa ya oldb) (xa.length - 1) with hc
  obtain ⟨p1, p2, p3, p4, p5, p6⟩ := splinePiece_pieces hs hl (c := c) (by
    intro i hi
    have := rows i (by omega)
    rw [show cycRhs xa ya oldb i = csplineRhs xa ya i from by
      unfold cycRhs; simp only; rw [if_neg (by omega), if_pos (by omega)]] at this
    rw [← this]
    cases i with
    | zero => rfl
    | succ k => rfl)
  have cw : c (xa.length - 1) = c 0 := by
    rw [hc]
    obtain ⟨k, hk⟩ : ∃ k, xa.length - 1 = k + 1 := ⟨xa.length - 2, by omega⟩
    rw [hk]
    simp only [periodicC, Nat.add_sub_cancel]
  refine ⟨p1, ?_, ?_, ?_⟩
  · intro i h
    exact p2 i h _ (at'_eq _).symm
  · intro i h
    rw [← at'_eq (by omega : 0 < xa.length), ← at'_eq (by omega : i + 1 < xa.length),
      p5 0 (by omega), p6 i (by omega)]
    have e1 : i + 1 = xa.length - 1 := by omega
    have w0 := (width_pos hs (by omega : 0 + 1 < xa.length)).ne'
    have wi := (width_pos hs (by omega : i + 1 < xa.length)).ne'
    have hL := last
    rw [show cycRhs xa ya oldb (xa.length - 1 - 1) = 3 * ((at' ya 1 - at' ya 0) * (1 / width xa 0) -
      (at' ya (i + 1) - at' ya i) * (1 / width xa i)) from by
        unfold cycRhs
        simp only
        rw [if_pos (by omega), show xa.length - 2 = i by omega, if_pos w0, if_pos wi]] at hL
    have x1 : cycSol (cycMatrix xa old) (cycRhs xa ya oldb) (xa.length - 1) 0 = c 1 := rfl
    have x2 : cycSol (cycMatrix xa old) (cycRhs xa ya oldb) (xa.length - 1) (xa.length - 1 - 1) = c 0 :=
      rfl
    have x3 : cycSol (cycMatrix xa old) (cycRhs xa ya oldb) (xa.length - 1) (xa.length - 1 - 2) = c i := by
      rw [show xa.length - 1 - 2 = i - 1 by omega]
      obtain ⟨k, rfl⟩ : ∃ k, i = k + 1 := ⟨i - 1, by omega⟩
      rfl
    rw [x1, x2, x3] at hL
    rw [show xa.length - 1 - 1 = i by omega] at hL
    rw [show c (i + 1) = c 0 by rw [e1, cw]]
    rw [div_eq_mul_one_div _ (width xa i), div_eq_mul_one_div _ (width xa 0)]
    simp only [Nat.zero_add]
    linear_combination -hL / 3
  · intro i h
    rw [← at'_eq (by omega : 0 < xa.length), ← at'_eq (by omega : i + 1 < xa.length),
      p3 0 (by omega), p4 i (by omega), show i + 1 = xa.length - 1 by omega, cw]

/-- C65: with at least four points, on an object that has not been called with a longer series,
`CSplinePeriodic` evaluates the periodic cubic spline of the data, and `derivative` its
derivative. -/
theorem C65_periodic (xa ya : List K) (hs : xa.Pairwise (· < ·)) (hl : xa.length = ya.length)
    (h4 : 4 ≤ xa.length) (st : PeriodicState K) (hst : PeriodicReach st)
    (hle : st.x.size ≤ xa.length) (junk : Nat → K) :
    ∃ P : Nat → K[X], PeriodicSpline xa ya P ∧
        ∀ i (hi : i + 1 < xa.length) x, xa[i] ≤ x → x ≤ xa[i + 1] →
          ∃ st', csplinePeriodic junk st xa ya x = .ok (some ((P i).eval x), st') ∧
            csplinePeriodicDerivative junk st xa ya x =
              .ok (some ((derivative (P i)).eval x), st') := by
  obtain ⟨st', old, oldb, e, hb'⟩ := periodicCompute_eq junk st hst xa ya hle hl h4
  have hP := periodicC_spline xa ya hs hl h4 old oldb
  refine ⟨_, hP, ?_⟩
  intro i hi x h0 h1
  refine ⟨st', ?_⟩
  unfold csplinePeriodic csplinePeriodicDerivative
  simp only [e, bind, Except.bind]
  rcases h0.lt_or_eq with h0' | h0'
  · obtain ⟨a1, a2⟩ := spline_at hl hb' hi (search_between hs hi h0' h1)
    rw [a1, a2]
    exact ⟨rfl, rfl⟩
  · subst h0'
    cases i with
    | zero =>
      obtain ⟨a1, a2⟩ := spline_at hl hb' hi (search_first hs (by omega))
      rw [a1, a2]
      exact ⟨rfl, rfl⟩
    | succ k =>
      obtain ⟨a1, a2⟩ := spline_at hl hb' (by omega : k + 1 < xa.length)
        (search_node hs (by omega) (by omega : k + 1 < xa.length))
      rw [a1, a2]
      refine ⟨?_, ?_⟩
      · rw [hP.right k (by omega) (by omega), hP.left (k + 1) hi (by omega)]
      · rw [hP.c1 k hi]

/-- C65 (false otherwise): after a call on a longer series the same call gives another value, even
at a node where the derivative should be that of the spline; with three points the behaviour is
undefined. -/
theorem C65_history :
    ∃ (s s' : PeriodicState ℚ) (junk : Nat → ℚ) (xa ya : List ℚ) (x v v' : ℚ),
      PeriodicReach s ∧ PeriodicReach s' ∧
      (csplinePeriodic junk s xa ya x).map (·.1) = .ok (some v) ∧
      (csplinePeriodic junk s' xa ya x).map (·.1) = .ok (some v') ∧ v ≠ v' := by
  obtain ⟨s', e⟩ : ∃ s', periodicCompute (fun _ => (0 : ℚ)) ⟨0, fun _ _ => 0, fun _ => 0, ⟨0, fun _ => 0⟩⟩
      [0, 1, 2, 3, 4] [0, 1, 0, -1, 0] = .ok s' := by
    cases h : periodicCompute (fun _ => (0 : ℚ)) ⟨0, fun _ _ => 0, fun _ => 0, ⟨0, fun _ => 0⟩⟩
      [0, 1, 2, 3, 4] [0, 1, 0, -1, 0] with
    | ok s' => exact ⟨s', rfl⟩
    | error e =>
      exfalso
      have : (periodicCompute (fun _ => (0 : ℚ)) ⟨0, fun _ _ => 0, fun _ => 0, ⟨0, fun _ => 0⟩⟩
        [0, 1, 2, 3, 4] [0, 1, 0, -1, 0]).map (fun _ => ()) = .ok () := by decide +kernel
      rw [h] at this
      cases this
  refine ⟨⟨0, fun _ _ => 0, fun _ => 0, ⟨0, fun _ => 0⟩⟩, s', fun _ => 0, [0, 1, 2, 3],
    [0, 1, 2, 0], 1 / 2, 1 / 8, -1 / 16, .new _ _ _, .call _ _ _ (.new _ _ _) e, ?_, ?_, ?_⟩
  · decide +kernel
  · have : ((periodicCompute (fun _ => (0 : ℚ)) ⟨0, fun _ _ => 0, fun _ => 0, ⟨0, fun _ => 0⟩⟩
        [0, 1, 2, 3, 4] [0, 1, 0, -1, 0]) >>= fun s => (csplinePeriodic (fun _ => 0) s [0, 1, 2, 3]
          [0, 1, 2, 0] (1 / 2)).map (·.1)) = .ok (some (-1 / 16)) := by decide +kernel
    rw [e] at this
    exact this
  · decide +kernel

example : (csplinePeriodic (fun _ => (0 : ℚ)) ⟨0, fun _ _ => 0, fun _ => 0, ⟨0, fun _ => 0⟩⟩
    [0, 1, 2] [0, 1, 0] 1).map (·.1) = .error .ub := by decide +kernel

end Pyinterp.Interp
