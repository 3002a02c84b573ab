import Mathlib.Data.Rat.Floor
import Mathlib.Tactic.ComputeDegree
import Verif.Spec.Spline
import Verif.Lemmas.Interp1D

/-
C40 - C45, C64: the 1-D interpolators.
-/
namespace Pyinterp.Interp

open Spec Polynomial

set_option linter.unusedSectionVars false
set_option linter.unusedSimpArgs false
set_option linter.unusedVariables false

variable {K : Type} [Field K] [LinearOrder K] [IsStrictOrderedRing K]

/-! ### C40: search -/

/-- C40: in strictly increasing abscissas, the search gives two consecutive indexes whose
interval holds `x`. -/
theorem C40_found (xa : List K) (hs : xa.Pairwise (· < ·)) (h2 : 2 ≤ xa.length) (x : K)
    (i j : Nat) (h : search xa x = some (i, j)) :
    ∃ h : i + 1 < xa.length, j = i + 1 ∧ xa[i] ≤ x ∧ x ≤ xa[i + 1] := by
  rcases search_spec hs h2 x with ⟨k, hk, e, a, b, _⟩ | ⟨e, _⟩
  · rw [e] at h
    obtain ⟨rfl, rfl⟩ := Prod.mk.inj (Option.some.inj h)
    exact ⟨hk, rfl, a, b⟩
  · rw [e] at h; cases h

/-- C40: nothing is found exactly when `x` is outside of the abscissas. -/
theorem C40_not_found (xa : List K) (hs : xa.Pairwise (· < ·)) (h2 : 2 ≤ xa.length) (x : K) :
    search xa x = none ↔ x < xa[0] ∨ xa[xa.length - 1] < x := by
  constructor
  · intro h
    rcases search_spec hs h2 x with ⟨k, hk, e, _⟩ | ⟨_, h' | h'⟩
    · rw [e] at h; cases h
    · exact Or.inr (h' _ (List.getElem_mem _))
    · exact Or.inl (h' _ (List.getElem_mem _))
  · exact search_outside hs h2

example : search [0, 1, 3, (7 : ℚ)] 2 = some (1, 2) ∧ search [0, 1, 3, (7 : ℚ)] 3 = some (1, 2) ∧
    search [0, 1, 3, (7 : ℚ)] 8 = none := by decide +kernel

/-! ### C41: linear -/

theorem linear_at {xa ya : List K} (hl : xa.length = ya.length)
    {i : Nat} (hi : i + 1 < xa.length) {x : K} (h : search xa x = some (i, i + 1)) :
    linear xa ya x = .ok (some (ya[i] + (ya[i + 1] - ya[i]) / (xa[i + 1] - xa[i]) * (x - xa[i]))) := by
  unfold linear linearEval
  simp only [checkSizes_ok hl (by omega : 2 ≤ xa.length), h, bind, Except.bind]
  rw [rd_eq (by omega : i < ya.length), rd_eq (by omega : i < xa.length),
    show ((i + 1 : Nat) : Int) = ((i + 1 : Nat) : Int) from rfl]
  rw [rd_eq (by omega : i + 1 < ya.length), rd_eq hi]

/-- C41: linear interpolation reproduces the data at the nodes. -/
theorem C41_nodes (xa ya : List K) (hs : xa.Pairwise (· < ·)) (hl : xa.length = ya.length)
    (h2 : 2 ≤ xa.length) (i : Nat) (hi : i < xa.length) :
    linear xa ya xa[i] = .ok (some ya[i]) := by
  cases i with
  | zero =>
    rw [linear_at hl (by omega) (search_first hs h2)]
    simp
  | succ k =>
    rw [linear_at hl hi (search_node hs h2 hi)]
    have : xa[k + 1] - xa[k] ≠ 0 :=
      (sub_pos.2 (pairwise_lt hs (by omega) hi (by omega))).ne'
    rw [div_mul_cancel₀ _ this]
    simp

/-- C41: between two nodes, the result is between their values (and is the affine function
through them). -/
theorem C41_between (xa ya : List K) (hs : xa.Pairwise (· < ·)) (hl : xa.length = ya.length)
    (i : Nat) (hi : i + 1 < xa.length) (x : K) (h0 : xa[i] ≤ x) (h1 : x ≤ xa[i + 1]) :
    ∃ v, linear xa ya x = .ok (some v) ∧ min ya[i] ya[i + 1] ≤ v ∧ v ≤ max ya[i] ya[i + 1] ∧
      v * (xa[i + 1] - xa[i]) = ya[i] * (xa[i + 1] - x) + ya[i + 1] * (x - xa[i]) := by
  have hw : 0 < xa[i + 1] - xa[i] := sub_pos.2 (pairwise_lt hs (by omega) hi (by omega))
  have key : ∃ v, linear xa ya x = .ok (some v) ∧
      v * (xa[i + 1] - xa[i]) = ya[i] * (xa[i + 1] - x) + ya[i + 1] * (x - xa[i]) := by
    rcases h0.lt_or_eq with h0' | h0'
    · refine ⟨_, linear_at hl hi (search_between hs hi h0' h1), ?_⟩
      field_simp
      ring
    · subst h0'
      exact ⟨_, C41_nodes xa ya hs hl (by omega) i (by omega), by ring⟩
  obtain ⟨v, e, hv⟩ := key
  refine ⟨v, e, ?_, ?_, hv⟩
  · by_contra hc
    rw [not_le] at hc
    obtain ⟨a, b⟩ := lt_min_iff.1 hc
    have := mul_lt_mul_of_pos_right (lt_min a b) hw
    have t1 := mul_le_mul_of_nonneg_right (min_le_left ya[i] ya[i + 1]) (sub_nonneg.2 h1)
    have t2 := mul_le_mul_of_nonneg_right (min_le_right ya[i] ya[i + 1]) (sub_nonneg.2 h0)
    nlinarith
  · by_contra hc
    rw [not_le] at hc
    obtain ⟨a, b⟩ := max_lt_iff.1 hc
    have := mul_lt_mul_of_pos_right (max_lt a b) hw
    have t1 := mul_le_mul_of_nonneg_right (le_max_left ya[i] ya[i + 1]) (sub_nonneg.2 h1)
    have t2 := mul_le_mul_of_nonneg_right (le_max_right ya[i] ya[i + 1]) (sub_nonneg.2 h0)
    nlinarith

/-- C41: affine data are reproduced everywhere in the range. -/
theorem C41_affine (xa : List K) (a b : K) (hs : xa.Pairwise (· < ·)) (h2 : 2 ≤ xa.length) (x : K)
    (h0 : xa[0] ≤ x) (h1 : x ≤ xa[xa.length - 1]) :
    linear xa (xa.map fun t => a + b * t) x = .ok (some (a + b * x)) := by
  rcases search_spec hs h2 x with ⟨i, hi, e, c, d, _⟩ | ⟨e, _⟩
  · rw [linear_at (by simp) hi e]
    have hw : xa[i + 1] - xa[i] ≠ 0 := (sub_pos.2 (pairwise_lt hs (by omega) hi (by omega))).ne'
    simp only [List.getElem_map]
    congr 2
    field_simp
    ring
  · rcases (C40_not_found xa hs h2 x).1 e with h | h
    · exact absurd h0 (not_le.2 h)
    · exact absurd h1 (not_le.2 h)

/-- C41: outside of the abscissas the result is NaN; sizes that differ or are below two are
refused. -/
theorem C41_outside (xa ya : List K) (x : K) :
    (xa.length ≠ ya.length ∨ xa.length < 2 → linear xa ya x = .error .exn) ∧
    (xa.Pairwise (· < ·) → xa.length = ya.length → ∀ h2 : 2 ≤ xa.length,
      x < xa[0] ∨ xa[xa.length - 1] < x → linear xa ya x = .ok none) := by
  constructor
  · intro h
    unfold linear checkSizes
    by_cases hl : xa.length ≠ ya.length
    · simp [hl, bind, Except.bind]
    · rcases h with h | h
      · exact absurd h hl
      · simp [hl, h, bind, Except.bind]
  · intro hs hl h2 ho
    unfold linear linearEval
    simp only [checkSizes_ok hl h2, bind, Except.bind, (C40_not_found xa hs h2 x).2 ho]

example : linear [0, 1, (3 : ℚ)] [0, 10, 4] 2 = .ok (some 7) := by decide +kernel

/-! ### C42: Steffen -/

/-- The buffers that a `Steffen` (or a `Polynomial`) object can have: none at the creation,
then those left by the successive calls, on any data. -/
inductive SteffenReach : Buf K → Prop
  | new (junk : Nat → K) : SteffenReach ⟨0, junk⟩
  | call {b b' : Buf K} (junk : Nat → K) (xa ya : List K) : SteffenReach b →
      steffenCompute junk b xa ya = .ok b' → SteffenReach b'

theorem steffenCompute_eq (junk : Nat → K) (b : Buf K) (xa ya : List K) (hl : xa.length = ya.length)
    (h3 : 3 ≤ xa.length) : ∃ b', steffenCompute junk b xa ya = .ok b' ∧
      ∀ i, i < xa.length → b'.rd i = .ok (steffenSlope xa ya i) := by
  unfold steffenCompute
  simp only [checkSizes_ok hl h3, bind, Except.bind]
  by_cases hb : b.size < xa.length
  · rw [if_pos hb]
    refine ⟨_, by unfold Buf.fill Buf.resize; rw [if_pos (Or.inr (le_refl _))], ?_⟩
    intro i hi
    simp [Buf.rd, hi]
  · rw [if_neg hb]
    refine ⟨_, by unfold Buf.fill; rw [if_pos (Or.inr (by omega))], ?_⟩
    intro i hi
    have : i < b.size := by omega
    simp [Buf.rd, hi, this]

/-- The polynomial of the interval `i`. -/
noncomputable def steffenPiece (xa ya : List K) (i : Nat) : K[X] :=
  let hi := width xa i
  let si := slope xa ya i
  let d0 := steffenSlope xa ya i
  let d1 := steffenSlope xa ya (i + 1)
  C (at' ya i) + (X - C (at' xa i)) * (C d0 + (X - C (at' xa i)) *
    (C ((3 * si - 2 * d0 - d1) / hi) + (X - C (at' xa i)) * C ((d0 + d1 - 2 * si) / hi / hi)))

theorem cubic_degree (a b c d x : K) :
    (C a + (X - C x) * (C b + (X - C x) * (C c + (X - C x) * C d))).natDegree ≤ 3 := by
  compute_degree

theorem steffen_at (junk : Nat → K) (b : Buf K) {xa ya : List K} (hl : xa.length = ya.length)
    (h3 : 3 ≤ xa.length) {i : Nat} (hi : i + 1 < xa.length) {x : K}
    (h : search xa x = some (i, i + 1)) :
    ∃ b', steffen junk b xa ya x = .ok (some ((steffenPiece xa ya i).eval x), b') ∧
      steffenCompute junk b xa ya = .ok b' ∧
      steffenDerivEval b' xa ya x = .ok (some ((derivative (steffenPiece xa ya i)).eval x)) := by
  obtain ⟨b', e, hb⟩ := steffenCompute_eq junk b xa ya hl h3
  refine ⟨b', ?_, e, ?_⟩
  · unfold steffen steffenEval
    simp only [e, h, bind, Except.bind]
    rw [rd_eq (by omega : i < xa.length), rd_eq hi, rd_eq (by omega : i < ya.length),
      rd_eq (by omega : i + 1 < ya.length), hb i (by omega), hb (i + 1) hi]
    simp only [steffenPiece, eval_add, eval_mul, eval_sub, eval_X, eval_C, width, slope,
      at'_eq hi, at'_eq (by omega : i < xa.length), at'_eq (by omega : i < ya.length),
      at'_eq (by omega : i + 1 < ya.length)]
  · unfold steffenDerivEval
    simp only [h, bind, Except.bind]
    rw [rd_eq (by omega : i < xa.length), rd_eq hi, rd_eq (by omega : i < ya.length),
      rd_eq (by omega : i + 1 < ya.length), hb i (by omega), hb (i + 1) hi]
    simp only [steffenPiece, derivative_add, derivative_mul, derivative_sub, derivative_X,
      derivative_C, eval_add, eval_mul, eval_sub, eval_X, eval_C, eval_one, eval_zero, width, slope,
      at'_eq hi, at'_eq (by omega : i < xa.length), at'_eq (by omega : i < ya.length),
      at'_eq (by omega : i + 1 < ya.length)]
    congr 2
    ring

theorem steffenPiece_pieces (xa ya : List K) (hs : xa.Pairwise (· < ·)) (hl : xa.length = ya.length)
    (h3 : 3 ≤ xa.length) : CubicPieces xa ya (steffenPiece xa ya) := by
  have hw : ∀ i (hi : i + 1 < xa.length), xa[i + 1] - xa[i] ≠ 0 := fun i hi =>
    (sub_pos.2 (pairwise_lt hs (by omega) hi (by omega))).ne'
  refine ⟨fun i => cubic_degree _ _ _ _ _, ?_, ?_, ?_⟩
  · intro i h h'
    simp [steffenPiece, at'_eq (by omega : i < xa.length), at'_eq h']
  · intro i h h'
    have := hw i h
    simp only [steffenPiece, eval_add, eval_mul, eval_sub, eval_X, eval_C, width, slope,
      at'_eq h, at'_eq (by omega : i < xa.length), at'_eq (by omega : i < ya.length), at'_eq h']
    field_simp
    ring
  · intro i h
    have h1 := hw i (by omega)
    simp only [steffenPiece, derivative_add, derivative_mul, derivative_sub, derivative_X,
      derivative_C, eval_add, eval_mul, eval_sub, eval_X, eval_C, eval_one, eval_zero, width, slope,
      at'_eq (by omega : i < xa.length), at'_eq (by omega : i + 1 < xa.length),
      at'_eq (by omega : i < ya.length), at'_eq (by omega : i + 1 < ya.length)]
    field_simp
    ring

/-- C42: whatever the previous calls on the object, the Steffen spline is made of cubic
pieces through the data, with a continuous derivative, given by `derivative`. -/
theorem C42_pieces (xa ya : List K) (hs : xa.Pairwise (· < ·)) (hl : xa.length = ya.length)
    (h3 : 3 ≤ xa.length) :
    ∃ P : Nat → K[X], CubicPieces xa ya P ∧
      ∀ (b : Buf K) (junk : Nat → K), SteffenReach b →
        ∀ i (hi : i + 1 < xa.length) x, xa[i] ≤ x → x ≤ xa[i + 1] →
          ∃ b', steffen junk b xa ya x = .ok (some ((P i).eval x), b') ∧
            steffenDerivEval b' xa ya x = .ok (some ((derivative (P i)).eval x)) := by
  have hP := steffenPiece_pieces xa ya hs hl h3
  refine ⟨steffenPiece xa ya, hP, ?_⟩
  intro b junk _ i hi x h0 h1
  rcases h0.lt_or_eq with h0' | h0'
  · obtain ⟨b', e, _, d⟩ := steffen_at junk b hl h3 hi (search_between hs hi h0' h1)
    exact ⟨b', e, d⟩
  · subst h0'
    cases i with
    | zero =>
      obtain ⟨b', e, _, d⟩ := steffen_at junk b hl h3 hi (search_first hs (by omega))
      exact ⟨b', e, d⟩
    | succ k =>
      obtain ⟨b', e, _, d⟩ := steffen_at junk b hl h3 (by omega : k + 1 < xa.length)
        (search_node hs (by omega) (by omega : k + 1 < xa.length))
      refine ⟨b', ?_, ?_⟩
      · rw [e, hP.right k (by omega) (by omega), hP.left (k + 1) hi (by omega)]
      · rw [d, hP.c1 k hi]

/-- C42: the data are reproduced at the nodes. -/
theorem C42_nodes (xa ya : List K) (hs : xa.Pairwise (· < ·)) (hl : xa.length = ya.length)
    (h3 : 3 ≤ xa.length) (b : Buf K) (junk : Nat → K) (hb : SteffenReach b) (i : Nat)
    (hi : i < xa.length) : ∃ b', steffen junk b xa ya xa[i] = .ok (some ya[i], b') := by
  obtain ⟨P, hP, h⟩ := C42_pieces xa ya hs hl h3
  cases i with
  | zero =>
    obtain ⟨b', e, _⟩ := h b junk hb 0 (by omega) xa[0] (le_refl _)
      (pairwise_le hs _ _ (by omega))
    exact ⟨b', by rw [e, hP.left 0 (by omega) (by omega)]⟩
  | succ k =>
    obtain ⟨b', e, _⟩ := h b junk hb k hi xa[k + 1] (pairwise_le hs _ _ (by omega)) (le_refl _)
    exact ⟨b', by rw [e, hP.right k hi (by omega)]⟩

/-- C42: between two nodes the spline is monotone, in the direction of the data; in
particular it never overshoots. -/
theorem C42_monotone (xa ya : List K) (hs : xa.Pairwise (· < ·)) (hl : xa.length = ya.length)
    (h3 : 3 ≤ xa.length) (b c : Buf K) (junk : Nat → K) (hb : SteffenReach b) (hc : SteffenReach c)
    (i : Nat) (hi : i + 1 < xa.length) (x x' : K) (h0 : xa[i] ≤ x) (hxx : x ≤ x')
    (h1 : x' ≤ xa[i + 1]) :
    ∃ v v' b' c', steffen junk b xa ya x = .ok (some v, b') ∧
      steffen junk c xa ya x' = .ok (some v', c') ∧
      (ya[i] ≤ ya[i + 1] → ya[i] ≤ v ∧ v ≤ v' ∧ v' ≤ ya[i + 1]) ∧
      (ya[i + 1] ≤ ya[i] → ya[i + 1] ≤ v' ∧ v' ≤ v ∧ v ≤ ya[i]) := by
  have hw : 0 < xa[i + 1] - xa[i] := sub_pos.2 (pairwise_lt hs (by omega) hi (by omega))
  have hP := steffenPiece_pieces xa ya hs hl h3
  have ev : ∀ (b : Buf K), SteffenReach b → ∀ z, xa[i] ≤ z → z ≤ xa[i + 1] →
      ∃ b', steffen junk b xa ya z = .ok (some ((steffenPiece xa ya i).eval z), b') := by
    intro b hb z hz0 hz1
    rcases hz0.lt_or_eq with hz | hz
    · obtain ⟨b', e, _⟩ := steffen_at junk b hl h3 hi (search_between hs hi hz hz1)
      exact ⟨b', e⟩
    · subst hz
      obtain ⟨b', e⟩ := C42_nodes xa ya hs hl h3 b junk hb i (by omega)
      exact ⟨b', by rw [e, hP.left i hi (by omega)]⟩
  obtain ⟨b', eb⟩ := ev b hb x h0 (hxx.trans h1)
  obtain ⟨c', ec⟩ := ev c hc x' (h0.trans hxx) h1
  -- the monotone function
  have mono : ∀ sgn : K, sgn = 1 ∨ sgn = -1 → 0 ≤ sgn * (ya[i + 1] - ya[i]) →
      ∀ z z', xa[i] ≤ z → z ≤ z' → z' ≤ xa[i + 1] →
      sgn * (steffenPiece xa ya i).eval z ≤ sgn * (steffenPiece xa ya i).eval z' := by
    intro sgn hsgn hdir z z' hz hzz hz'
    have hsl : slope xa ya i = (ya[i + 1] - ya[i]) / (xa[i + 1] - xa[i]) := by
      simp only [slope, at'_eq hi, at'_eq (by omega : i < xa.length), at'_eq (by omega : i < ya.length),
        at'_eq (by omega : i + 1 < ya.length)]
    have hs0 : 0 ≤ sgn * slope xa ya i := by
      rw [hsl, ← mul_div_assoc]; exact div_nonneg hdir hw.le
    obtain ⟨a1, a2⟩ := steffenSlope_bound (ya := ya) h3 hi i (Or.inl rfl) sgn hsgn hs0
    obtain ⟨a3, a4⟩ := steffenSlope_bound (ya := ya) h3 hi (i + 1) (Or.inr rfl) sgn hsgn hs0
    have hm := hermite_mono (s := sgn * slope xa ya i) (d0 := sgn * steffenSlope xa ya i)
      (d1 := sgn * steffenSlope xa ya (i + 1)) (u := (z - xa[i]) / (xa[i + 1] - xa[i]))
      (v := (z' - xa[i]) / (xa[i + 1] - xa[i])) (div_nonneg (by linarith) hw.le)
      (div_le_div_of_nonneg_right (by linarith) hw.le) ((div_le_one hw).2 (by linarith)) a1 a2 a3 a4
    have hm' := mul_le_mul_of_nonneg_left hm hw.le
    have ex : ∀ t : K, sgn * (steffenPiece xa ya i).eval t = sgn * ya[i] + (xa[i + 1] - xa[i]) *
        ((t - xa[i]) / (xa[i + 1] - xa[i]) * (sgn * steffenSlope xa ya i +
          (t - xa[i]) / (xa[i + 1] - xa[i]) * ((3 * (sgn * slope xa ya i) -
            2 * (sgn * steffenSlope xa ya i) - sgn * steffenSlope xa ya (i + 1)) +
            (t - xa[i]) / (xa[i + 1] - xa[i]) * (sgn * steffenSlope xa ya i +
              sgn * steffenSlope xa ya (i + 1) - 2 * (sgn * slope xa ya i))))) := by
      intro t
      have hw' := hw.ne'
      simp only [steffenPiece, eval_add, eval_mul, eval_sub, eval_X, eval_C, width,
        at'_eq hi, at'_eq (by omega : i < xa.length), at'_eq (by omega : i < ya.length)]
      field_simp
    rw [ex z, ex z']
    linarith
  have hleft := hP.left i hi (by omega)
  have hright := hP.right i hi (by omega)
  refine ⟨_, _, b', c', eb, ec, ?_, ?_⟩
  · intro hd
    have m := mono 1 (Or.inl rfl) (by rw [one_mul]; linarith)
    simp only [one_mul] at m
    have m1 := m xa[i] x (le_refl _) h0 (hxx.trans h1)
    have m2 := m x x' h0 hxx h1
    have m3 := m x' xa[i + 1] (h0.trans hxx) h1 (le_refl _)
    rw [hleft] at m1
    rw [hright] at m3
    exact ⟨m1, m2, m3⟩
  · intro hd
    have m := mono (-1) (Or.inr rfl) (by linarith)
    simp only [neg_one_mul, neg_le_neg_iff] at m
    have m1 := m xa[i] x (le_refl _) h0 (hxx.trans h1)
    have m2 := m x x' h0 hxx h1
    have m3 := m x' xa[i + 1] (h0.trans hxx) h1 (le_refl _)
    rw [hleft] at m1
    rw [hright] at m3
    exact ⟨m3, m2, m1⟩

example : (steffen (fun _ => (17 : ℚ)) ⟨0, fun _ => 5⟩ [0, 1, 3, 4] [0, 2, 3, 1] 2).map (·.1) =
    .ok (some (11 / 4)) ∧ SteffenReach (⟨0, fun _ => 5⟩ : Buf ℚ) :=
  ⟨by decide +kernel, .new _⟩

/-! ### C43: cubic spline -/

/-- The buffers that a `CSpline` object can have: none at the creation, then those left by
the successive calls, on any data. -/
inductive CSplineReach : Buf K → Prop
  | new (junk : Nat → K) : CSplineReach ⟨0, junk⟩
  | call {b b' : Buf K} (xa ya : List K) : CSplineReach b →
      csplineCompute b xa ya = .ok b' → CSplineReach b'

theorem CSplineReach.ends {b : Buf K} (h : CSplineReach b) (h4 : 0 < b.size) :
    4 ≤ b.size ∧ b.val 0 = 0 ∧ b.val (b.size - 1) = 0 := by
  induction h with
  | new => simp at h4
  | @call b b' xa ya hb e ih =>
    unfold csplineCompute at e
    by_cases hl : xa.length = ya.length
    · by_cases hn : 4 ≤ xa.length
      · simp only [checkSizes_ok hl hn, bind, Except.bind, Buf.fill] at e
        by_cases hsz : b.size ≠ xa.length
        · rw [if_pos hsz, if_pos (Or.inr (by simp))] at e
          cases e
          refine ⟨hn, ?_, ?_⟩
          · simp
          · simp
        · rw [if_neg hsz, if_pos (Or.inr (by omega))] at e
          cases e
          rw [not_not] at hsz
          obtain ⟨i0, i1, i2⟩ := ih (by omega)
          refine ⟨i0, ?_, ?_⟩
          · simpa using i1
          · have : ¬ (b.size - 1 < xa.length - 1) := by omega
            simp only [this, and_false, if_false]
            exact i2
      · unfold checkSizes at e
        rw [if_neg (by simpa using hl), if_pos (by omega)] at e
        simp [bind, Except.bind] at e
    · unfold checkSizes at e
      simp [hl, bind, Except.bind] at e

/-- The second order coefficients of `CSpline`. -/
def csplineC (xa ya : List K) : Nat → K
  | 0 => 0
  | i + 1 => thomasSol xa ya (xa.length - 2) i

theorem csplineCompute_eq (b : Buf K) (xa ya : List K) (hb : CSplineReach b)
    (hl : xa.length = ya.length) (h4 : 4 ≤ xa.length) :
    ∃ b', csplineCompute b xa ya = .ok b' ∧
      ∀ i, i < xa.length → b'.rd i = .ok (csplineC xa ya i) := by
  have val : ∀ v : Nat → K, v 0 = 0 → v (xa.length - 1) = 0 → ∀ i, i < xa.length →
      (if 1 ≤ i ∧ i < xa.length - 1 then thomasX xa ya (xa.length - 2) (xa.length - 2 - i)
        else v i) = csplineC xa ya i := by
    intro v v0 v1 i hi
    cases i with
    | zero => simp [csplineC, v0]
    | succ k =>
      simp only [csplineC, thomasSol]
      by_cases hk : k < xa.length - 2
      · rw [if_pos ⟨by omega, by omega⟩, if_pos hk]
        congr 1
        omega
      · rw [if_neg (by omega), if_neg hk, show k + 1 = xa.length - 1 by omega, v1]
  unfold csplineCompute
  simp only [checkSizes_ok hl h4, bind, Except.bind]
  by_cases hsz : b.size ≠ xa.length
  · rw [if_pos hsz]
    refine ⟨_, by unfold Buf.fill; rw [if_pos (Or.inr (by simp))], ?_⟩
    intro i hi
    simp only [Buf.rd, if_pos hi]
    rw [val (fun _ => 0) rfl rfl i hi]
  · rw [if_neg hsz]
    rw [not_not] at hsz
    obtain ⟨_, e0, e1⟩ := hb.ends (by omega)
    refine ⟨_, by unfold Buf.fill; rw [if_pos (Or.inr (by omega))], ?_⟩
    intro i hi
    simp only [Buf.rd, hsz, if_pos hi]
    rw [val b.val e0 (by rw [← hsz]; exact e1) i hi]

/-- The polynomial of the interval `i` for the second order coefficients `c`. -/
noncomputable def splinePiece (xa ya : List K) (c : Nat → K) (i : Nat) : K[X] :=
  let k := csplineCoefficients (c i) (c (i + 1)) (width xa i) (at' ya (i + 1) - at' ya i)
  C (at' ya i) + (X - C (at' xa i)) * (C k.1 + (X - C (at' xa i)) *
    (C k.2.1 + (X - C (at' xa i)) * C k.2.2))

theorem spline_at {b : Buf K} {xa ya : List K} {c : Nat → K} (hl : xa.length = ya.length)
    (hb : ∀ i, i < xa.length → b.rd i = .ok (c i)) {i : Nat} (hi : i + 1 < xa.length) {x : K}
    (h : search xa x = some (i, i + 1)) :
    csplineEval b xa ya x = .ok (some ((splinePiece xa ya c i).eval x)) ∧
    csplineDerivEval b xa ya x = .ok (some ((derivative (splinePiece xa ya c i)).eval x)) := by
  constructor
  · unfold csplineEval
    simp only [h, bind, Except.bind]
    rw [rd_eq (by omega : i < xa.length), rd_eq hi, rd_eq (by omega : i < ya.length),
      rd_eq (by omega : i + 1 < ya.length), hb i (by omega), hb (i + 1) hi]
    simp only [splinePiece, eval_add, eval_mul, eval_sub, eval_X, eval_C, width,
      at'_eq hi, at'_eq (by omega : i < xa.length), at'_eq (by omega : i < ya.length),
      at'_eq (by omega : i + 1 < ya.length)]
  · unfold csplineDerivEval
    simp only [h, bind, Except.bind]
    rw [rd_eq (by omega : i < xa.length), rd_eq hi, rd_eq (by omega : i < ya.length),
      rd_eq (by omega : i + 1 < ya.length), hb i (by omega), hb (i + 1) hi]
    simp only [splinePiece, derivative_add, derivative_mul, derivative_sub, derivative_X,
      derivative_C, eval_add, eval_mul, eval_sub, eval_X, eval_C, eval_one, eval_zero, width,
      at'_eq hi, at'_eq (by omega : i < xa.length), at'_eq (by omega : i < ya.length),
      at'_eq (by omega : i + 1 < ya.length)]
    congr 2
    ring

/-- If the coefficients satisfy the interior rows of the system, the pieces have a continuous
first and second derivative. -/
theorem splinePiece_pieces {xa ya : List K} (hs : xa.Pairwise (· < ·)) (hl : xa.length = ya.length)
    {c : Nat → K} (hc : ∀ i, i + 2 < xa.length → width xa i * c i +
      2 * (width xa i + width xa (i + 1)) * c (i + 1) + width xa (i + 1) * c (i + 2) =
      csplineRhs xa ya i) :
    CubicPieces xa ya (splinePiece xa ya c) ∧
    (∀ i, i + 2 < xa.length → ∀ x, x = at' xa (i + 1) →
      (derivative (derivative (splinePiece xa ya c i))).eval x =
      (derivative (derivative (splinePiece xa ya c (i + 1)))).eval x) ∧
    (∀ i, i + 1 < xa.length → (derivative (derivative (splinePiece xa ya c i))).eval (at' xa i) =
      2 * c i) ∧
    (∀ i, i + 1 < xa.length →
      (derivative (derivative (splinePiece xa ya c i))).eval (at' xa (i + 1)) = 2 * c (i + 1)) ∧
    (∀ i, i + 1 < xa.length → (derivative (splinePiece xa ya c i)).eval (at' xa i) =
      (at' ya (i + 1) - at' ya i) / width xa i - width xa i * (c (i + 1) + 2 * c i) * (1 / 3)) ∧
    (∀ i, i + 1 < xa.length → (derivative (splinePiece xa ya c i)).eval (at' xa (i + 1)) =
      (at' ya (i + 1) - at' ya i) / width xa i + width xa i * (2 * c (i + 1) + c i) * (1 / 3)) := by
  have hw : ∀ i, i + 1 < xa.length → width xa i ≠ 0 := fun i hi => (width_pos hs hi).ne'
  have D0 : ∀ i, i + 1 < xa.length → (derivative (derivative (splinePiece xa ya c i))).eval (at' xa i) =
      2 * c i := by
    intro i hi
    simp only [splinePiece, csplineCoefficients, derivative_add, derivative_mul, derivative_sub,
      derivative_X, derivative_C, eval_add, eval_mul, eval_sub, eval_X, eval_C, eval_one, eval_zero,
      derivative_one, derivative_zero]
    ring
  have D1 : ∀ i, i + 1 < xa.length →
      (derivative (derivative (splinePiece xa ya c i))).eval (at' xa (i + 1)) = 2 * c (i + 1) := by
    intro i hi
    have h1 := hw i hi
    simp only [splinePiece, csplineCoefficients, derivative_add, derivative_mul, derivative_sub,
      derivative_X, derivative_C, eval_add, eval_mul, eval_sub, eval_X, eval_C, eval_one, eval_zero,
      derivative_one, derivative_zero]
    have e : at' xa (i + 1) = at' xa i + width xa i := by unfold width; ring
    rw [e]
    field_simp
    ring
  have E0 : ∀ i, i + 1 < xa.length → (derivative (splinePiece xa ya c i)).eval (at' xa i) =
      (at' ya (i + 1) - at' ya i) / width xa i - width xa i * (c (i + 1) + 2 * c i) * (1 / 3) := by
    intro i hi
    simp only [splinePiece, csplineCoefficients, derivative_add, derivative_mul, derivative_sub,
      derivative_X, derivative_C, eval_add, eval_mul, eval_sub, eval_X, eval_C, eval_one, eval_zero,
      derivative_one, derivative_zero]
    ring
  have E1 : ∀ i, i + 1 < xa.length → (derivative (splinePiece xa ya c i)).eval (at' xa (i + 1)) =
      (at' ya (i + 1) - at' ya i) / width xa i + width xa i * (2 * c (i + 1) + c i) * (1 / 3) := by
    intro i hi
    have h1 := hw i hi
    simp only [splinePiece, csplineCoefficients, derivative_add, derivative_mul, derivative_sub,
      derivative_X, derivative_C, eval_add, eval_mul, eval_sub, eval_X, eval_C, eval_one, eval_zero,
      derivative_one, derivative_zero]
    have e : at' xa (i + 1) = at' xa i + width xa i := by unfold width; ring
    rw [e]
    field_simp
    ring
  refine ⟨⟨fun i => cubic_degree _ _ _ _ _, ?_, ?_, ?_⟩, ?_, D0, D1, E0, E1⟩
  · intro i h h'
    simp [splinePiece, at'_eq (by omega : i < xa.length), at'_eq h']
  · intro i h h'
    have h1 := hw i h
    rw [← at'_eq h, ← at'_eq h']
    simp only [splinePiece, csplineCoefficients, eval_add, eval_mul, eval_sub, eval_X, eval_C]
    have e : at' xa (i + 1) = at' xa i + width xa i := by unfold width; ring
    rw [e]
    field_simp
    ring
  · intro i h
    rw [← at'_eq (by omega : i + 1 < xa.length), E1 i (by omega), E0 (i + 1) (by omega)]
    have h1 := hw i (by omega)
    have h2 := hw (i + 1) (by omega)
    have := hc i h
    unfold csplineRhs at this
    simp only [if_pos h1, if_pos h2] at this
    rw [div_eq_mul_one_div _ (width xa i), div_eq_mul_one_div _ (width xa (i + 1))]
    linear_combination this / 3
  · rintro i hi x rfl
    rw [D1 i (by omega), D0 (i + 1) (by omega)]

theorem csplineC_natural (xa ya : List K) (hs : xa.Pairwise (· < ·)) (hl : xa.length = ya.length)
    (h4 : 4 ≤ xa.length) : NaturalSpline xa ya (splinePiece xa ya (csplineC xa ya)) := by
  obtain ⟨p1, p2, p3, p4, _⟩ := splinePiece_pieces hs hl (c := csplineC xa ya) (by
    intro i hi
    have := thomas_solves (ya := ya) hs (xa.length - 2) (by omega) i (by omega)
    rw [← this]
    cases i with
    | zero => simp [csplineC]
    | succ k => simp [csplineC])
  refine ⟨p1, ?_, ?_, ?_⟩
  · intro i h
    exact p2 i h _ (at'_eq _).symm
  · intro h
    rw [← at'_eq h, p3 0 (by omega)]
    simp [csplineC]
  · intro i h
    rw [← at'_eq (by omega : i + 1 < xa.length), p4 i (by omega)]
    simp [csplineC, thomasSol, show ¬ i < xa.length - 2 by omega]

/-- C43: whatever the previous calls on the object, `CSpline` evaluates the natural cubic
spline of the data, and `derivative` its derivative. -/
theorem C43_natural (xa ya : List K) (hs : xa.Pairwise (· < ·)) (hl : xa.length = ya.length)
    (h4 : 4 ≤ xa.length) :
    ∃ P : Nat → K[X], NaturalSpline xa ya P ∧
      ∀ b : Buf K, CSplineReach b →
        ∀ i (hi : i + 1 < xa.length) x, xa[i] ≤ x → x ≤ xa[i + 1] →
          ∃ b', cspline b xa ya x = .ok (some ((P i).eval x), b') ∧
            csplineDerivative b xa ya x = .ok (some ((derivative (P i)).eval x), b') := by
  have hP := csplineC_natural xa ya hs hl h4
  refine ⟨_, hP, ?_⟩
  intro b hb i hi x h0 h1
  obtain ⟨b', e, hb'⟩ := csplineCompute_eq b xa ya hb hl h4
  refine ⟨b', ?_⟩
  unfold cspline csplineDerivative
  simp only [e, bind, Except.bind]
  rcases h0.lt_or_eq with h0' | h0'
  · obtain ⟨a1, a2⟩ := spline_at hl hb' hi (search_between hs hi h0' h1)
    rw [a1, a2]
    exact ⟨rfl, rfl⟩
  · subst h0'
    cases i with
    | zero =>
      obtain ⟨a1, a2⟩ := spline_at hl hb' hi (search_first hs (by omega))
      rw [a1, a2]
      exact ⟨rfl, rfl⟩
    | succ k =>
      obtain ⟨a1, a2⟩ := spline_at hl hb' (by omega : k + 1 < xa.length)
        (search_node hs (by omega) (by omega : k + 1 < xa.length))
      rw [a1, a2]
      refine ⟨?_, ?_⟩
      · rw [hP.right k (by omega) (by omega), hP.left (k + 1) hi (by omega)]
      · rw [hP.c1 k hi]

/-- C43: the data are reproduced at the nodes. -/
theorem C43_nodes (xa ya : List K) (hs : xa.Pairwise (· < ·)) (hl : xa.length = ya.length)
    (h4 : 4 ≤ xa.length) (b : Buf K) (hb : CSplineReach b) (i : Nat)
    (hi : i < xa.length) : ∃ b', cspline b xa ya xa[i] = .ok (some ya[i], b') := by
  obtain ⟨P, hP, h⟩ := C43_natural xa ya hs hl h4
  cases i with
  | zero =>
    obtain ⟨b', e, _⟩ := h b hb 0 (by omega) xa[0] (le_refl _)
      (pairwise_le hs _ _ (by omega))
    exact ⟨b', by rw [e, hP.left 0 (by omega) (by omega)]⟩
  | succ k =>
    obtain ⟨b', e, _⟩ := h b hb k hi xa[k + 1] (pairwise_le hs _ _ (by omega)) (le_refl _)
    exact ⟨b', by rw [e, hP.right k hi (by omega)]⟩

example : (cspline (⟨0, fun _ => 5⟩ : Buf ℚ) [0, 1, 3, 4] [0, 2, 3, 1] 2).map (·.1) =
    .ok (some (13 / 4)) ∧ CSplineReach (⟨0, fun _ => 5⟩ : Buf ℚ) :=
  ⟨by decide +kernel, .new _⟩

end Pyinterp.Interp
