import Mathlib.Tactic.Ring
import Mathlib.Tactic.Linarith
import Mathlib.Tactic.FieldSimp
import Mathlib.Tactic.LinearCombination
import Mathlib.Tactic.Positivity
import Verif.Model.CSplinePeriodic

/-
The symmetric cyclic tridiagonal solver solves its system.
-/
namespace Pyinterp.Interp

set_option linter.unusedSectionVars false

variable {K : Type} [Field K] [LinearOrder K] [IsStrictOrderedRing K]

/-- The matrix of a periodic spline with `n` intervals of lengths `w`. -/
structure CycMatrix (A : Nat → Nat → K) (w : Nat → K) (n : Nat) : Prop where
  three : 3 ≤ n
  pos : ∀ i, i < n → 0 < w i
  diag : ∀ i, i + 1 < n → A i i = 2 * (w i + w (i + 1))
  upper : ∀ i, i + 1 < n → A i (i + 1) = w (i + 1)
  lower : ∀ i, i + 1 < n → A (i + 1) i = w (i + 1)
  lastDiag : A (n - 1) (n - 1) = 2 * (w (n - 1) + w 0)
  corner : A (n - 1) 0 = w 0

variable {A : Nat → Nat → K} {w : Nat → K} {n : Nat} {b : Nat → K}

theorem cyc_gamma_alpha (h : CycMatrix A w n) (i : Nat) (hi : i + 1 < n) :
    0 < cycAlpha A i ∧ 3 / 2 * w i + 2 * w (i + 1) ≤ cycAlpha A i ∧
      cycGamma A i = w (i + 1) / cycAlpha A i ∧ 0 < cycGamma A i ∧ cycGamma A i ≤ 1 / 2 := by
  have p0 := h.pos i (by omega)
  have p1 := h.pos (i + 1) hi
  have fin : ∀ al ga : K, 3 / 2 * w i + 2 * w (i + 1) ≤ al → ga = w (i + 1) / al →
      0 < al ∧ 3 / 2 * w i + 2 * w (i + 1) ≤ al ∧ ga = w (i + 1) / al ∧ 0 < ga ∧ ga ≤ 1 / 2 := by
    intro al ga h1 h2
    have hal : 0 < al := by linarith
    refine ⟨hal, h1, h2, ?_, ?_⟩
    · rw [h2]; positivity
    · rw [h2, div_le_iff₀ hal]; linarith
  induction i with
  | zero =>
    apply fin
    · rw [cycAlpha, h.diag 0 hi]; linarith
    · rw [cycAlpha, cycGamma, h.upper 0 hi]
  | succ i ih =>
    obtain ⟨_, _, _, g0, g1⟩ := ih (by omega) (h.pos i (by omega)) (h.pos (i + 1) (by omega)) (by
      intro al ga h1 h2
      have q0 := h.pos i (by omega)
      have hal : 0 < al := by linarith
      refine ⟨hal, h1, h2, ?_, ?_⟩
      · rw [h2]; positivity
      · rw [h2, div_le_iff₀ hal]; linarith)
    apply fin
    · rw [cycAlpha, h.diag (i + 1) hi, h.lower i (by omega)]
      have := mul_le_mul_of_nonneg_left g1 p0.le
      linarith
    · rw [cycAlpha, cycGamma, h.upper (i + 1) hi]

/-- `alpha_i delta_i delta_i` -/
def cycT (A : Nat → Nat → K) (n i : Nat) : K := cycAlpha A i * cycDelta A n i * cycDelta A n i

theorem cycT_bound (h : CycMatrix A w n) (k : Nat) (hk : k + 2 < n) :
    0 ≤ cycT A n k ∧ sumTo (cycT A n) (k + 1) + cycT A n k / 2 ≤ 3 / 4 * w 0 ∧
      0 ≤ sumTo (cycT A n) (k + 1) := by
  induction k with
  | zero =>
    obtain ⟨a0, a1, _⟩ := cyc_gamma_alpha h 0 (by omega)
    have w0 := h.pos 0 (by omega)
    have w1 := h.pos 1 (by omega)
    have e : cycT A n 0 = w 0 * w 0 / cycAlpha A 0 := by
      unfold cycT
      rw [cycDelta, h.corner]
      field_simp
    have hb : w 0 * w 0 / cycAlpha A 0 ≤ w 0 / 2 := by
      rw [cycAlpha, h.diag 0 (by omega)]
      rw [div_le_div_iff₀ (by positivity) (by norm_num)]
      nlinarith [mul_pos w0 w1]
    have he : 0 ≤ w 0 * w 0 / cycAlpha A 0 := by positivity
    refine ⟨by rw [e]; positivity, ?_, ?_⟩
    · simp only [sumTo, e]
      linarith
    · simp only [sumTo, e]
      linarith
  | succ k ih =>
    obtain ⟨t0, t1, t2⟩ := ih (by omega)
    obtain ⟨a0, a1, ag, _, g1⟩ := cyc_gamma_alpha h k (by omega)
    obtain ⟨b0, b1, _⟩ := cyc_gamma_alpha h (k + 1) (by omega)
    have w1 := h.pos (k + 1) (by omega)
    have w2 := h.pos (k + 2) (by omega)
    have e : cycT A n (k + 1) =
        cycT A n k * cycGamma A k * (w (k + 1) / cycAlpha A (k + 1)) := by
      unfold cycT
      rw [cycDelta, h.lower k (by omega), ag]
      field_simp
    have hr : w (k + 1) / cycAlpha A (k + 1) ≤ 2 / 3 := by
      rw [div_le_div_iff₀ b0 (by norm_num)]; linarith
    have hr0 : 0 ≤ w (k + 1) / cycAlpha A (k + 1) := by positivity
    have g0 : 0 < cycGamma A k := by rw [ag]; positivity
    have hle : cycT A n (k + 1) ≤ cycT A n k * (1 / 2) * (2 / 3) := by
      rw [e]
      exact mul_le_mul (mul_le_mul_of_nonneg_left g1 t0) hr hr0 (by positivity)
    have e0 : 0 ≤ cycT A n (k + 1) := by rw [e]; positivity
    refine ⟨e0, ?_, ?_⟩
    all_goals
      have : sumTo (cycT A n) (k + 1 + 1) = sumTo (cycT A n) (k + 1) + cycT A n (k + 1) := rfl
      rw [this]
      linarith

/-- The last pivot does not vanish. -/
theorem cyc_last_pos (h : CycMatrix A w n) : 0 < cycAlphaLast A n := by
  have h3 := h.three
  obtain ⟨m, rfl⟩ : ∃ m, n = m + 3 := ⟨n - 3, by omega⟩
  obtain ⟨t0, t1, t2⟩ := cycT_bound h m (by omega)
  obtain ⟨a0, a1, ag, _, g1⟩ := cyc_gamma_alpha h m (by omega)
  obtain ⟨b0, b1, _⟩ := cyc_gamma_alpha h (m + 1) (by omega)
  have w0 := h.pos 0 (by omega)
  have w1 := h.pos (m + 1) (by omega)
  have w2 := h.pos (m + 2) (by omega)
  unfold cycAlphaLast cycGammaLast
  have hl := h.lastDiag
  simp only [show m + 3 - 1 = m + 2 by omega, show m + 3 - 2 = m + 1 by omega,
    show m + 3 - 3 = m by omega] at hl ⊢
  rw [hl, h.upper (m + 1) (by omega), h.lower m (by omega)]
  change 0 < 2 * (w (m + 2) + w 0) - sumTo (cycT A (m + 3)) (m + 1) - _
  set d := cycDelta A (m + 3) m with hd
  set al := cycAlpha A (m + 1) with hal
  have e1 : al * ((w (m + 2) - w (m + 1) * d) / al) * ((w (m + 2) - w (m + 1) * d) / al) =
      (w (m + 2) - w (m + 1) * d) * (w (m + 2) - w (m + 1) * d) / al := by field_simp
  rw [e1]
  have e2 : (w (m + 2) - w (m + 1) * d) * (w (m + 2) - w (m + 1) * d) / al ≤
      2 * (w (m + 2) * w (m + 2) / al) + 2 * (w (m + 1) * w (m + 1) * (d * d) / al) := by
    rw [← mul_div_assoc, ← mul_div_assoc, ← add_div, div_le_div_iff_of_pos_right b0]
    nlinarith [mul_self_nonneg (w (m + 2) + w (m + 1) * d)]
  have e3 : w (m + 2) * w (m + 2) / al ≤ w (m + 2) / 2 := by
    rw [div_le_div_iff₀ b0 (by norm_num)]
    nlinarith [mul_pos w2 w1]
  have e4 : w (m + 1) * w (m + 1) * (d * d) / al ≤ cycT A (m + 3) m * (1 / 2) * (2 / 3) := by
    have hr : w (m + 1) / al ≤ 2 / 3 := by rw [div_le_div_iff₀ b0 (by norm_num)]; linarith
    have : w (m + 1) * w (m + 1) * (d * d) / al = cycT A (m + 3) m * cycGamma A m * (w (m + 1) / al) := by
      unfold cycT
      rw [ag, ← hd]
      field_simp
    rw [this]
    exact mul_le_mul (mul_le_mul_of_nonneg_left g1 t0) hr (by positivity) (by positivity)
  linarith

/-- The solution, by row. -/
def cycSol (A : Nat → Nat → K) (b : Nat → K) (n i : Nat) : K :=
  if i = n - 1 then cycLast A b n else cycBack A b n (n - 2 - i)

theorem cycSol_step (h3 : 3 ≤ n) (i : Nat) (hi : i + 2 < n) :
    cycSol A b n i = cycZ A b i / cycAlpha A i - cycGamma A i * cycSol A b n (i + 1) -
      cycDelta A n i * cycLast A b n := by
  unfold cycSol
  rw [if_neg (by omega), if_neg (by omega)]
  obtain ⟨j, hj⟩ : ∃ j, n - 2 - i = j + 1 := ⟨n - 3 - i, by omega⟩
  rw [hj, cycBack, show n - 3 - j = i by omega, show n - 2 - (i + 1) = j by omega]

/-- The solution satisfies every row of the cyclic system. -/
theorem cyc_solves (h : CycMatrix A w n) :
    (∀ i, i + 1 < n → w i * cycSol A b n (if i = 0 then n - 1 else i - 1) +
      2 * (w i + w (i + 1)) * cycSol A b n i + w (i + 1) * cycSol A b n (i + 1) = b i) ∧
    w (n - 1) * cycSol A b n (n - 2) + 2 * (w (n - 1) + w 0) * cycSol A b n (n - 1) +
      w 0 * cycSol A b n 0 = b (n - 1) := by
  have h3 := h.three
  obtain ⟨m, rfl⟩ : ∃ m, n = m + 3 := ⟨n - 3, by omega⟩
  have hlast : cycSol A b (m + 3) (m + 2) = cycLast A b (m + 3) := by
    unfold cycSol; rw [if_pos (by omega)]
  -- alpha_i x_i
  have step : ∀ i, i + 2 < m + 3 → cycAlpha A i * cycSol A b (m + 3) i = cycZ A b i -
      w (i + 1) * cycSol A b (m + 3) (i + 1) -
      cycAlpha A i * cycDelta A (m + 3) i * cycLast A b (m + 3) := by
    intro i hi
    obtain ⟨a0, _, ag, _⟩ := cyc_gamma_alpha h i (by omega)
    rw [cycSol_step h3 i hi, ag]
    field_simp
  have hd : ∀ i, i + 3 < m + 3 → cycAlpha A (i + 1) * cycDelta A (m + 3) (i + 1) =
      -(cycDelta A (m + 3) i * w (i + 1)) := by
    intro i hi
    obtain ⟨a0, _⟩ := cyc_gamma_alpha h (i + 1) (by omega)
    rw [cycDelta, h.lower i (by omega)]
    field_simp
  have hz : ∀ i, i + 2 < m + 3 → cycZ A b (i + 1) = b (i + 1) - cycZ A b i * cycGamma A i :=
    fun i _ => rfl
  have hal : ∀ i, i + 2 < m + 3 → cycAlpha A (i + 1) =
      2 * (w (i + 1) + w (i + 2)) - w (i + 1) * cycGamma A i := by
    intro i hi
    rw [cycAlpha, h.diag (i + 1) (by omega), h.lower i (by omega)]
  -- the row before the last one
  have pen : cycAlpha A (m + 1) * cycSol A b (m + 3) (m + 1) = cycZ A b (m + 1) -
      (w (m + 2) - w (m + 1) * cycDelta A (m + 3) m) * cycLast A b (m + 3) := by
    obtain ⟨a0, _⟩ := cyc_gamma_alpha h (m + 1) (by omega)
    unfold cycSol
    rw [if_neg (by omega), show m + 3 - 2 - (m + 1) = 0 by omega, cycBack]
    unfold cycGammaLast
    simp only [show m + 3 - 1 = m + 2 by omega, show m + 3 - 2 = m + 1 by omega,
      show m + 3 - 3 = m by omega]
    rw [h.upper (m + 1) (by omega), h.lower m (by omega)]
    field_simp
  refine ⟨?_, ?_⟩
  · intro i hi
    by_cases h0 : i = 0
    · subst h0
      have s := step 0 (by omega)
      have dd : cycAlpha A 0 * cycDelta A (m + 3) 0 = w 0 := by
        obtain ⟨a0, _⟩ := cyc_gamma_alpha h 0 (by omega)
        rw [cycDelta, h.corner]
        field_simp
      have aa : cycAlpha A 0 = 2 * (w 0 + w 1) := by rw [cycAlpha, h.diag 0 (by omega)]
      have zz : cycZ A b 0 = b 0 := rfl
      rw [if_pos rfl, show m + 3 - 1 = m + 2 by omega, hlast, ← zz, ← aa]
      linear_combination s - cycLast A b (m + 3) * dd
    · obtain ⟨k, rfl⟩ : ∃ k, i = k + 1 := ⟨i - 1, by omega⟩
      rw [if_neg h0, Nat.add_sub_cancel]
      obtain ⟨a0, _, ag, _⟩ := cyc_gamma_alpha h k (by omega)
      have s0 := cycSol_step (A := A) (b := b) h3 k (by omega)
      have zr : w (k + 1) * (cycZ A b k / cycAlpha A k) = cycZ A b k * cycGamma A k := by
        rw [ag]; field_simp
      have zz := hz k (by omega)
      have aa := hal k (by omega)
      by_cases hl : k + 2 = m + 2
      · have : k = m := by omega
        subst this
        rw [hlast]
        linear_combination w (k + 1) * s0 + zr + pen + zz - cycSol A b (k + 3) (k + 1) * aa
      · have s1 := step (k + 1) (by omega)
        have dd := hd k (by omega)
        linear_combination w (k + 1) * s0 + zr + s1 + zz - cycSol A b (m + 3) (k + 1) * aa -
          cycLast A b (m + 3) * dd
  · -- the last row
    have tele : ∀ k, k + 2 < m + 3 → w 0 * cycSol A b (m + 3) 0 =
        sumTo (fun i => cycDelta A (m + 3) i * cycZ A b i) (k + 1) -
        sumTo (cycT A (m + 3)) (k + 1) * cycLast A b (m + 3) -
        cycDelta A (m + 3) k * w (k + 1) * cycSol A b (m + 3) (k + 1) := by
      intro k
      induction k with
      | zero =>
        intro hk
        have s := step 0 hk
        have dd : cycAlpha A 0 * cycDelta A (m + 3) 0 = w 0 := by
          obtain ⟨a0, _⟩ := cyc_gamma_alpha h 0 (by omega)
          rw [cycDelta, h.corner]
          field_simp
        simp only [sumTo, cycT]
        linear_combination cycDelta A (m + 3) 0 * s - cycSol A b (m + 3) 0 * dd
      | succ k ih =>
        intro hk
        rw [ih (by omega)]
        have s := step (k + 1) hk
        have dd := hd k (by omega)
        have e1 : ∀ f : Nat → K, sumTo f (k + 1 + 1) = sumTo f (k + 1) + f (k + 1) := fun _ => rfl
        rw [e1, e1]
        simp only [cycT]
        linear_combination cycDelta A (m + 3) (k + 1) * s - cycSol A b (m + 3) (k + 1) * dd
    have t := tele m (by omega)
    have last : cycAlphaLast A (m + 3) * cycLast A b (m + 3) = b (m + 2) -
        sumTo (fun i => cycDelta A (m + 3) i * cycZ A b i) (m + 1) -
        cycGammaLast A (m + 3) * cycZ A b (m + 1) := by
      unfold cycLast
      rw [mul_div_cancel₀ _ (cyc_last_pos h).ne']
      simp only [show m + 3 - 1 = m + 2 by omega, show m + 3 - 2 = m + 1 by omega]
    have gl : cycAlpha A (m + 1) * cycGammaLast A (m + 3) =
        w (m + 2) - w (m + 1) * cycDelta A (m + 3) m := by
      obtain ⟨a0, _⟩ := cyc_gamma_alpha h (m + 1) (by omega)
      unfold cycGammaLast
      simp only [show m + 3 - 1 = m + 2 by omega, show m + 3 - 2 = m + 1 by omega,
        show m + 3 - 3 = m by omega]
      rw [h.upper (m + 1) (by omega), h.lower m (by omega), mul_div_cancel₀ _ a0.ne']
    have alast : cycAlphaLast A (m + 3) = 2 * (w (m + 2) + w 0) - sumTo (cycT A (m + 3)) (m + 1) -
        cycAlpha A (m + 1) * cycGammaLast A (m + 3) * cycGammaLast A (m + 3) := by
      have hl := h.lastDiag
      simp only [show m + 3 - 1 = m + 2 by omega] at hl
      unfold cycAlphaLast
      simp only [show m + 3 - 1 = m + 2 by omega, show m + 3 - 2 = m + 1 by omega]
      rw [hl]
      rfl
    simp only [show m + 3 - 1 = m + 2 by omega, show m + 3 - 2 = m + 1 by omega]
    rw [hlast]
    linear_combination t + last + cycGammaLast A (m + 3) * pen -
      cycLast A b (m + 3) * alast - cycSol A b (m + 3) (m + 1) * gl +
      cycGammaLast A (m + 3) * cycLast A b (m + 3) * gl

end Pyinterp.Interp
