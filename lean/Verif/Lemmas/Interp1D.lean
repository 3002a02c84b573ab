import Mathlib.Tactic.Ring
import Mathlib.Tactic.Linarith
import Mathlib.Tactic.FieldSimp
import Mathlib.Tactic.LinearCombination
import Mathlib.Algebra.Order.Ring.Abs
import Verif.Model.Interp1D

namespace Pyinterp.Interp

set_option linter.unusedSectionVars false

variable {K : Type} [Field K] [LinearOrder K] [IsStrictOrderedRing K]

theorem at'_eq {l : List K} {i : Nat} (h : i < l.length) : at' l i = l[i] := by
  simp [at', List.getD, List.getElem?_eq_getElem h]

theorem rd_eq {l : List K} {i : Nat} (h : i < l.length) : Pyinterp.rd l (i : Int) = .ok l[i] := by
  unfold Pyinterp.rd
  rw [if_neg (by omega)]
  simp [List.getElem?_eq_getElem h]

/-! ### search -/

theorem pairwise_lt {xa : List K} (hs : xa.Pairwise (· < ·)) {i j : Nat} (hi : i < xa.length)
    (hj : j < xa.length) (hij : i < j) : xa[i] < xa[j] :=
  List.pairwise_iff_getElem.mp hs i j hi hj hij

theorem pairwise_le {xa : List K} (hs : xa.Pairwise (· < ·)) {i j : Nat} (hi : i < xa.length)
    (hj : j < xa.length) (hij : i ≤ j) : xa[i] ≤ xa[j] := by
  rcases hij.lt_or_eq with h | h
  · exact (pairwise_lt hs hi hj h).le
  · subst h; exact le_refl _

theorem search_spec {xa : List K} (hs : xa.Pairwise (· < ·)) (h2 : 2 ≤ xa.length) (x : K) :
    (∃ i, ∃ h : i + 1 < xa.length, search xa x = some (i, i + 1) ∧ xa[i] ≤ x ∧ x ≤ xa[i + 1] ∧
      (x = xa[i] → i = 0)) ∨
    (search xa x = none ∧ ((∀ v ∈ xa, v < x) ∨ ∀ v ∈ xa, x < v)) := by
  unfold search
  obtain ⟨_, r2, r3, r4⟩ := lowerBound_spec
    (fun j => match xa[j]? with | some v => decide (v < x) | none => false) 0 xa.length (by
      intro i j _ hij hj h
      have hj' : j < xa.length := by omega
      have hi' : i < xa.length := by omega
      simp only [List.getElem?_eq_getElem hj', List.getElem?_eq_getElem hi',
        decide_eq_true_eq] at h ⊢
      exact lt_of_le_of_lt (pairwise_le hs hi' hj' hij) h)
  generalize lowerBound (fun j => match xa[j]? with | some v => decide (v < x) | none => false)
    0 xa.length = r at *
  have r3' : ∀ i (h : i < xa.length), i < r → xa[i] < x := by
    intro i h hi
    have := r3 i (by omega) hi
    simpa [List.getElem?_eq_getElem h] using this
  have r4' : ∀ i (h : i < xa.length), r ≤ i → x ≤ xa[i] := by
    intro i h hi
    have := r4 i hi (by omega)
    simpa [List.getElem?_eq_getElem h] using this
  simp only
  by_cases he : r = xa.length
  · right
    rw [if_pos he]
    refine ⟨rfl, Or.inl ?_⟩
    intro v hv
    obtain ⟨i, hi, rfl⟩ := List.mem_iff_getElem.1 hv
    exact r3' i hi (by omega)
  · rw [if_neg he]
    by_cases h0 : r = 0
    · rw [if_pos h0]
      have hx := r4' 0 (by omega) (by omega)
      rw [List.getElem?_eq_getElem (by omega : 0 < xa.length)]
      by_cases hxe : xa[0] = x
      · left
        rw [if_pos (by rw [hxe])]
        exact ⟨0, by omega, rfl, hxe.le, by rw [← hxe]; exact pairwise_le hs (by omega) (by omega) (by omega),
          fun _ => rfl⟩
      · right
        rw [if_neg (by intro h; exact hxe (Option.some.inj h))]
        refine ⟨rfl, Or.inr ?_⟩
        intro v hv
        obtain ⟨i, hi, rfl⟩ := List.mem_iff_getElem.1 hv
        exact lt_of_lt_of_le (lt_of_le_of_ne hx (Ne.symm hxe)) (pairwise_le hs (by omega) hi (by omega))
    · rw [if_neg h0]
      left
      have hr : r < xa.length := by omega
      obtain ⟨k, rfl⟩ : ∃ k, r = k + 1 := ⟨r - 1, by omega⟩
      have hlt := r3' k (by omega) (by omega)
      have hle := r4' (k + 1) hr (le_refl _)
      refine ⟨k, hr, ?_, hlt.le, hle, fun h => absurd h hlt.ne'⟩
      rw [Nat.add_sub_cancel, List.getElem?_eq_getElem (by omega : k < xa.length),
        List.getElem?_eq_getElem hr]
      simp only
      rw [if_pos ⟨hlt, hle⟩]

/-- The interval found for a value between two consecutive abscissas. -/
theorem search_between {xa : List K} (hs : xa.Pairwise (· < ·)) {i : Nat} (hi : i + 1 < xa.length)
    {x : K} (h0 : xa[i] < x) (h1 : x ≤ xa[i + 1]) : search xa x = some (i, i + 1) := by
  rcases search_spec hs (by omega) x with ⟨j, hj, e, a, b, _⟩ | ⟨_, h | h⟩
  · have : j = i := by
      rcases lt_trichotomy j i with h | h | h
      · exact absurd (lt_of_le_of_lt (b.trans (pairwise_le hs hj (by omega) (by omega))) h0)
          (lt_irrefl _)
      · exact h
      · have h3 := pairwise_le hs hi (by omega : j < xa.length) (by omega)
        have h4 : x = xa[j] := le_antisymm (h1.trans h3) a
        rcases search_spec hs (by omega) x with ⟨j', hj', e', a', b', c'⟩ | ⟨e', _⟩
        · rw [e] at e'
          have hjj : j = j' := by
            have := Option.some.inj e'
            exact (Prod.mk.inj this).1
          subst hjj
          have := c' h4
          omega
        · rw [e] at e'; cases e'
    subst this
    exact e
  · exact absurd (h _ (List.getElem_mem hi)) (not_lt.2 h1)
  · exact absurd (h _ (List.getElem_mem (by omega : i < xa.length))) (not_lt.2 h0.le)

theorem search_first {xa : List K} (hs : xa.Pairwise (· < ·)) (h2 : 2 ≤ xa.length) :
    search xa xa[0] = some (0, 1) := by
  rcases search_spec hs h2 xa[0] with ⟨j, hj, e, a, b, c⟩ | ⟨_, h | h⟩
  · have : j = 0 := by
      by_contra hj0
      exact absurd (pairwise_lt hs (by omega) (by omega : j < xa.length) (by omega)) (not_lt.2 a)
    subst this
    exact e
  · exact absurd (h _ (List.getElem_mem (by omega : 0 < xa.length))) (lt_irrefl _)
  · exact absurd (h _ (List.getElem_mem (by omega : 0 < xa.length))) (lt_irrefl _)

/-- The interval found at the abscissa `i`. -/
theorem search_node {xa : List K} (hs : xa.Pairwise (· < ·)) (h2 : 2 ≤ xa.length) {i : Nat}
    (hi : i < xa.length) : search xa xa[i] = some (i - 1, i - 1 + 1) := by
  cases i with
  | zero => exact search_first hs h2
  | succ k => exact search_between hs hi (pairwise_lt hs (by omega) hi (by omega)) (le_refl _)

theorem search_outside {xa : List K} (hs : xa.Pairwise (· < ·)) (h2 : 2 ≤ xa.length) {x : K}
    (h : x < xa[0] ∨ xa[xa.length - 1] < x) : search xa x = none := by
  rcases search_spec hs h2 x with ⟨j, hj, e, a, b, _⟩ | ⟨e, _⟩
  · rcases h with h | h
    · exact absurd (lt_of_le_of_lt (pairwise_le hs (by omega : 0 < xa.length) (by omega : j < xa.length)
        (by omega)) (lt_of_le_of_lt a h)) (lt_irrefl _)
    · exact absurd (lt_of_lt_of_le h (b.trans (pairwise_le hs hj (by omega) (by omega)))) (lt_irrefl _)
  · exact e

theorem checkSizes_ok {n : Nat} {xa ya : List K} (h : xa.length = ya.length) (hn : n ≤ xa.length) :
    checkSizes n xa ya = .ok () := by
  unfold checkSizes
  rw [if_neg (by simpa using h), if_neg (by omega)]

theorem width_pos {xa : List K} (hs : xa.Pairwise (· < ·)) {i : Nat} (hi : i + 1 < xa.length) :
    0 < width xa i := by
  unfold width
  rw [at'_eq hi, at'_eq (by omega : i < xa.length)]
  have := pairwise_lt hs (by omega) hi (by omega : i < i + 1)
  linarith

/-! ### the cubic of Hermite -/

/-- On `[0, h]`, with slopes at the ends of the sign of the secant and at most twice the
secant, the cubic is monotone. -/
theorem hermite_mono {s d0 d1 u v : K} (h0 : 0 ≤ u) (huv : u ≤ v) (h1 : v ≤ 1) (hd0 : 0 ≤ d0)
    (hd0' : d0 ≤ 2 * s) (hd1 : 0 ≤ d1) (hd1' : d1 ≤ 2 * s) :
    u * (d0 + u * ((3 * s - 2 * d0 - d1) + u * (d0 + d1 - 2 * s))) ≤
    v * (d0 + v * ((3 * s - 2 * d0 - d1) + v * (d0 + d1 - 2 * s))) := by
  have e : v * (d0 + v * ((3 * s - 2 * d0 - d1) + v * (d0 + d1 - 2 * s))) -
      u * (d0 + u * ((3 * s - 2 * d0 - d1) + u * (d0 + d1 - 2 * s))) =
      (v - u) * (d0 * (1 - 2 * (u + v) + (u * u + u * v + v * v)) +
        d1 * (-(u + v) + (u * u + u * v + v * v)) +
        s * (3 * (u + v) - 2 * (u * u + u * v + v * v))) := by ring
  have hs : 0 ≤ s := by linarith
  have key : 0 ≤ d0 * (1 - 2 * (u + v) + (u * u + u * v + v * v)) +
        d1 * (-(u + v) + (u * u + u * v + v * v)) +
        s * (3 * (u + v) - 2 * (u * u + u * v + v * v)) := by
    set p := u + v with hp
    set q := u * u + u * v + v * v with hq
    have hv0 : 0 ≤ v := h0.trans huv
    have hu1 : u ≤ 1 := huv.trans h1
    have hp0 : 0 ≤ p := by linarith
    have hp2 : p ≤ 2 := by linarith
    have q0 : 2 * q ≤ 3 * p := by
      nlinarith [mul_nonneg h0 (sub_nonneg.2 hu1), mul_nonneg hv0 (sub_nonneg.2 h1),
        mul_nonneg h0 (sub_nonneg.2 h1), mul_nonneg hv0 (sub_nonneg.2 hu1)]
    have q1 : 3 * (p * p) ≤ 4 * q := by nlinarith [mul_self_nonneg (u - v)]
    -- bilinear in d0, d1
    by_cases hs0 : s = 0
    · have a0 : d0 = 0 := by rw [hs0] at hd0'; linarith
      have a1 : d1 = 0 := by rw [hs0] at hd1'; linarith
      rw [a0, a1, hs0]; simp
    · have hsp : 0 < s := lt_of_le_of_ne hs (Ne.symm hs0)
      have c00 : 0 ≤ 3 * p - 2 * q := by linarith
      have c10 : 0 ≤ 2 - p := by linarith
      have c01 : 0 ≤ p := hp0
      have c11 : 0 ≤ 2 - 3 * p + 2 * q := by nlinarith [mul_self_nonneg (p - 1)]
      have id1 : 4 * s * s * (d0 * (1 - 2 * p + q) + d1 * (-p + q) + s * (3 * p - 2 * q)) =
          s * ((2 * s - d0) * (2 * s - d1) * (3 * p - 2 * q) + d0 * (2 * s - d1) * (2 - p) +
            (2 * s - d0) * d1 * p + d0 * d1 * (2 - 3 * p + 2 * q)) := by ring
      have id2 : 0 ≤ 4 * s * s * (d0 * (1 - 2 * p + q) + d1 * (-p + q) + s * (3 * p - 2 * q)) := by
        rw [id1]
        apply mul_nonneg hs
        have e0 : 0 ≤ 2 * s - d0 := by linarith
        have e1 : 0 ≤ 2 * s - d1 := by linarith
        have t1 := mul_nonneg (mul_nonneg e0 e1) c00
        have t2 := mul_nonneg (mul_nonneg hd0 e1) c10
        have t3 := mul_nonneg (mul_nonneg e0 hd1) c01
        have t4 := mul_nonneg (mul_nonneg hd0 hd1) c11
        linarith
      by_contra hneg
      have := mul_neg_of_pos_of_neg (by positivity : (0 : K) < 4 * s * s) (not_le.1 hneg)
      linarith
  have := mul_nonneg (sub_nonneg.2 huv) key
  linarith

/-! ### Steffen -/

theorem copysign_one (y : K) : copysign 1 y = if y < 0 then -1 else 1 := by
  unfold copysign
  have h1 : ¬ ((1 : K) < 0) := by simp
  have h2 : (0 : K) < 1 := one_pos
  simp [h1, h2]

/-- The slopes of `Steffen` at the ends of an interval have the sign of its secant and are
at most twice the secant. -/
theorem steffenSlope_bound {xa ya : List K} (hn : 3 ≤ xa.length) {i : Nat} (hi : i + 1 < xa.length)
    (e : Nat) (he : e = i ∨ e = i + 1) (sgn : K) (hsgn : sgn = 1 ∨ sgn = -1)
    (hs : 0 ≤ sgn * slope xa ya i) :
    0 ≤ sgn * steffenSlope xa ya e ∧ sgn * steffenSlope xa ya e ≤ 2 * (sgn * slope xa ya i) := by
  unfold steffenSlope
  simp only
  have habs : |slope xa ya i| = sgn * slope xa ya i := by
    rcases hsgn with rfl | rfl
    · rw [one_mul] at hs ⊢; exact abs_of_nonneg hs
    · have : slope xa ya i ≤ 0 := by linarith
      rw [abs_of_nonpos this]; ring
  by_cases h0 : e = 0
  · rw [if_pos h0]
    have : i = 0 := by omega
    subst this
    exact ⟨hs, by linarith⟩
  · rw [if_neg h0]
    by_cases h1 : e = xa.length - 1
    · rw [if_pos h1]
      have : i = xa.length - 2 := by omega
      rw [← this]
      exact ⟨hs, by linarith⟩
    · rw [if_neg h1]
      set P := (slope xa ya (e - 1) * (at' xa (e + 1) - at' xa e) +
        slope xa ya e * (at' xa e - at' xa (e - 1))) /
        ((at' xa e - at' xa (e - 1)) + (at' xa (e + 1) - at' xa e)) with hP
      set m := min |slope xa ya (e - 1)| (min |slope xa ya e| (1 / 2 * |P|)) with hm
      have m0 : 0 ≤ m := le_min (abs_nonneg _) (le_min (abs_nonneg _)
        (mul_nonneg (by norm_num) (abs_nonneg _)))
      have m1 : m ≤ |slope xa ya (e - 1)| := min_le_left _ _
      have m2 : m ≤ |slope xa ya e| := (min_le_right _ _).trans (min_le_left _ _)
      have mi : m ≤ sgn * slope xa ya i := by
        rw [← habs]
        rcases he with rfl | rfl
        · exact m2
        · exact m1
      -- the sum of the signs
      have key : ∀ o : K, 0 ≤ sgn * ((copysign 1 (slope xa ya i) + copysign 1 o) * m) ∧
          sgn * ((copysign 1 (slope xa ya i) + copysign 1 o) * m) ≤ 2 * (sgn * slope xa ya i) := by
        intro o
        rw [copysign_one, copysign_one]
        rcases eq_or_lt_of_le m0 with hm0 | hm0
        · rw [← hm0]; simp only [mul_zero]; exact ⟨le_refl _, by linarith⟩
        · rcases hsgn with rfl | rfl
          · have : ¬ slope xa ya i < 0 := by simp only [one_mul] at hs; exact not_lt.2 hs
            rw [if_neg this]
            split <;> constructor <;> nlinarith
          · have hneg : slope xa ya i < 0 := by linarith
            rw [if_pos hneg]
            split <;> constructor <;> nlinarith
      rcases he with rfl | rfl
      · have := key (slope xa ya (e - 1))
        rw [add_comm] at this
        exact this
      · exact key (slope xa ya (i + 1))

/-! ### Thomas algorithm -/

theorem thomasC_bound {xa : List K} (hs : xa.Pairwise (· < ·)) (i : Nat) (hi : i + 2 < xa.length) :
    0 < thomasC xa i ∧ thomasC xa i ≤ 1 / 2 := by
  induction i with
  | zero =>
    have w0 := width_pos hs (by omega : 0 + 1 < xa.length)
    have w1 := width_pos hs (by omega : 1 + 1 < xa.length)
    unfold thomasC
    refine ⟨by positivity, ?_⟩
    rw [mul_one_div, div_le_iff₀ (by positivity)]
    linarith
  | succ i ih =>
    obtain ⟨c0, c1⟩ := ih (by omega)
    have w1 := width_pos hs (by omega : (i + 1) + 1 < xa.length)
    have w2 := width_pos hs (by omega : (i + 2) + 1 < xa.length)
    have : width xa (i + 1) * thomasC xa i ≤ width xa (i + 1) * (1 / 2) :=
      mul_le_mul_of_nonneg_left c1 w1.le
    have hp : 0 < 2 * (width xa (i + 1) + width xa (i + 2)) - width xa (i + 1) * thomasC xa i := by
      linarith
    unfold thomasC
    refine ⟨by positivity, ?_⟩
    rw [mul_one_div, div_le_iff₀ hp]
    linarith

theorem thomas_pivot {xa : List K} (hs : xa.Pairwise (· < ·)) (i : Nat) (hi : i + 3 < xa.length) :
    0 < 2 * (width xa (i + 1) + width xa (i + 2)) - width xa (i + 1) * thomasC xa i := by
  obtain ⟨c0, c1⟩ := thomasC_bound hs i (by omega)
  have w1 := width_pos hs (by omega : (i + 1) + 1 < xa.length)
  have w2 := width_pos hs (by omega : (i + 2) + 1 < xa.length)
  have : width xa (i + 1) * thomasC xa i ≤ width xa (i + 1) * (1 / 2) :=
    mul_le_mul_of_nonneg_left c1 w1.le
  linarith

/-- The solution of the algorithm, by row (`N` rows). -/
def thomasSol (xa ya : List K) (N i : Nat) : K := if i < N then thomasX xa ya N (N - 1 - i) else 0

theorem thomasSol_step {xa ya : List K} {N i : Nat} (h : i < N) :
    thomasSol xa ya N i = thomasD xa ya i - thomasC xa i * thomasSol xa ya N (i + 1) := by
  unfold thomasSol
  rw [if_pos h]
  by_cases hl : i + 1 < N
  · rw [if_pos hl]
    obtain ⟨j, hj⟩ : ∃ j, N - 1 - i = j + 1 := ⟨N - 2 - i, by omega⟩
    rw [hj, thomasX, show N - 2 - j = i by omega, show N - 1 - (i + 1) = j by omega]
  · rw [if_neg hl, show N - 1 - i = 0 by omega, thomasX, show N - 1 = i by omega]
    ring

/-- The solution satisfies every row of the tridiagonal system. -/
theorem thomas_solves {xa ya : List K} (hs : xa.Pairwise (· < ·)) (N : Nat)
    (hN : N + 2 = xa.length) (i : Nat) (hi : i < N) :
    width xa i * (if i = 0 then 0 else thomasSol xa ya N (i - 1)) +
      2 * (width xa i + width xa (i + 1)) * thomasSol xa ya N i +
      width xa (i + 1) * thomasSol xa ya N (i + 1) = csplineRhs xa ya i := by
  cases i with
  | zero =>
    have w0 := width_pos hs (by omega : 0 + 1 < xa.length)
    have w1 := width_pos hs (by omega : 1 + 1 < xa.length)
    have hp : 2 * (width xa 0 + width xa 1) ≠ 0 := by positivity
    rw [thomasSol_step hi, if_pos rfl, thomasD, thomasC]
    field_simp
    ring
  | succ k =>
    have hp := (thomas_pivot hs k (by omega)).ne'
    have e1 := thomasSol_step (xa := xa) (ya := ya) (N := N) (i := k) (by omega)
    have e2 := thomasSol_step (xa := xa) (ya := ya) (N := N) (i := k + 1) hi
    have d : (2 * (width xa (k + 1) + width xa (k + 2)) - width xa (k + 1) * thomasC xa k) *
        thomasD xa ya (k + 1) = csplineRhs xa ya (k + 1) - width xa (k + 1) * thomasD xa ya k := by
      rw [thomasD, mul_one_div, mul_div_cancel₀ _ hp]
    have c : (2 * (width xa (k + 1) + width xa (k + 2)) - width xa (k + 1) * thomasC xa k) *
        thomasC xa (k + 1) = width xa (k + 2) := by
      rw [thomasC, mul_one_div, mul_div_cancel₀ _ hp]
    rw [if_neg (by omega), Nat.add_sub_cancel]
    linear_combination width xa (k + 1) * e1 + d +
      (2 * (width xa (k + 1) + width xa (k + 2)) - width xa (k + 1) * thomasC xa k) * e2 -
      thomasSol xa ya N (k + 1 + 1) * c

end Pyinterp.Interp
