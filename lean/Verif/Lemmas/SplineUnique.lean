import Mathlib.Algebra.Polynomial.Taylor
import Mathlib.Tactic.Positivity
import Verif.Spec.Spline
import Verif.Lemmas.Interp1D

/-
The natural and the periodic cubic spline through given points are unique.
-/
namespace Pyinterp.Interp
open Spec Polynomial
set_option linter.unusedSectionVars false
set_option linter.unusedVariables false

section
variable {K : Type} [Field K] [LinearOrder K] [IsStrictOrderedRing K]

theorem cubic_form (p : K[X]) (h : p.natDegree ≤ 3) (x : K) :
    ∃ a b c d : K, p = C a + C b * (X - C x) + C c * (X - C x) ^ 2 + C d * (X - C x) ^ 3 := by
  have e := sum_taylor_eq p x
  rw [sum_over_range' _ (by simp) 4 (by rw [natDegree_taylor]; omega)] at e
  simp only [Finset.sum_range_succ, Finset.sum_range_zero, pow_zero, mul_one, pow_one, zero_add] at e
  exact ⟨_, _, _, _, e.symm⟩

/-- A sequence that vanishes at both ends and satisfies the homogeneous system is null. -/
theorem tridiagonal_zero (w c : Nat → K) (n : Nat) (hw : ∀ i, i < n → 0 < w i) (h0 : c 0 = 0)
    (hn : c n = 0) (hc : ∀ i, i + 1 < n →
      w i * c i + 2 * (w i + w (i + 1)) * c (i + 1) + w (i + 1) * c (i + 2) = 0) :
    ∀ i, i ≤ n → c i = 0 := by
  obtain ⟨m, hm, hmax⟩ := Finset.exists_max_image (Finset.range (n + 1)) (fun i => |c i|)
    ⟨0, by simp⟩
  rw [Finset.mem_range] at hm
  have hz : c m = 0 := by
    by_cases e0 : m = 0
    · rw [e0, h0]
    by_cases en : m = n
    · rw [en, hn]
    obtain ⟨i, rfl⟩ : ∃ i, m = i + 1 := ⟨m - 1, by omega⟩
    have hi := hc i (by omega)
    have w0 := hw i (by omega)
    have w1 := hw (i + 1) (by omega)
    have a0 := hmax i (by rw [Finset.mem_range]; omega)
    have a1 := hmax (i + 2) (by rw [Finset.mem_range]; omega)
    have e : 2 * (w i + w (i + 1)) * c (i + 1) = -(w i * c i + w (i + 1) * c (i + 2)) := by
      linear_combination hi
    have l1 : |2 * (w i + w (i + 1)) * c (i + 1)| = 2 * (w i + w (i + 1)) * |c (i + 1)| := by
      rw [abs_mul, abs_of_pos (by linarith)]
    have l2 : |w i * c i + w (i + 1) * c (i + 2)| ≤ w i * |c i| + w (i + 1) * |c (i + 2)| := by
      refine (abs_add_le _ _).trans ?_
      rw [abs_mul, abs_mul, abs_of_pos w0, abs_of_pos w1]
    rw [e, abs_neg] at l1
    have m0 := mul_le_mul_of_nonneg_left a0 w0.le
    have m1 := mul_le_mul_of_nonneg_left a1 w1.le
    have : (w i + w (i + 1)) * |c (i + 1)| ≤ 0 := by linarith
    have h3 : |c (i + 1)| ≤ 0 := by
      by_contra hpos
      have := mul_pos (by linarith : 0 < w i + w (i + 1)) (not_le.1 hpos)
      linarith
    exact abs_eq_zero.1 (le_antisymm h3 (abs_nonneg _))
  intro i hi
  have := hmax i (by rw [Finset.mem_range]; omega)
  simp only [hz, abs_zero] at this
  exact abs_eq_zero.1 (le_antisymm this (abs_nonneg _))

/-- A natural spline through null values is null. -/
theorem natural_zero {xs ys : List K} (hs : xs.Pairwise (· < ·)) (hl : xs.length = ys.length)
    (h0 : ∀ v ∈ ys, v = 0) {P : Nat → K[X]} (hP : NaturalSpline xs ys P) :
    ∀ i, i + 1 < xs.length → P i = 0 := by
  intro i0 hi0
  have hx : ∀ i, ∃ a b c d : K, P i = C a + C b * (X - C (at' xs i)) + C c * (X - C (at' xs i)) ^ 2 +
      C d * (X - C (at' xs i)) ^ 3 := fun i => cubic_form _ (hP.degree i) _
  choose a b c d e using hx
  have ys0 : ∀ i (h : i < ys.length), ys[i] = 0 := fun i h => h0 _ (List.getElem_mem h)
  -- the values
  have hw : ∀ i, i + 1 < xs.length → 0 < width xs i := fun i hi => width_pos hs hi
  have ex : ∀ i, at' xs (i + 1) = at' xs i + width xs i := fun i => by unfold width; ring
  have ea : ∀ i, i + 1 < xs.length → a i = 0 := by
    intro i hi
    have := hP.left i hi (by omega)
    rw [ys0, ← at'_eq, e] at this
    simpa using this
  have er : ∀ i, i + 1 < xs.length → b i + c i * width xs i + d i * width xs i ^ 2 = 0 := by
    intro i hi
    have := hP.right i hi (by omega)
    rw [ys0, ← at'_eq, e, ea i hi, ex] at this
    simp only [eval_add, eval_mul, eval_sub, eval_pow, eval_X, eval_C] at this
    have hw' := (hw i hi).ne'
    have h2 : width xs i * (b i + c i * width xs i + d i * width xs i ^ 2) = 0 := by
      linear_combination this
    exact (mul_eq_zero.1 h2).resolve_left hw'
  have d1 : ∀ i x, (derivative (P i)).eval x =
      b i + 2 * c i * (x - at' xs i) + 3 * d i * (x - at' xs i) ^ 2 := by
    intro i x
    rw [e]
    simp only [derivative_add, derivative_mul, derivative_C, derivative_pow, derivative_sub,
      derivative_X, eval_add, eval_mul, eval_sub, eval_pow, eval_X, eval_C, eval_zero, eval_one,
      map_natCast, eval_natCast]
    push_cast
    ring
  have d2 : ∀ i x, (derivative (derivative (P i))).eval x =
      2 * c i + 6 * d i * (x - at' xs i) := by
    intro i x
    rw [e]
    simp only [derivative_add, derivative_mul, derivative_C, derivative_pow, derivative_sub,
      derivative_X, derivative_zero, derivative_one, derivative_natCast, eval_add, eval_mul, eval_sub, eval_pow, eval_X, eval_C,
      eval_zero, eval_one, map_natCast, eval_natCast]
    push_cast
    ring
  -- the end
  let c' : Nat → K := fun i => if i + 1 < xs.length then c i else 0
  have c2 : ∀ i, i + 1 < xs.length → c i + 3 * d i * width xs i = c' (i + 1) := by
    intro i hi
    show _ = if _ then _ else _
    by_cases h : i + 1 + 1 < xs.length
    · rw [if_pos h]
      have := hP.c2 i (by omega)
      rw [← at'_eq, d2, d2, ex] at this
      linear_combination this / 2
    · rw [if_neg h]
      have := hP.last i (by omega)
      rw [← at'_eq, d2, ex] at this
      linear_combination this / 2
  have cz := tridiagonal_zero (width xs) c' (xs.length - 1) (fun i hi => hw i (by omega)) (by
      show (if _ then _ else _) = _
      rw [if_pos (by omega)]
      have := hP.first (by omega)
      rw [← at'_eq, d2] at this
      linear_combination this / 2) (by
      show (if _ then _ else _) = _
      rw [if_neg (by omega)]) (by
      intro i hi
      have k0 : c' i = c i := if_pos (by omega)
      have k1 : c' (i + 1) = c (i + 1) := if_pos (by omega)
      have e0 := er i (by omega)
      have e1 := er (i + 1) (by omega)
      have s0 := c2 i (by omega)
      have s1 := c2 (i + 1) (by omega)
      have t := hP.c1 i (by omega)
      rw [← at'_eq, d1, d1, ex] at t
      rw [k0, ← s1]
      rw [k1] at s0 ⊢
      linear_combination 3 * t - 3 * e0 + 3 * e1 - 2 * width xs i * s0)
  have cc : ∀ i, i + 1 < xs.length → c i = 0 := by
    intro i hi
    have := cz i (by omega)
    rwa [show c' i = c i from if_pos hi] at this
  have dd : d i0 = 0 := by
    have := c2 i0 hi0
    rw [cc i0 hi0, cz (i0 + 1) (by omega)] at this
    have hw' := (hw i0 hi0).ne'
    have h2 : d i0 * width xs i0 = 0 := by linear_combination this / 3
    exact (mul_eq_zero.1 h2).resolve_right hw'
  have bb : b i0 = 0 := by
    have := er i0 hi0
    rw [cc i0 hi0, dd] at this
    linear_combination this
  rw [e, ea i0 hi0, cc i0 hi0, dd, bb]
  simp

/-- There is only one natural spline through given points. -/
theorem natural_unique {xs ys : List K} (hs : xs.Pairwise (· < ·)) (hl : xs.length = ys.length)
    {P Q : Nat → K[X]} (hP : NaturalSpline xs ys P) (hQ : NaturalSpline xs ys Q) :
    ∀ i, i + 1 < xs.length → P i = Q i := by
  have hR : NaturalSpline xs (ys.map fun _ => (0 : K)) (fun i => P i - Q i) := by
    refine ⟨⟨?_, ?_, ?_, ?_⟩, ?_, ?_, ?_⟩
    · intro i
      exact (natDegree_sub_le _ _).trans (max_le (hP.degree i) (hQ.degree i))
    · intro i h h'
      simp only [List.length_map] at h'
      rw [eval_sub, hP.left i h h', hQ.left i h h']
      simp
    · intro i h h'
      simp only [List.length_map] at h'
      rw [eval_sub, hP.right i h h', hQ.right i h h']
      simp
    · intro i h
      simp only [derivative_sub, eval_sub, hP.c1 i h, hQ.c1 i h]
    · intro i h
      simp only [derivative_sub, eval_sub, hP.c2 i h, hQ.c2 i h]
    · intro h
      simp only [derivative_sub, eval_sub, hP.first h, hQ.first h, sub_zero]
    · intro i h
      simp only [derivative_sub, eval_sub, hP.last i h, hQ.last i h, sub_zero]
  intro i hi
  have := natural_zero hs (by simpa using hl) (by simp) hR i hi
  exact sub_eq_zero.1 this

/-- A sequence with `c n = c 0` that satisfies the homogeneous cyclic system is null. -/
theorem cyclic_zero (w c : Nat → K) (n : Nat) (h1 : 1 ≤ n) (hw : ∀ i, i < n → 0 < w i) (hn : c n = c 0)
    (hc : ∀ i, i + 1 < n →
      w i * c i + 2 * (w i + w (i + 1)) * c (i + 1) + w (i + 1) * c (i + 2) = 0)
    (hz : ∀ i, i + 1 = n → w i * c i + 2 * (w i + w 0) * c 0 + w 0 * c 1 = 0) :
    ∀ i, i ≤ n → c i = 0 := by
  obtain ⟨m, hm, hmax⟩ := Finset.exists_max_image (Finset.range (n + 1)) (fun i => |c i|)
    ⟨0, by simp⟩
  rw [Finset.mem_range] at hm
  have key : ∀ a b p q r : K, 0 < a → 0 < b → a * p + 2 * (a + b) * q + b * r = 0 → |p| ≤ |q| →
      |r| ≤ |q| → q = 0 := by
    intro a b p q r w0 w1 hi a0 a1
    have e : 2 * (a + b) * q = -(a * p + b * r) := by linear_combination hi
    have l1 : |2 * (a + b) * q| = 2 * (a + b) * |q| := by
      rw [abs_mul, abs_of_pos (by linarith)]
    have l2 : |a * p + b * r| ≤ a * |p| + b * |r| := by
      refine (abs_add_le _ _).trans ?_
      rw [abs_mul, abs_mul, abs_of_pos w0, abs_of_pos w1]
    rw [e, abs_neg] at l1
    have m0 := mul_le_mul_of_nonneg_left a0 w0.le
    have m1 := mul_le_mul_of_nonneg_left a1 w1.le
    have : (a + b) * |q| ≤ 0 := by linarith
    have h3 : |q| ≤ 0 := by
      by_contra hpos
      have := mul_pos (by linarith : 0 < a + b) (not_le.1 hpos)
      linarith
    exact abs_eq_zero.1 (le_antisymm h3 (abs_nonneg _))
  have hzero : c m = 0 := by
    by_cases e0 : m = 0 ∨ m = n
    · have cm : c m = c 0 := by rcases e0 with e | e <;> rw [e]; exact hn
      obtain ⟨k, rfl⟩ : ∃ k, n = k + 1 := ⟨n - 1, by omega⟩
      rw [cm]
      rw [cm] at hmax
      exact key (w k) (w 0) _ _ _ (hw k (by omega)) (hw 0 (by omega)) (hz k rfl)
        (hmax k (by rw [Finset.mem_range]; omega)) (hmax 1 (by rw [Finset.mem_range]; omega))
    · obtain ⟨i, rfl⟩ : ∃ i, m = i + 1 := ⟨m - 1, by omega⟩
      exact key (w i) (w (i + 1)) _ _ _ (hw i (by omega)) (hw (i + 1) (by omega)) (hc i (by omega))
        (hmax i (by rw [Finset.mem_range]; omega)) (hmax (i + 2) (by rw [Finset.mem_range]; omega))
  intro i hi
  have := hmax i (by rw [Finset.mem_range]; omega)
  simp only [hzero, abs_zero] at this
  exact abs_eq_zero.1 (le_antisymm this (abs_nonneg _))

/-- A periodic spline through null values is null. -/
theorem periodic_zero {xs ys : List K} (hs : xs.Pairwise (· < ·)) (h2 : 2 ≤ xs.length) (hl : xs.length = ys.length)
    (h0 : ∀ v ∈ ys, v = 0) {P : Nat → K[X]} (hP : PeriodicSpline xs ys P) :
    ∀ i, i + 1 < xs.length → P i = 0 := by
  intro i0 hi0
  have hx : ∀ i, ∃ a b c d : K, P i = C a + C b * (X - C (at' xs i)) + C c * (X - C (at' xs i)) ^ 2 +
      C d * (X - C (at' xs i)) ^ 3 := fun i => cubic_form _ (hP.degree i) _
  choose a b c d e using hx
  have ys0 : ∀ i (h : i < ys.length), ys[i] = 0 := fun i h => h0 _ (List.getElem_mem h)
  -- the values
  have hw : ∀ i, i + 1 < xs.length → 0 < width xs i := fun i hi => width_pos hs hi
  have ex : ∀ i, at' xs (i + 1) = at' xs i + width xs i := fun i => by unfold width; ring
  have ea : ∀ i, i + 1 < xs.length → a i = 0 := by
    intro i hi
    have := hP.left i hi (by omega)
    rw [ys0, ← at'_eq, e] at this
    simpa using this
  have er : ∀ i, i + 1 < xs.length → b i + c i * width xs i + d i * width xs i ^ 2 = 0 := by
    intro i hi
    have := hP.right i hi (by omega)
    rw [ys0, ← at'_eq, e, ea i hi, ex] at this
    simp only [eval_add, eval_mul, eval_sub, eval_pow, eval_X, eval_C] at this
    have hw' := (hw i hi).ne'
    have h2 : width xs i * (b i + c i * width xs i + d i * width xs i ^ 2) = 0 := by
      linear_combination this
    exact (mul_eq_zero.1 h2).resolve_left hw'
  have d1 : ∀ i x, (derivative (P i)).eval x =
      b i + 2 * c i * (x - at' xs i) + 3 * d i * (x - at' xs i) ^ 2 := by
    intro i x
    rw [e]
    simp only [derivative_add, derivative_mul, derivative_C, derivative_pow, derivative_sub,
      derivative_X, eval_add, eval_mul, eval_sub, eval_pow, eval_X, eval_C, eval_zero, eval_one,
      map_natCast, eval_natCast]
    push_cast
    ring
  have d2 : ∀ i x, (derivative (derivative (P i))).eval x =
      2 * c i + 6 * d i * (x - at' xs i) := by
    intro i x
    rw [e]
    simp only [derivative_add, derivative_mul, derivative_C, derivative_pow, derivative_sub,
      derivative_X, derivative_zero, derivative_one, derivative_natCast, eval_add, eval_mul, eval_sub, eval_pow, eval_X, eval_C,
      eval_zero, eval_one, map_natCast, eval_natCast]
    push_cast
    ring
  -- the end
  let c' : Nat → K := fun i => if i + 1 < xs.length then c i else c 0
  have c2 : ∀ i, i + 1 < xs.length → c i + 3 * d i * width xs i = c' (i + 1) := by
    intro i hi
    show _ = if _ then _ else _
    by_cases h : i + 1 + 1 < xs.length
    · rw [if_pos h]
      have := hP.c2 i (by omega)
      rw [← at'_eq, d2, d2, ex] at this
      linear_combination this / 2
    · rw [if_neg h]
      have := hP.wrap2 i (by omega)
      rw [← at'_eq, ← at'_eq, d2, d2, ex] at this
      linear_combination -this / 2
  have cz := cyclic_zero (width xs) c' (xs.length - 1) (by omega) (fun i hi => hw i (by omega)) (by
      show (if _ then _ else _) = (if _ then _ else _)
      rw [if_neg (by omega), if_pos (by omega)]) (by
      intro i hi
      have k0 : c' i = c i := if_pos (by omega)
      have k1 : c' (i + 1) = c (i + 1) := if_pos (by omega)
      have e0 := er i (by omega)
      have e1 := er (i + 1) (by omega)
      have s0 := c2 i (by omega)
      have s1 := c2 (i + 1) (by omega)
      have t := hP.c1 i (by omega)
      rw [← at'_eq, d1, d1, ex] at t
      rw [k0, ← s1]
      rw [k1] at s0 ⊢
      linear_combination 3 * t - 3 * e0 + 3 * e1 - 2 * width xs i * s0) (by
      intro i hi
      have k0 : c' i = c i := if_pos (by omega)
      have k1 : c' 0 = c 0 := if_pos (by omega)
      have kn : c' (i + 1) = c 0 := if_neg (by omega)
      have e0 := er i (by omega)
      have e1 := er 0 (by omega)
      have s0 := c2 i (by omega)
      have s1 := c2 0 (by omega)
      have t := hP.wrap1 i (by omega)
      rw [← at'_eq, ← at'_eq, d1, d1, ex] at t
      rw [k0, ← s1]
      rw [kn] at s0
      rw [k1]
      linear_combination -3 * t - 3 * e0 + 3 * e1 - 2 * width xs i * s0)
  have cc : ∀ i, i + 1 < xs.length → c i = 0 := by
    intro i hi
    have := cz i (by omega)
    rwa [show c' i = c i from if_pos hi] at this
  have dd : d i0 = 0 := by
    have := c2 i0 hi0
    rw [cc i0 hi0, cz (i0 + 1) (by omega)] at this
    have hw' := (hw i0 hi0).ne'
    have h2 : d i0 * width xs i0 = 0 := by linear_combination this / 3
    exact (mul_eq_zero.1 h2).resolve_right hw'
  have bb : b i0 = 0 := by
    have := er i0 hi0
    rw [cc i0 hi0, dd] at this
    linear_combination this
  rw [e, ea i0 hi0, cc i0 hi0, dd, bb]
  simp

/-- There is only one periodic spline through given points. -/
theorem periodic_unique {xs ys : List K} (hs : xs.Pairwise (· < ·)) (h2 : 2 ≤ xs.length) (hl : xs.length = ys.length)
    {P Q : Nat → K[X]} (hP : PeriodicSpline xs ys P) (hQ : PeriodicSpline xs ys Q) :
    ∀ i, i + 1 < xs.length → P i = Q i := by
  have hR : PeriodicSpline xs (ys.map fun _ => (0 : K)) (fun i => P i - Q i) := by
    refine ⟨⟨?_, ?_, ?_, ?_⟩, ?_, ?_, ?_⟩
    · intro i
      exact (natDegree_sub_le _ _).trans (max_le (hP.degree i) (hQ.degree i))
    · intro i h h'
      simp only [List.length_map] at h'
      rw [eval_sub, hP.left i h h', hQ.left i h h']
      simp
    · intro i h h'
      simp only [List.length_map] at h'
      rw [eval_sub, hP.right i h h', hQ.right i h h']
      simp
    · intro i h
      simp only [derivative_sub, eval_sub, hP.c1 i h, hQ.c1 i h]
    · intro i h
      simp only [derivative_sub, eval_sub, hP.c2 i h, hQ.c2 i h]
    · intro i h
      simp only [derivative_sub, eval_sub, hP.wrap1 i h, hQ.wrap1 i h]
    · intro i h
      simp only [derivative_sub, eval_sub, hP.wrap2 i h, hQ.wrap2 i h]
  intro i hi
  have := periodic_zero hs h2 (by simpa using hl) (by simp) hR i hi
  exact sub_eq_zero.1 this

end
end Pyinterp.Interp
