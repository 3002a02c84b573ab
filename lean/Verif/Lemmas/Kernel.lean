import Mathlib.Analysis.SpecialFunctions.Exponential
import Mathlib.Algebra.MvPolynomial.Eval
import Mathlib.Algebra.BigOperators.Fin
import Mathlib.Topology.Algebra.InfiniteSum.Order
import Mathlib.Analysis.Normed.Algebra.Exponential

/-
Positive definite kernels: the Gaussian kernel of distinct points.
-/
set_option linter.unusedVariables false
namespace Pyinterp.Kernel
open Real Finset

variable {n m : Nat}

/-- The quadratic form of the matrix `A` at `w`. -/
def form (A : Fin n → Fin n → ℝ) (w : Fin n → ℝ) : ℝ := ∑ i, ∑ j, w i * w j * A i j

/-- The form of the `k`-th power of the Gram matrix is a sum of squares. -/
theorem form_pow (b : Fin n → Fin m → ℝ) (w : Fin n → ℝ) (k : Nat) :
    form (fun i j => (∑ a, b i a * b j a) ^ k) w = ∑ f : Fin k → Fin m, (∑ i, w i * ∏ l, b i (f l)) ^ 2 := by
  unfold form
  conv_lhs => simp only [Fintype.sum_pow, Finset.prod_mul_distrib, Finset.mul_sum]
  rw [Finset.sum_congr rfl (fun i _ => Finset.sum_comm), Finset.sum_comm]
  apply Finset.sum_congr rfl; intro f _
  rw [sq, Finset.sum_mul_sum]
  apply Finset.sum_congr rfl; intro i _
  apply Finset.sum_congr rfl; intro j _
  ring

/-- All the moments vanish: all the weights vanish. -/
theorem moments_zero (b : Fin n → Fin m → ℝ) (hb : Function.Injective b) (w : Fin n → ℝ)
    (h : ∀ (k : Nat) (f : Fin k → Fin m), ∑ i, w i * ∏ l, b i (f l) = 0) : w = 0 := by
  have hp : ∀ p : MvPolynomial (Fin m) ℝ, ∀ (k : Nat) (f : Fin k → Fin m),
      ∑ i, w i * (∏ l, b i (f l)) * MvPolynomial.eval (b i) p = 0 := by
    intro p
    induction p using MvPolynomial.induction_on with
    | C a =>
      intro k f
      simp only [MvPolynomial.eval_C]
      rw [← Finset.sum_mul, h, zero_mul]
    | add p q hp hq =>
      intro k f
      simp only [map_add, mul_add, Finset.sum_add_distrib, hp, hq, add_zero]
    | mul_X p a hp =>
      intro k f
      have := hp (k + 1) (Fin.cons a f)
      rw [← this]
      apply Finset.sum_congr rfl; intro i _
      rw [Fin.prod_univ_succ]
      simp only [Fin.cons_zero, Fin.cons_succ, map_mul, MvPolynomial.eval_X]
      ring
  funext i
  have hi := hp (∏ j ∈ Finset.univ.erase i, ∑ a, MvPolynomial.C (b i a - b j a) * (MvPolynomial.X a - MvPolynomial.C (b j a)))
    0 Fin.elim0
  simp only [Finset.univ_eq_empty, Finset.prod_empty, mul_one, map_prod, map_sum, map_mul, MvPolynomial.eval_C,
    map_sub, MvPolynomial.eval_X] at hi
  rw [Finset.sum_eq_single i] at hi
  · rcases mul_eq_zero.1 hi with h0 | h0
    · exact h0
    · exfalso
      rw [Finset.prod_eq_zero_iff] at h0
      obtain ⟨j, hj, h0⟩ := h0
      have hne : i ≠ j := fun h => (Finset.mem_erase.1 hj).1 h.symm
      apply hne
      apply hb
      funext a
      have h1 := (Finset.sum_eq_zero_iff_of_nonneg (fun a _ => mul_self_nonneg (b i a - b j a))).1 h0 a (Finset.mem_univ a)
      linarith [mul_self_eq_zero.1 h1]
  · intro j _ hji
    rw [Finset.prod_eq_zero (i := j) (Finset.mem_erase.2 ⟨hji, Finset.mem_univ _⟩) (by simp), mul_zero]
  · intro h; exact absurd (Finset.mem_univ i) h

/-- The exponential of the Gram matrix of distinct vectors is positive definite. -/
theorem form_exp_pos (b : Fin n → Fin m → ℝ) (hb : Function.Injective b) (w : Fin n → ℝ) (hw : w ≠ 0) :
    0 < form (fun i j => exp (∑ a, b i a * b j a)) w := by
  have hs : HasSum (fun k : Nat => (Nat.factorial k : ℝ)⁻¹ * form (fun i j => (∑ a, b i a * b j a) ^ k) w)
      (form (fun i j => exp (∑ a, b i a * b j a)) w) := by
    unfold form
    simp only [Finset.mul_sum]
    apply hasSum_sum; intro i _
    apply hasSum_sum; intro j _
    have he := NormedSpace.expSeries_div_hasSum_exp (𝔸 := ℝ) (∑ a, b i a * b j a)
    rw [← Real.exp_eq_exp_ℝ] at he
    have := he.mul_left (w i * w j)
    refine this.congr_fun ?_
    intro k
    field_simp
  have hnn : ∀ k : Nat, 0 ≤ (Nat.factorial k : ℝ)⁻¹ * form (fun i j => (∑ a, b i a * b j a) ^ k) w := by
    intro k
    rw [form_pow]
    exact mul_nonneg (by positivity) (Finset.sum_nonneg fun f _ => sq_nonneg _)
  rcases lt_or_eq_of_le (hs.nonneg hnn) with h | h
  · exact h
  · exfalso
    apply hw
    apply moments_zero b hb w
    intro k f
    rw [← h] at hs
    have h0 := congrFun ((hasSum_zero_iff_of_nonneg hnn).1 hs) k
    simp only [Pi.zero_apply, form_pow] at h0
    have hk : ((Nat.factorial k : ℝ)⁻¹) ≠ 0 := by positivity
    have h1 := (mul_eq_zero.1 h0).resolve_left hk
    exact pow_eq_zero_iff (two_ne_zero) |>.1 ((Finset.sum_eq_zero_iff_of_nonneg (fun f _ => sq_nonneg _)).1 h1 f (Finset.mem_univ f))

/-- The Gaussian kernel of distinct points is positive definite. -/
theorem form_gauss_pos (b : Fin n → Fin m → ℝ) (hb : Function.Injective b) (c : ℝ) (hc : 0 < c) (w : Fin n → ℝ) (hw : w ≠ 0) :
    0 < form (fun i j => exp (-(c * ∑ a, (b i a - b j a) ^ 2))) w := by
  have h2c : 0 < √(2 * c) := Real.sqrt_pos.2 (by linarith)
  have hsq : √(2 * c) * √(2 * c) = 2 * c := Real.mul_self_sqrt (by linarith)
  have h := form_exp_pos (fun i a => √(2 * c) * b i a) (by
    intro i j hij
    apply hb
    funext a
    have := congrFun hij a
    exact mul_left_cancel₀ h2c.ne' this) (fun i => w i * exp (-(c * ∑ a, b i a ^ 2))) (by
    intro h0
    apply hw
    funext i
    have := congrFun h0 i
    exact (mul_eq_zero.1 this).resolve_right (exp_ne_zero _))
  convert h using 1
  unfold form
  apply Finset.sum_congr rfl; intro i _
  apply Finset.sum_congr rfl; intro j _
  have : exp (-(c * ∑ a, (b i a - b j a) ^ 2)) = exp (-(c * ∑ a, b i a ^ 2)) * exp (-(c * ∑ a, b j a ^ 2)) *
      exp (∑ a, √(2 * c) * b i a * (√(2 * c) * b j a)) := by
    rw [← exp_add, ← exp_add]
    congr 1
    simp only [Finset.mul_sum, ← Finset.sum_neg_distrib, ← Finset.sum_add_distrib]
    apply Finset.sum_congr rfl; intro a _
    linear_combination -b i a * b j a * hsq
  dsimp only
  rw [this]
  ring

end Pyinterp.Kernel
