import Verif.Lemmas.KernelIntegral
import Verif.Lemmas.RTree
import Verif.Model.Rbf

/-
The systems of the radial basis functions and of the kriging for distinct points.
-/
set_option linter.unusedVariables false
namespace Pyinterp.RTree
open Real Pyinterp.Kernel

variable {n : Nat}

/-- The coordinates of a point. -/
def Point.vec (p : Point) : Fin 3 → ℝ := ![p.x, p.y, p.z]

theorem vec_injective : Function.Injective Point.vec := by
  intro p q h
  have h0 := congrFun h 0
  have h1 := congrFun h 1
  have h2 := congrFun h 2
  cases p; cases q
  simp only [Point.vec, Matrix.cons_val_zero, Matrix.cons_val_one, Matrix.cons_val] at h0 h1 h2
  subst h0; subst h1; subst h2; rfl

theorem distance_vec (p q : Point) : distance p q = √(∑ a, (p.vec a - q.vec a) ^ 2) := by
  unfold distance
  rw [Fin.sum_univ_three]
  rfl

theorem distance_sq (p q : Point) : distance p q ^ 2 = ∑ a, (p.vec a - q.vec a) ^ 2 := by
  rw [distance_vec, Real.sq_sqrt (Finset.sum_nonneg fun a _ => sq_nonneg _)]

theorem form_smul (k : ℝ) (A : Fin n → Fin n → ℝ) (w : Fin n → ℝ) : form (fun i j => k * A i j) w = k * form A w := by
  unfold form
  rw [Finset.mul_sum]
  apply Finset.sum_congr rfl; intro i _
  rw [Finset.mul_sum]
  apply Finset.sum_congr rfl; intro j _
  ring

variable {x : Fin n → Point} (hx : Function.Injective x)
include hx

theorem vec_inj : Function.Injective fun i => (x i).vec := vec_injective.comp hx

/-- A positive definite function of the squared distance gives an invertible system. -/
theorem det_of_pos {f : ℝ → ℝ} (hf : Pos f) {A : Matrix (Fin n) (Fin n) ℝ} {k c : ℝ} (hk : 0 < k) (hc : 0 < c)
    (hA : ∀ i j, A i j = k * f (c * distance (x i) (x j) ^ 2)) : A.det ≠ 0 := by
  apply det_ne_zero_of_pos
  intro w hw
  have := hf n 3 (fun i => (x i).vec) (vec_inj hx) 0 c le_rfl hc w hw
  have h2 : A = fun i j => k * f (0 + c * ∑ a, ((x i).vec a - (x j).vec a) ^ 2) := by
    funext i j
    rw [hA, distance_sq, zero_add]
  rw [h2]
  change 0 < form (fun i j => k * f (0 + c * ∑ a, ((x i).vec a - (x j).vec a) ^ 2)) w
  rw [form_smul]
  exact mul_pos hk this

theorem det_of_gauss {A : Matrix (Fin n) (Fin n) ℝ} {k c : ℝ} (hk : 0 < k) (hc : 0 < c)
    (hA : ∀ i j, A i j = k * exp (-(c * distance (x i) (x j) ^ 2))) : A.det ≠ 0 := by
  apply det_ne_zero_of_pos
  intro w hw
  have := form_gauss_pos (fun i => (x i).vec) (vec_inj hx) c hc w hw
  have h2 : A = fun i j => k * exp (-(c * ∑ a, ((x i).vec a - (x j).vec a) ^ 2)) := by
    funext i j
    rw [hA, distance_sq]
  rw [h2]
  change 0 < form (fun i j => k * exp (-(c * ∑ a, ((x i).vec a - (x j).vec a) ^ 2))) w
  rw [form_smul]
  exact mul_pos hk this

theorem det_of_inv {A : Matrix (Fin n) (Fin n) ℝ} {k c a : ℝ} (hk : 0 < k) (hc : 0 < c) (ha : 0 < a)
    (hA : ∀ i j, A i j = k * (1 / (1 + c * distance (x i) (x j) ^ 2)) ^ a) : A.det ≠ 0 := by
  apply det_ne_zero_of_pos
  intro w hw
  have := form_inv_pow_pos (fun i => (x i).vec) (vec_inj hx) a c 1 ha hc one_pos w hw
  have h2 : A = fun i j => k * (1 / (1 + c * ∑ a, ((x i).vec a - (x j).vec a) ^ 2)) ^ a := by
    funext i j
    rw [hA, distance_sq]
  rw [h2]
  change 0 < form (fun i j => k * (1 / (1 + c * ∑ a, ((x i).vec a - (x j).vec a) ^ 2)) ^ a) w
  rw [form_smul]
  exact mul_pos hk this

theorem det_of_sqrt {A : Matrix (Fin n) (Fin n) ℝ} {k q c : ℝ} (hk : 0 < k) (hq : 0 ≤ q) (hc : 0 < c) (hn : q = 0 → n ≠ 1)
    (hA : ∀ i j, A i j = k * √(q + c * distance (x i) (x j) ^ 2)) : A.det ≠ 0 := by
  apply det_ne_zero_of_neg
  · intro i j; rw [hA, hA, distance_comm]
  · intro w hw hw0
    have := form_sqrt_neg (fun i => (x i).vec) (vec_inj hx) q c hq hc w hw hw0
    have h2 : A = fun i j => k * √(q + c * ∑ a, ((x i).vec a - (x j).vec a) ^ 2) := by
      funext i j
      rw [hA, distance_sq]
    rw [h2]
    change form (fun i j => k * √(q + c * ∑ a, ((x i).vec a - (x j).vec a) ^ 2)) w < 0
    rw [form_smul]
    exact mul_neg_of_pos_of_neg hk this
  · intro i
    rw [hA]
    exact mul_nonneg hk.le (Real.sqrt_nonneg _)
  · intro h1 i
    rw [hA]
    have hq0 : 0 < q := lt_of_le_of_ne hq fun h => hn h.symm h1
    exact mul_pos hk (Real.sqrt_pos.2 (by have := mul_nonneg hc.le (sq_nonneg (distance (x i) (x i))); linarith))

end Pyinterp.RTree
