import Verif.Lemmas.Kernel
import Mathlib.Analysis.SpecialFunctions.Gamma.Basic
import Mathlib.Analysis.SpecialFunctions.ImproperIntegrals
import Mathlib.MeasureTheory.Integral.IntegralEqImproper
import Mathlib.Analysis.SpecialFunctions.Sqrt
import Mathlib.LinearAlgebra.Matrix.PosDef
import Mathlib.Analysis.Matrix.PosDef
import Mathlib.Analysis.Matrix.Order
import Mathlib.LinearAlgebra.Matrix.ToLinearEquiv

/-
Positive definite kernels: the mixtures of Gaussian kernels, the conditionally negative kernels.
-/
set_option linter.unusedVariables false
namespace Pyinterp.Kernel
open Real Finset MeasureTheory

variable {n m : Nat}

/-- The integral of a family of positive definite kernels is positive definite. -/
theorem form_integral_pos (G : ℝ → Fin n → Fin n → ℝ) (hi : ∀ i j, IntegrableOn (fun t => G t i j) (Set.Ioi 0))
    (w : Fin n → ℝ) (hpos : ∀ t > 0, 0 < form (G t) w) : 0 < form (fun i j => ∫ t in Set.Ioi 0, G t i j) w := by
  have hint : ∀ i j, IntegrableOn (fun t => w i * w j * G t i j) (Set.Ioi 0) := fun i j => (hi i j).const_mul _
  have h1 : form (fun i j => ∫ t in Set.Ioi 0, G t i j) w = ∫ t in Set.Ioi 0, form (G t) w := by
    unfold form
    rw [integral_finsetSum _ (fun i _ => integrable_finsetSum _ fun j _ => hint i j)]
    apply Finset.sum_congr rfl; intro i _
    rw [integral_finsetSum _ (fun j _ => hint i j)]
    apply Finset.sum_congr rfl; intro j _
    rw [integral_const_mul]
  rw [h1]
  have hI : IntegrableOn (fun t => form (G t) w) (Set.Ioi 0) := by
    unfold form
    exact integrable_finsetSum _ (fun i _ => integrable_finsetSum _ fun j _ => hint i j)
  rw [setIntegral_pos_iff_support_of_nonneg_ae _ hI]
  · have hsub : Set.Ioi (0 : ℝ) ⊆ Function.support (fun t => form (G t) w) ∩ Set.Ioi 0 :=
      fun t ht => ⟨(hpos t ht).ne', ht⟩
    refine lt_of_lt_of_le ?_ (measure_mono hsub)
    simp
  · refine (ae_restrict_iff' measurableSet_Ioi).2 (Filter.Eventually.of_forall fun t ht => ?_)
    exact (hpos t ht).le

theorem sumsq_nonneg (b : Fin n → Fin m → ℝ) (i j : Fin n) : 0 ≤ ∑ a, (b i a - b j a) ^ 2 :=
  Finset.sum_nonneg fun a _ => sq_nonneg _

/-- The inverse powers are mixtures of Gaussian kernels. -/
theorem form_inv_pow_pos (b : Fin n → Fin m → ℝ) (hb : Function.Injective b) (a c q : ℝ) (ha : 0 < a) (hc : 0 < c) (hq : 0 < q)
    (w : Fin n → ℝ) (hw : w ≠ 0) : 0 < form (fun i j => (1 / (q + c * ∑ a, (b i a - b j a) ^ 2)) ^ a) w := by
  have hu : ∀ i j, 0 < q + c * ∑ a, (b i a - b j a) ^ 2 := fun i j => by
    have := mul_nonneg hc.le (sumsq_nonneg b i j); linarith
  have h := form_integral_pos (fun t i j => t ^ (a - 1) * exp (-((q + c * ∑ a, (b i a - b j a) ^ 2) * t))) (fun i j => by
    by_contra hne
    have h0 := integral_undef hne
    have h1 := Real.integral_rpow_mul_exp_neg_mul_Ioi ha (hu i j)
    rw [h0] at h1
    have : 0 < (1 / (q + c * ∑ a, (b i a - b j a) ^ 2)) ^ a * Gamma a :=
      mul_pos (Real.rpow_pos_of_pos (one_div_pos.2 (hu i j)) _) (Real.Gamma_pos_of_pos ha)
    linarith) w (fun t ht => by
      have hg := form_gauss_pos b hb (c * t) (mul_pos hc ht) w hw
      have h2 : form (fun i j => t ^ (a - 1) * exp (-((q + c * ∑ a, (b i a - b j a) ^ 2) * t))) w =
          t ^ (a - 1) * exp (-(q * t)) * form (fun i j => exp (-(c * t * ∑ a, (b i a - b j a) ^ 2))) w := by
        unfold form
        rw [Finset.mul_sum]
        apply Finset.sum_congr rfl; intro i _
        rw [Finset.mul_sum]
        apply Finset.sum_congr rfl; intro j _
        have : exp (-((q + c * ∑ a, (b i a - b j a) ^ 2) * t)) =
            exp (-(q * t)) * exp (-(c * t * ∑ a, (b i a - b j a) ^ 2)) := by
          rw [← exp_add]; congr 1; ring
        dsimp only
        rw [this]; ring
      rw [h2]
      exact mul_pos (mul_pos (Real.rpow_pos_of_pos ht _) (exp_pos _)) hg)
  simp only [Real.integral_rpow_mul_exp_neg_mul_Ioi ha (hu _ _)] at h
  have h3 : form (fun i j => (1 / (q + c * ∑ a, (b i a - b j a) ^ 2)) ^ a * Gamma a) w =
      form (fun i j => (1 / (q + c * ∑ a, (b i a - b j a) ^ 2)) ^ a) w * Gamma a := by
    unfold form
    rw [Finset.sum_mul]
    apply Finset.sum_congr rfl; intro i _
    rw [Finset.sum_mul]
    apply Finset.sum_congr rfl; intro j _
    ring
  rw [h3] at h
  exact (mul_pos_iff_of_pos_right (Real.Gamma_pos_of_pos ha)).1 h

theorem one_sub_exp_le {x : ℝ} (hx : 0 < x) : (1 - exp (-x)) / x ≤ 2 * (1 + x)⁻¹ := by
  have h1 : 1 - exp (-x) ≤ x := by linarith [add_one_le_exp (-x)]
  have h2 : 1 - exp (-x) ≤ 1 := by linarith [exp_pos (-x)]
  rw [div_le_iff₀ hx, ← div_eq_mul_inv, div_mul_eq_mul_div, le_div_iff₀ (by linarith)]
  rcases le_total x 1 with h | h
  · nlinarith
  · nlinarith

theorem one_sub_exp_pos {x : ℝ} (hx : 0 < x) : 0 < 1 - exp (-x) := by
  have : exp (-x) < 1 := Real.exp_lt_one_iff.2 (by linarith)
  linarith

theorem integrable_root : IntegrableOn (fun t : ℝ => (1 - exp (-(t ^ 2))) / t ^ 2) (Set.Ioi 0) := by
  refine Integrable.mono' ((integrable_inv_one_add_sq.const_mul 2).integrableOn) ?_ ?_
  · exact (Measurable.aestronglyMeasurable (by fun_prop))
  · refine (ae_restrict_iff' measurableSet_Ioi).2 (Filter.Eventually.of_forall fun t ht => ?_)
    have ht2 : 0 < t ^ 2 := pow_pos ht 2
    rw [Real.norm_of_nonneg (div_nonneg (one_sub_exp_pos ht2).le ht2.le)]
    exact one_sub_exp_le ht2

/-- The constant of the integral of the square root. -/
noncomputable def kappa : ℝ := ∫ t in Set.Ioi (0 : ℝ), (1 - exp (-(t ^ 2))) / t ^ 2

theorem kappa_pos : 0 < kappa := by
  unfold kappa
  rw [setIntegral_pos_iff_support_of_nonneg_ae _ integrable_root]
  · have hsub : Set.Ioi (0 : ℝ) ⊆ Function.support (fun t : ℝ => (1 - exp (-(t ^ 2))) / t ^ 2) ∩ Set.Ioi 0 :=
      fun t ht => ⟨(div_pos (one_sub_exp_pos (pow_pos ht 2)) (pow_pos ht 2)).ne', ht⟩
    refine lt_of_lt_of_le ?_ (measure_mono hsub)
    simp
  · refine (ae_restrict_iff' measurableSet_Ioi).2 (Filter.Eventually.of_forall fun t ht => ?_)
    exact (div_pos (one_sub_exp_pos (pow_pos ht 2)) (pow_pos ht 2)).le

/-- The square root as an integral of Gaussian functions. -/
theorem integral_root {u : ℝ} (hu : 0 ≤ u) : ∫ t in Set.Ioi (0 : ℝ), (1 - exp (-(t ^ 2 * u))) / t ^ 2 = √u * kappa := by
  rcases eq_or_lt_of_le hu with rfl | hu
  · simp
  · have hs : 0 < √u := Real.sqrt_pos.2 hu
    have h := integral_comp_mul_left_Ioi (fun t : ℝ => (1 - exp (-(t ^ 2))) / t ^ 2) 0 hs
    rw [mul_zero] at h
    change _ = (√u)⁻¹ * kappa at h
    have h2 : ∀ t : ℝ, (1 - exp (-((√u * t) ^ 2))) / (√u * t) ^ 2 = u⁻¹ * ((1 - exp (-(t ^ 2 * u))) / t ^ 2) := by
      intro t
      rw [mul_pow, Real.sq_sqrt hu.le, mul_comm u, div_mul_eq_div_div_swap, div_eq_mul_inv _ u, mul_comm]
      ring_nf
    simp only [h2] at h
    rw [integral_const_mul] at h
    have hss : √u * √u = u := Real.mul_self_sqrt hu.le
    generalize (∫ t in Set.Ioi (0 : ℝ), (1 - exp (-(t ^ 2 * u))) / t ^ 2) = I at h ⊢
    have h4 : u * (u⁻¹ * I) = u * ((√u)⁻¹ * kappa) := by rw [h]
    rw [mul_inv_cancel_left₀ hu.ne'] at h4
    rw [h4]
    have h5 : u * (√u)⁻¹ = √u := by
      rw [mul_inv_eq_iff_eq_mul₀ hs.ne']; exact hss.symm
    rw [← mul_assoc, h5]

theorem integrable_root' {u : ℝ} (hu : 0 ≤ u) : IntegrableOn (fun t : ℝ => (1 - exp (-(t ^ 2 * u))) / t ^ 2) (Set.Ioi 0) := by
  rcases eq_or_lt_of_le hu with rfl | hu
  · simp
  · by_contra hne
    have h0 := integral_undef hne
    have h1 := integral_root hu.le
    rw [h0] at h1
    have : 0 < √u * kappa := mul_pos (Real.sqrt_pos.2 hu) kappa_pos
    linarith

/-- The square root of the squared distance, with an offset, is strictly conditionally negative. -/
theorem form_sqrt_neg (b : Fin n → Fin m → ℝ) (hb : Function.Injective b) (q c : ℝ) (hq : 0 ≤ q) (hc : 0 < c)
    (w : Fin n → ℝ) (hw : w ≠ 0) (hw0 : ∑ i, w i = 0) : form (fun i j => √(q + c * ∑ a, (b i a - b j a) ^ 2)) w < 0 := by
  have hu : ∀ i j, 0 ≤ q + c * ∑ a, (b i a - b j a) ^ 2 := fun i j => by
    have := mul_nonneg hc.le (sumsq_nonneg b i j); linarith
  have h := form_integral_pos (fun t i j => -((1 - exp (-(t ^ 2 * (q + c * ∑ a, (b i a - b j a) ^ 2)))) / t ^ 2))
    (fun i j => (integrable_root' (hu i j)).neg) w (fun t ht => by
      have ht2 : 0 < t ^ 2 := pow_pos ht 2
      have hg := form_gauss_pos b hb (t ^ 2 * c) (mul_pos ht2 hc) w hw
      have h1 : form (fun _ _ => (1 : ℝ)) w = 0 := by
        unfold form
        simp only [mul_one]
        rw [← Finset.sum_mul_sum, hw0, zero_mul]
      have h2 : form (fun i j => -((1 - exp (-(t ^ 2 * (q + c * ∑ a, (b i a - b j a) ^ 2)))) / t ^ 2)) w =
          (exp (-(t ^ 2 * q)) * form (fun i j => exp (-(t ^ 2 * c * ∑ a, (b i a - b j a) ^ 2))) w - form (fun _ _ => (1 : ℝ)) w) / t ^ 2 := by
        unfold form
        rw [Finset.mul_sum, ← Finset.sum_sub_distrib, Finset.sum_div]
        apply Finset.sum_congr rfl; intro i _
        rw [Finset.mul_sum, ← Finset.sum_sub_distrib, Finset.sum_div]
        apply Finset.sum_congr rfl; intro j _
        have : exp (-(t ^ 2 * (q + c * ∑ a, (b i a - b j a) ^ 2))) =
            exp (-(t ^ 2 * q)) * exp (-(t ^ 2 * c * ∑ a, (b i a - b j a) ^ 2)) := by
          rw [← exp_add]; congr 1; ring
        dsimp only
        rw [this]; ring
      rw [h2, h1, sub_zero]
      exact div_pos (mul_pos (exp_pos _) hg) ht2)
  simp only [integral_neg, integral_root (hu _ _)] at h
  have h3 : form (fun i j => -(√(q + c * ∑ a, (b i a - b j a) ^ 2) * kappa)) w =
      -form (fun i j => √(q + c * ∑ a, (b i a - b j a) ^ 2)) w * kappa := by
    unfold form
    rw [← Finset.sum_neg_distrib, Finset.sum_mul]
    apply Finset.sum_congr rfl; intro i _
    rw [← Finset.sum_neg_distrib, Finset.sum_mul]
    apply Finset.sum_congr rfl; intro j _
    ring
  rw [h3] at h
  have := (mul_pos_iff_of_pos_right kappa_pos).1 h
  linarith

open scoped MatrixOrder in
theorem gram_of_psd {K : Matrix (Fin n) (Fin n) ℝ} (h : K.PosSemidef) : ∃ B : Matrix (Fin n) (Fin n) ℝ, K = B.conjTranspose * B := by
  obtain ⟨a, ha⟩ := CStarAlgebra.nonneg_iff_eq_star_mul_self.mp h.nonneg
  exact ⟨a, by rw [ha, Matrix.star_eq_conjTranspose]⟩

/-- Schoenberg: the exponential of the opposite of a conditionally negative kernel is positive definite. -/
theorem form_exp_neg_pos (psi : Fin n → Fin n → ℝ) (hsymm : ∀ i j, psi i j = psi j i)
    (hneg : ∀ w : Fin n → ℝ, ∑ i, w i = 0 → form psi w ≤ 0) (hd : ∀ i j, i ≠ j → psi i i + psi j j < 2 * psi i j)
    (w : Fin n → ℝ) (hw : w ≠ 0) : 0 < form (fun i j => exp (-psi i j)) w := by
  obtain ⟨o, _⟩ := Function.ne_iff.1 hw
  let K : Matrix (Fin n) (Fin n) ℝ := fun i j => psi i o + psi o j - psi i j - psi o o
  have hK : K.PosSemidef := by
    refine Matrix.PosSemidef.of_dotProduct_mulVec_nonneg ?_ ?_
    · ext i j
      rw [Matrix.conjTranspose_apply, star_trivial]
      simp only [K]
      rw [hsymm j o, hsymm o i, hsymm j i]; ring
    · intro x
      have hf := hneg (fun i => x i - (∑ k, x k) * if i = o then 1 else 0) (by
        rw [Finset.sum_sub_distrib, ← Finset.mul_sum]; simp)
      have hx : star x ⬝ᵥ K.mulVec x = form K x := by
        unfold form dotProduct Matrix.mulVec dotProduct
        simp only [star_trivial, Pi.star_apply]
        apply Finset.sum_congr rfl; intro i _
        rw [Finset.mul_sum]
        apply Finset.sum_congr rfl; intro j _
        ring
      rw [hx]
      have hexp : form psi (fun i => x i - (∑ k, x k) * if i = o then 1 else 0) = -form K x := by
        have e1 : form psi (fun i => x i - (∑ k, x k) * if i = o then 1 else 0) =
            form psi x - (∑ k, x k) * (∑ j, x j * psi o j) - (∑ k, x k) * (∑ i, x i * psi i o) + (∑ k, x k) ^ 2 * psi o o := by
          unfold form
          have : ∀ i, ∑ j, (x i - (∑ k, x k) * if i = o then 1 else 0) * (x j - (∑ k, x k) * if j = o then 1 else 0) * psi i j =
              ∑ j, x i * x j * psi i j - (∑ k, x k) * (x i * psi i o) -
              (if i = o then (∑ k, x k) * ∑ j, x j * psi i j else 0) + (if i = o then (∑ k, x k) ^ 2 * psi i o else 0) := by
            intro i
            have e2 : ∀ j, (x i - (∑ k, x k) * if i = o then 1 else 0) * (x j - (∑ k, x k) * if j = o then 1 else 0) * psi i j =
                x i * x j * psi i j - (if j = o then (∑ k, x k) * (x i * psi i j) else 0) -
                (if i = o then (∑ k, x k) * (x j * psi i j) else 0) +
                (if j = o then (if i = o then (∑ k, x k) ^ 2 * psi i j else 0) else 0) := by
              intro j
              by_cases h1 : i = o <;> by_cases h2 : j = o <;> simp [h1, h2] <;> ring
            simp only [e2, Finset.sum_add_distrib, Finset.sum_sub_distrib, Finset.sum_ite_eq', Finset.mem_univ, if_true]
            by_cases h1 : i = o
            · simp only [h1, if_true, Finset.mul_sum]
            · simp [h1]
          simp only [this, Finset.sum_add_distrib, Finset.sum_sub_distrib, Finset.sum_ite_eq', Finset.mem_univ, if_true,
            ← Finset.mul_sum]
          ring
        have e3 : form K x = (∑ k, x k) * (∑ i, x i * psi i o) + (∑ k, x k) * (∑ j, x j * psi o j) - form psi x -
            (∑ k, x k) ^ 2 * psi o o := by
          have a1 : (∑ k, x k) * (∑ i, x i * psi i o) = ∑ i, ∑ j, x i * x j * psi i o := by
            rw [mul_comm, Finset.sum_mul_sum]
            apply Finset.sum_congr rfl; intro i _
            apply Finset.sum_congr rfl; intro j _
            ring
          have a2 : (∑ k, x k) * (∑ j, x j * psi o j) = ∑ i, ∑ j, x i * x j * psi o j := by
            rw [Finset.sum_mul_sum]
            apply Finset.sum_congr rfl; intro i _
            apply Finset.sum_congr rfl; intro j _
            ring
          have a3 : (∑ k, x k) ^ 2 * psi o o = ∑ i, ∑ j, x i * x j * psi o o := by
            rw [sq, Finset.sum_mul_sum, Finset.sum_mul]
            apply Finset.sum_congr rfl; intro i _
            rw [Finset.sum_mul]
          rw [a1, a2, a3]
          unfold form
          rw [← Finset.sum_add_distrib, ← Finset.sum_sub_distrib, ← Finset.sum_sub_distrib]
          apply Finset.sum_congr rfl; intro i _
          rw [← Finset.sum_add_distrib, ← Finset.sum_sub_distrib, ← Finset.sum_sub_distrib]
          apply Finset.sum_congr rfl; intro j _
          simp only [K]; ring
        rw [e1, e3]; ring
      linarith
  obtain ⟨B, hB⟩ := gram_of_psd hK
  have hKB : ∀ i j, K i j = ∑ a, B a i * B a j := by
    intro i j
    rw [hB]
    simp [Matrix.mul_apply]
  have h := form_exp_pos (fun i a => B a i) (by
    intro i j hij
    by_contra hne
    have h1 : K i i + K j j - 2 * K i j = 0 := by
      have hc : ∀ a, B a i = B a j := fun a => congrFun hij a
      simp only [hKB, hc]; ring
    have h2 := hd i j hne
    simp only [K] at h1
    rw [hsymm o i, hsymm o j] at h1
    linarith) (fun i => w i * exp (-psi i o)) (by
    intro h0
    apply hw
    funext i
    exact (mul_eq_zero.1 (congrFun h0 i)).resolve_right (exp_ne_zero _))
  have h2 : form (fun i j => exp (-psi i j)) w =
      exp (psi o o) * form (fun i j => exp (∑ a, B a i * B a j)) (fun i => w i * exp (-psi i o)) := by
    unfold form
    rw [Finset.mul_sum]
    apply Finset.sum_congr rfl; intro i _
    rw [Finset.mul_sum]
    apply Finset.sum_congr rfl; intro j _
    have : exp (-psi i j) = exp (psi o o) * (exp (-psi i o) * exp (-psi j o) * exp (K i j)) := by
      rw [← exp_add, ← exp_add, ← exp_add]
      congr 1
      simp only [K]
      rw [hsymm o j]; ring
    dsimp only
    rw [← hKB, this]; ring
  rw [h2]
  exact mul_pos (exp_pos _) h

/-- A function of the squared distance that is positive definite, whatever the offset and the scale, for distinct points of any space. -/
def Pos (f : ℝ → ℝ) : Prop :=
  ∀ (n m : Nat) (b : Fin n → Fin m → ℝ), Function.Injective b → ∀ q c : ℝ, 0 ≤ q → 0 < c → ∀ w : Fin n → ℝ, w ≠ 0 →
    0 < form (fun i j => f (q + c * ∑ a, (b i a - b j a) ^ 2)) w

theorem pos_exp_sqrt : Pos fun u => exp (-√u) := by
  intro n m b hb q c hq hc w hw
  apply form_exp_neg_pos (fun i j => √(q + c * ∑ a, (b i a - b j a) ^ 2))
  · intro i j
    congr 3
    apply Finset.sum_congr rfl; intro a _; ring
  · intro v hv
    rcases eq_or_ne v 0 with rfl | h
    · simp [form]
    · exact (form_sqrt_neg b hb q c hq hc v h hv).le
  · intro i j hij
    have hpos : 0 < ∑ a, (b i a - b j a) ^ 2 := by
      refine lt_of_le_of_ne (sumsq_nonneg b i j) fun h => hij (hb ?_)
      funext a
      have := (Finset.sum_eq_zero_iff_of_nonneg (fun a _ => sq_nonneg (b i a - b j a))).1 h.symm a (Finset.mem_univ a)
      linarith [pow_eq_zero_iff (two_ne_zero) |>.1 this]
    simp only [sub_self, ne_eq, OfNat.ofNat_ne_zero, not_false_eq_true, zero_pow, Finset.sum_const_zero, mul_zero, add_zero]
    have : √q < √(q + c * ∑ a, (b i a - b j a) ^ 2) := Real.sqrt_lt_sqrt hq (by have := mul_pos hc hpos; linarith)
    linarith
  · exact hw

/-- The tails of a positive definite function are positive definite. -/
theorem pos_tail {f g : ℝ → ℝ} {k : ℝ} (hk : 0 < k) (hf : Pos f)
    (hg : ∀ u, 0 ≤ u → IntegrableOn (fun t => f (u + t)) (Set.Ioi 0) ∧ ∫ t in Set.Ioi 0, f (u + t) = k * g u) : Pos g := by
  intro n m b hb q c hq hc w hw
  have hu : ∀ i j, 0 ≤ q + c * ∑ a, (b i a - b j a) ^ 2 := fun i j => by
    have := mul_nonneg hc.le (sumsq_nonneg b i j); linarith
  have h := form_integral_pos (fun t i j => f (q + c * ∑ a, (b i a - b j a) ^ 2 + t)) (fun i j => (hg _ (hu i j)).1) w (fun t ht => by
    have := hf n m b hb (q + t) c (by linarith [show (0 : ℝ) < t from ht]) hc w hw
    convert this using 4
    ring_nf)
  simp only [(hg _ (hu _ _)).2] at h
  have h3 : form (fun i j => k * g (q + c * ∑ a, (b i a - b j a) ^ 2)) w = k * form (fun i j => g (q + c * ∑ a, (b i a - b j a) ^ 2)) w := by
    unfold form
    rw [Finset.mul_sum]
    apply Finset.sum_congr rfl; intro i _
    rw [Finset.mul_sum]
    apply Finset.sum_congr rfl; intro j _
    ring
  rw [h3] at h
  exact (mul_pos_iff_of_pos_left hk).1 h

theorem tendsto_sqrt_add (u : ℝ) : Filter.Tendsto (fun t : ℝ => √(u + t)) Filter.atTop Filter.atTop :=
  Real.tendsto_sqrt_atTop.comp (Filter.tendsto_atTop_add_const_left _ _ Filter.tendsto_id)

theorem tendsto_poly_exp (p : Nat) : Filter.Tendsto (fun x : ℝ => x ^ p * exp (-x)) Filter.atTop (nhds 0) :=
  Real.tendsto_pow_mul_exp_neg_atTop_nhds_zero p

/-- Integral of a positive derivative. -/
theorem tail_integral {f F : ℝ → ℝ} {u : ℝ} (hc : ContinuousWithinAt (fun t => F (u + t)) (Set.Ici 0) 0)
    (hd : ∀ t > 0, HasDerivAt (fun t => F (u + t)) (f (u + t)) t) (hnn : ∀ t > 0, 0 ≤ f (u + t))
    (hl : Filter.Tendsto (fun t => F (u + t)) Filter.atTop (nhds 0)) :
    IntegrableOn (fun t => f (u + t)) (Set.Ioi 0) ∧ ∫ t in Set.Ioi 0, f (u + t) = -F u := by
  refine ⟨integrableOn_Ioi_deriv_of_nonneg hc (fun t ht => hd t ht) (fun t ht => hnn t ht) hl, ?_⟩
  rw [integral_Ioi_of_hasDerivAt_of_nonneg hc (fun t ht => hd t ht) (fun t ht => hnn t ht) hl]
  simp

theorem hasDerivAt_sqrt_add {u t : ℝ} (h : 0 < u + t) : HasDerivAt (fun t => √(u + t)) (1 / (2 * √(u + t))) t := by
  have := ((hasDerivAt_id t).const_add u).sqrt h.ne'
  simpa using this

theorem pos_matern32 : Pos fun u => (1 + √u) * exp (-√u) := by
  refine pos_tail (f := fun u => exp (-√u)) (k := 2) (by norm_num) pos_exp_sqrt fun u hu => ?_
  have h := tail_integral (f := fun u => exp (-√u)) (F := fun u => -(2 * ((1 + √u) * exp (-√u)))) (u := u)
    (by apply Continuous.continuousWithinAt; fun_prop) (fun t ht => by
      have hpos : 0 < u + t := by linarith [show (0 : ℝ) < t from ht]
      have hs := hasDerivAt_sqrt_add hpos
      have hsp := Real.sqrt_pos.2 hpos
      have := (((hs.const_add 1).mul hs.neg.exp).const_mul 2).neg
      refine this.congr_deriv ?_
      simp only [Pi.neg_apply]
      field_simp
      ring) (fun t ht => (exp_pos _).le) (by
      have h0 := (tendsto_poly_exp 0).comp (tendsto_sqrt_add u)
      have h1 := (tendsto_poly_exp 1).comp (tendsto_sqrt_add u)
      have := ((h0.add h1).const_mul 2).neg
      refine (this.congr ?_).trans_eq ?_
      · intro t; simp only [Function.comp, pow_zero, pow_one]; ring
      · simp)
  refine ⟨h.1, ?_⟩
  rw [h.2]; ring

theorem pos_matern52 : Pos fun u => (1 + √u + u / 3) * exp (-√u) := by
  refine pos_tail (f := fun u => (1 + √u) * exp (-√u)) (k := 6) (by norm_num) pos_matern32 fun u hu => ?_
  have h := tail_integral (f := fun u => (1 + √u) * exp (-√u)) (F := fun u => -(6 * ((1 + √u + u / 3) * exp (-√u)))) (u := u)
    (by apply Continuous.continuousWithinAt; fun_prop) (fun t ht => by
      have hpos : 0 < u + t := by linarith [show (0 : ℝ) < t from ht]
      have hs := hasDerivAt_sqrt_add hpos
      have hsp := Real.sqrt_pos.2 hpos
      have hss := Real.sq_sqrt hpos.le
      have := ((((hs.const_add 1).add (((hasDerivAt_id t).const_add u).div_const 3)).mul hs.neg.exp).const_mul 6).neg
      refine this.congr_deriv ?_
      simp only [Pi.add_apply, Pi.neg_apply, id]
      field_simp
      linear_combination (-6) * hss) (fun t ht => mul_nonneg (by have := Real.sqrt_nonneg (u + t); linarith) (exp_pos _).le) (by
      have h0 := (tendsto_poly_exp 0).comp (tendsto_sqrt_add u)
      have h1 := (tendsto_poly_exp 1).comp (tendsto_sqrt_add u)
      have h2 := (tendsto_poly_exp 2).comp (tendsto_sqrt_add u)
      have := (((h0.add h1).add (h2.const_mul (1 / 3))).const_mul 6).neg
      refine Filter.Tendsto.congr' ?_ (this.trans_eq ?_)
      · filter_upwards [Filter.eventually_gt_atTop 0] with t ht
        have hss := Real.sq_sqrt (show 0 ≤ u + t by linarith)
        simp only [Function.comp, pow_zero, pow_one, hss]; ring
      · simp)
  refine ⟨h.1, ?_⟩
  rw [h.2]; ring

theorem form_mulVec (A : Matrix (Fin n) (Fin n) ℝ) (w : Fin n → ℝ) : form A w = w ⬝ᵥ A.mulVec w := by
  unfold form dotProduct Matrix.mulVec dotProduct
  apply Finset.sum_congr rfl; intro i _
  rw [Finset.mul_sum]
  apply Finset.sum_congr rfl; intro j _
  ring

/-- A positive definite matrix is invertible. -/
theorem det_ne_zero_of_pos (A : Matrix (Fin n) (Fin n) ℝ) (h : ∀ w, w ≠ 0 → 0 < form A w) : A.det ≠ 0 := by
  intro hd
  obtain ⟨w, hw, h0⟩ := Matrix.exists_mulVec_eq_zero_iff.2 hd
  have := h w hw
  rw [form_mulVec, h0, dotProduct_zero] at this
  exact lt_irrefl _ this

/-- Micchelli: a conditionally negative matrix whose diagonal is not negative is invertible (one point: positive diagonal). -/
theorem det_ne_zero_of_neg (A : Matrix (Fin n) (Fin n) ℝ) (hsymm : ∀ i j, A i j = A j i)
    (h : ∀ w, w ≠ 0 → ∑ i, w i = 0 → form A w < 0) (hd : ∀ i, 0 ≤ A i i) (h1 : n = 1 → ∀ i, 0 < A i i) : A.det ≠ 0 := by
  intro hdet
  obtain ⟨w, hw, h0⟩ := Matrix.exists_mulVec_eq_zero_iff.2 hdet
  have hS : ∑ i, w i ≠ 0 := by
    intro hs
    have := h w hw hs
    rw [form_mulVec, h0, dotProduct_zero] at this
    exact lt_irrefl _ this
  have hT : A.transpose = A := by ext i j; exact hsymm j i
  -- every unit vector is a multiple of `w`
  have hunit : ∀ i, (Pi.single i (1 : ℝ) : Fin n → ℝ) = (∑ k, w k)⁻¹ • w := by
    intro i
    by_contra hne
    let v : Fin n → ℝ := Pi.single i 1 - (∑ k, w k)⁻¹ • w
    have hv : v ≠ 0 := sub_ne_zero.2 hne
    have hv0 : ∑ k, v k = 0 := by
      simp only [v, Pi.sub_apply, Pi.smul_apply, smul_eq_mul, Finset.sum_sub_distrib, ← Finset.mul_sum]
      rw [inv_mul_cancel₀ hS, Finset.sum_pi_single', if_pos (Finset.mem_univ _), sub_self]
    have hneg := h v hv hv0
    have hAv : A.mulVec v = A.mulVec (Pi.single i 1) := by
      simp only [v, Matrix.mulVec_sub, Matrix.mulVec_smul, h0, smul_zero, sub_zero]
    have hform : form A v = A i i := by
      rw [form_mulVec, hAv]
      simp only [v, sub_dotProduct, smul_dotProduct]
      have : w ⬝ᵥ A.mulVec (Pi.single i 1) = 0 := by
        rw [Matrix.dotProduct_mulVec, ← Matrix.mulVec_transpose, hT, h0, zero_dotProduct]
      rw [this]
      simp
    rw [hform] at hneg
    exact absurd (hd i) (not_le.2 hneg)
  have hn : n ≤ 1 := by
    by_contra hgt
    have h2 := (hunit ⟨0, by omega⟩).trans (hunit ⟨1, by omega⟩).symm
    have := congrFun h2 ⟨0, by omega⟩
    simp at this
  obtain ⟨i, _⟩ := Function.ne_iff.1 hw
  have hn1 : n = 1 := by have := i.isLt; omega
  have hp := h1 hn1 i
  have h3 : A i i = 0 := by
    have h4 : A.mulVec (Pi.single i (1 : ℝ)) = 0 := by rw [hunit i, Matrix.mulVec_smul, h0, smul_zero]
    have := congrFun h4 i
    simpa using this
  linarith

end Pyinterp.Kernel
