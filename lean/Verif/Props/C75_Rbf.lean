import Verif.Model.Rbf
import Verif.Spec.Interpolant
import Verif.Props.C67_MeshContents
import Verif.Lemmas.KernelPoints
import Mathlib.Analysis.SpecialFunctions.Exp

/-
C75. Radial basis functions on the mesh.
-/
set_option linter.unusedVariables false
set_option linter.unusedSectionVars false
namespace Pyinterp.RTree
open Pyinterp.Spec Matrix Real

theorem solve_unique {n : Nat} {solve : Matrix (Fin n) (Fin n) ℝ → (Fin n → ℝ) → Fin n → ℝ} (hs : Solver solve)
    {A : Matrix (Fin n) (Fin n) ℝ} (hA : A.det ≠ 0) {y w : Fin n → ℝ} (h : A *ᵥ w = y) : solve A y = w := by
  have h1 := hs A y hA
  have hu : IsUnit A := (Matrix.isUnit_iff_isUnit_det A).2 (isUnit_iff_ne_zero.2 hA)
  apply Matrix.mulVec_injective_of_isUnit hu
  rw [h1, h]

/-- The matrix of the system: the radial function of the distances between the nodes. -/
noncomputable def rbfMatrix {n : Nat} (f : Rbf) (e : ℝ) (x : Fin n → Point) : Matrix (Fin n) (Fin n) ℝ :=
  Matrix.of fun i j => f.apply (distance (x i) (x j)) e

/-- The constant of the radial function is a number: the function does not use it (then it is taken as 0), or it is given and not
zero, or the mean distance between the nodes is not zero. -/
def EpsilonIs {n : Nat} (f : Rbf) (epsilon : Option ℝ) (x : Fin n → Point) (e : ℝ) : Prop :=
  if f.adjustable then usedEpsilon epsilon (distanceMatrix x) = some e else e = 0

theorem rbfInterpolate_eq {n : Nat} (solve : Matrix (Fin n) (Fin n) ℝ → (Fin n → ℝ) → Fin n → ℝ) (f : Rbf)
    (epsilon : Option ℝ) (x : Fin n → Point) (y : Fin n → ℝ) (p : Point) (e : ℝ) (he : EpsilonIs f epsilon x e) :
    rbfInterpolate solve f epsilon 0 x y p =
      some ((fun j => f.apply (distance p (x j)) e) ⬝ᵥ solve (rbfMatrix f e x) y) := by
  unfold rbfInterpolate
  unfold EpsilonIs at he
  by_cases ha : f.adjustable = true
  · rw [if_pos ha] at he
    simp only [ha, if_true, he, Option.map_some]
    simp [rbfMatrix, distanceMatrix]
  · rw [if_neg ha] at he
    simp only [ha, he]
    simp [rbfMatrix, distanceMatrix]

/-- **C75** Without smoothing, the interpolant goes through the nodes: at a node, the value of the node (the matrix of the system
being invertible). -/
theorem C75_nodes {n : Nat} (solve : Matrix (Fin n) (Fin n) ℝ → (Fin n → ℝ) → Fin n → ℝ) (hs : Solver solve) (f : Rbf)
    (epsilon : Option ℝ) (x : Fin n → Point) (y : Fin n → ℝ) (e : ℝ) (he : EpsilonIs f epsilon x e)
    (hdet : (rbfMatrix f e x).det ≠ 0) (i : Fin n) :
    rbfInterpolate solve f epsilon 0 x y (x i) = some (y i) := by
  rw [rbfInterpolate_eq solve f epsilon x y (x i) e he]
  have h := congrFun (hs (rbfMatrix f e x) y hdet) i
  rw [← h]
  rfl

theorem usedEpsilon_ne {n : Nat} {epsilon : Option ℝ} {r : Matrix (Fin n) (Fin n) ℝ} {e : ℝ} (h : usedEpsilon epsilon r = some e) :
    e ≠ 0 := by
  unfold usedEpsilon at h
  cases epsilon with
  | some a =>
    simp only at h
    split at h
    · simp at h
    · rename_i ha
      simp only [Option.some.injEq] at h
      rw [← h]; exact one_div_ne_zero ha
  | none =>
    simp only [Option.bind_eq_some_iff] at h
    obtain ⟨a, _, h⟩ := h
    split at h
    · simp at h
    · rename_i ha
      simp only [Option.some.injEq] at h
      rw [← h]; exact one_div_ne_zero ha

/-- The systems of four of the functions are invertible when the nodes are distinct. -/
theorem rbfMatrix_det {n : Nat} (f : Rbf) (hf : f ≠ .cubic) (hf' : f ≠ .thinPlate) (e : ℝ) (he : f.adjustable = true → e ≠ 0)
    (x : Fin n → Point) (hx : Function.Injective x) (hn : f = .linear → n ≠ 1) : (rbfMatrix f e x).det ≠ 0 := by
  cases f with
  | cubic => exact absurd rfl hf
  | thinPlate => exact absurd rfl hf'
  | gaussian =>
    have he := he rfl
    refine det_of_gauss hx (k := 1) (c := e ^ 2) one_pos (by positivity) fun i j => ?_
    simp only [rbfMatrix, Matrix.of_apply, Rbf.apply, one_mul, mul_pow]
  | inverseMultiquadric =>
    have he := he rfl
    refine det_of_inv hx (k := 1) (c := e ^ 2) (a := 1 / 2) one_pos (by positivity) (by norm_num) fun i j => ?_
    simp only [rbfMatrix, Matrix.of_apply, Rbf.apply, one_mul, mul_pow]
    rw [← Real.sqrt_eq_rpow, Real.sqrt_div (by norm_num), Real.sqrt_one, add_comm]
  | linear =>
    refine det_of_sqrt hx (k := 1) (q := 0) (c := 1) one_pos le_rfl one_pos (fun _ => hn rfl) fun i j => ?_
    simp only [rbfMatrix, Matrix.of_apply, Rbf.apply, one_mul, zero_add]
    rw [Real.sqrt_sq (distance_nonneg _ _)]
  | multiquadric =>
    have he := he rfl
    refine det_of_sqrt hx (k := 1) (q := 1) (c := e ^ 2) one_pos zero_le_one (by positivity) (fun h => absurd h one_ne_zero)
      fun i j => ?_
    simp only [rbfMatrix, Matrix.of_apply, Rbf.apply, one_mul, mul_pow]
    rw [add_comm]

theorem distance_pos {p q : Point} (h : p ≠ q) : 0 < distance p q := by
  refine lt_of_le_of_ne (distance_nonneg p q) fun h0 => h ?_
  have h1 := distance_sq p q
  rw [← h0] at h1
  apply vec_injective
  funext a
  have h2 : ∑ a, (p.vec a - q.vec a) ^ 2 = 0 := by rw [← h1]; norm_num
  have := (Finset.sum_eq_zero_iff_of_nonneg (fun a _ => sq_nonneg (p.vec a - q.vec a))).1 h2 a (Finset.mem_univ a)
  linarith [pow_eq_zero_iff (two_ne_zero) |>.1 this]

/-- For two nodes or more, all distinct, the constant is always a number (unless it is given as zero). -/
theorem epsilon_exists {n : Nat} (f : Rbf) (epsilon : Option ℝ) (heps : epsilon ≠ some 0) (x : Fin n → Point)
    (hx : Function.Injective x) (hn : 2 ≤ n) : ∃ e, EpsilonIs f epsilon x e := by
  unfold EpsilonIs
  by_cases ha : f.adjustable = true
  · simp only [ha, if_true]
    cases epsilon with
    | some a =>
      have : a ≠ 0 := fun h => heps (by rw [h])
      exact ⟨1 / a, by simp [usedEpsilon, this]⟩
    | none =>
      have havg : 0 < (∑ i, ∑ j, if i < j then distanceMatrix x i j else 0) / ((n : ℝ) * ((n : ℝ) - 1) * 0.5) := by
        have hn' : (2 : ℝ) ≤ n := by exact_mod_cast hn
        apply div_pos
        · refine Finset.sum_pos' (fun i _ => Finset.sum_nonneg fun j _ => ?_) ⟨⟨0, by omega⟩, Finset.mem_univ _, ?_⟩
          · split
            · exact distance_nonneg _ _
            · exact le_rfl
          · refine Finset.sum_pos' (fun j _ => ?_) ⟨⟨1, by omega⟩, Finset.mem_univ _, ?_⟩
            · split
              · exact distance_nonneg _ _
              · exact le_rfl
            · rw [if_pos (by simp [Fin.lt_def])]
              apply distance_pos
              intro h
              have := hx h
              simp at this
        · have : 0 < (n : ℝ) - 1 := by linarith
          positivity
      refine ⟨1 / ((∑ i, ∑ j, if i < j then distanceMatrix x i j else 0) / ((n : ℝ) * ((n : ℝ) - 1) * 0.5)), ?_⟩
      simp only [usedEpsilon, average, if_neg (show ¬ n ≤ 1 by omega), Option.bind_some, if_neg havg.ne']
  · exact ⟨0, by simp [ha]⟩

/-- **C75** "0 is for interpolation, the function will always go through the nodal points": for the gaussian, inverse
multiquadric, multiquadric and linear functions, two nodes or more with distinct positions, and any `epsilon` that is not zero, the
interpolant goes through every node. No hypothesis on the system: it is proved that its matrix is invertible. -/
theorem C75_interpolates {n : Nat} (solve : Matrix (Fin n) (Fin n) ℝ → (Fin n → ℝ) → Fin n → ℝ) (hs : Solver solve) (f : Rbf)
    (hf : f ≠ .cubic) (hf' : f ≠ .thinPlate) (epsilon : Option ℝ) (heps : epsilon ≠ some 0) (x : Fin n → Point)
    (hx : Function.Injective x) (hn : 2 ≤ n) (y : Fin n → ℝ) (i : Fin n) :
    rbfInterpolate solve f epsilon 0 x y (x i) = some (y i) := by
  obtain ⟨e, he⟩ := epsilon_exists f epsilon heps x hx hn
  apply C75_nodes solve hs f epsilon x y e he
  apply rbfMatrix_det f hf hf' e _ x hx (fun _ => by omega)
  intro ha
  unfold EpsilonIs at he
  rw [if_pos ha] at he
  exact usedEpsilon_ne he

/-- **C75** One node: with an explicit `epsilon`, the functions that use it return its value at the node. -/
theorem C75_single (solve : Matrix (Fin 1) (Fin 1) ℝ → (Fin 1 → ℝ) → Fin 1 → ℝ) (hs : Solver solve) (f : Rbf)
    (hf : f.adjustable = true) (a : ℝ) (ha : a ≠ 0) (x : Point) (y : ℝ) :
    rbfInterpolate solve f (some a) 0 (fun _ => x) (fun _ => y) x = some y := by
  have he : EpsilonIs f (some a) (fun _ : Fin 1 => x) (1 / a) := by
    simp [EpsilonIs, hf, usedEpsilon, ha]
  refine C75_nodes solve hs f (some a) (fun _ => x) (fun _ => y) (1 / a) he ?_ 0
  apply rbfMatrix_det f (by rintro rfl; cases hf) (by rintro rfl; cases hf) (1 / a) (fun _ => one_div_ne_zero ha) _
    (Function.injective_of_subsingleton _)
  rintro rfl; cases hf

/-- **C75** With smoothing, the value at a node differs from the value of the node by `smooth` times the weight of the node, where
the weights solve the system of the functions minus `smooth` times the identity. -/
theorem C75_smooth {n : Nat} (solve : Matrix (Fin n) (Fin n) ℝ → (Fin n → ℝ) → Fin n → ℝ) (hs : Solver solve) (f : Rbf)
    (epsilon : Option ℝ) (smooth : ℝ) (x : Fin n → Point) (y : Fin n → ℝ) (e : ℝ) (he : EpsilonIs f epsilon x e)
    (hdet : (rbfMatrix f e x - smooth • (1 : Matrix (Fin n) (Fin n) ℝ)).det ≠ 0) :
    ∃ w : Fin n → ℝ, (∀ p, rbfInterpolate solve f epsilon smooth x y p = some (∑ j, f.apply (distance p (x j)) e * w j)) ∧
      ∀ i, rbfInterpolate solve f epsilon smooth x y (x i) = some (y i + smooth * w i) := by
  set A := rbfMatrix f e x - smooth • (1 : Matrix (Fin n) (Fin n) ℝ) with hA
  have hval : ∀ p, rbfInterpolate solve f epsilon smooth x y p = some (∑ j, f.apply (distance p (x j)) e * solve A y j) := by
    intro p
    have hif : (if smooth ≠ 0 then rbfMatrix f e x - smooth • (1 : Matrix (Fin n) (Fin n) ℝ) else rbfMatrix f e x) = A := by
      by_cases h0 : smooth = 0
      · simp [hA, h0]
      · simp [hA, h0]
    unfold rbfInterpolate
    unfold EpsilonIs at he
    by_cases ha : f.adjustable = true
    · rw [if_pos ha] at he
      simp only [ha, if_true, he, Option.map_some, Option.some.injEq]
      change _ ⬝ᵥ solve (if smooth ≠ 0 then rbfMatrix f e x - smooth • (1 : Matrix (Fin n) (Fin n) ℝ) else rbfMatrix f e x) y = _
      rw [hif]; rfl
    · rw [if_neg ha] at he
      subst he
      simp only [ha, Bool.false_eq_true, if_false, Option.some.injEq]
      change _ ⬝ᵥ solve (if smooth ≠ 0 then rbfMatrix f 0 x - smooth • (1 : Matrix (Fin n) (Fin n) ℝ) else rbfMatrix f 0 x) y = _
      rw [hif]; rfl
  refine ⟨solve A y, hval, fun i => ?_⟩
  rw [hval, Option.some.injEq]
  have h := congrFun (hs A y hdet) i
  rw [← h]
  have h2 : (A *ᵥ solve A y) i = ∑ j, f.apply (distance (x i) (x j)) e * solve A y j - smooth * solve A y i := by
    rw [hA, Matrix.sub_mulVec, Matrix.smul_mulVec, Matrix.one_mulVec]
    rfl
  rw [h2]; ring

/-- **C75** The interpolated value is linear in the values of the nodes. -/
theorem C75_linear {n : Nat} (solve : Matrix (Fin n) (Fin n) ℝ → (Fin n → ℝ) → Fin n → ℝ) (hs : Solver solve) (f : Rbf)
    (epsilon : Option ℝ) (x : Fin n → Point) (y z : Fin n → ℝ) (a b : ℝ) (e : ℝ) (he : EpsilonIs f epsilon x e)
    (hdet : (rbfMatrix f e x).det ≠ 0) (p : Point) (u v : ℝ)
    (hu : rbfInterpolate solve f epsilon 0 x y p = some u) (hv : rbfInterpolate solve f epsilon 0 x z p = some v) :
    rbfInterpolate solve f epsilon 0 x (fun i => a * y i + b * z i) p = some (a * u + b * v) := by
  rw [rbfInterpolate_eq solve f epsilon x _ p e he] at hu hv ⊢
  have hw : solve (rbfMatrix f e x) (fun i => a * y i + b * z i) =
      a • solve (rbfMatrix f e x) y + b • solve (rbfMatrix f e x) z := by
    apply solve_unique hs hdet
    rw [Matrix.mulVec_add, Matrix.mulVec_smul, Matrix.mulVec_smul, hs _ _ hdet, hs _ _ hdet]
    rfl
  rw [hw, dotProduct_add, dotProduct_smul, dotProduct_smul]
  rw [Option.some.injEq] at hu hv
  rw [hu, hv]
  rfl

theorem distanceMatrix_symm {n : Nat} (x : Fin n → Point) (i j : Fin n) : distanceMatrix x i j = distanceMatrix x j i :=
  distance_comm _ _

/-- The mean distance does not depend on the order of the nodes. -/
theorem upper_sum {n : Nat} (x : Fin n → Point) :
    (∑ i, ∑ j, if i < j then distanceMatrix x i j else 0) * 2 = ∑ i, ∑ j, distanceMatrix x i j := by
  have h2 : (∑ i, ∑ j, if i < j then distanceMatrix x i j else 0) = ∑ i, ∑ j, if j < i then distanceMatrix x i j else 0 := by
    rw [Finset.sum_comm]
    apply Finset.sum_congr rfl; intro i _
    apply Finset.sum_congr rfl; intro j _
    rw [distanceMatrix_symm]
  rw [mul_two]
  conv_lhs => rw [h2]; arg 1; rw [← h2]
  rw [← Finset.sum_add_distrib]
  apply Finset.sum_congr rfl; intro i _
  rw [← Finset.sum_add_distrib]
  apply Finset.sum_congr rfl; intro j _
  rcases lt_trichotomy i j with h | h | h
  · simp [h, not_lt.2 h.le]
  · subst h; simp [distanceMatrix, distance_self]
  · simp [h, not_lt.2 h.le]

theorem usedEpsilon_perm {n : Nat} (epsilon : Option ℝ) (x : Fin n → Point) (σ : Equiv.Perm (Fin n)) :
    usedEpsilon epsilon (distanceMatrix (x ∘ σ)) = usedEpsilon epsilon (distanceMatrix x) := by
  have hsum : (∑ i, ∑ j, if i < j then distanceMatrix (x ∘ σ) i j else 0) = ∑ i, ∑ j, if i < j then distanceMatrix x i j else 0 := by
    have h1 := upper_sum (x ∘ σ)
    have h2 := upper_sum x
    have h3 : ∑ i, ∑ j, distanceMatrix (x ∘ σ) i j = ∑ i, ∑ j, distanceMatrix x i j := by
      rw [← Equiv.sum_comp σ (fun i => ∑ j, distanceMatrix x i j)]
      apply Finset.sum_congr rfl; intro i _
      rw [← Equiv.sum_comp σ (fun j => distanceMatrix x (σ i) j)]
      rfl
    linarith
  unfold usedEpsilon average
  rw [hsum]

/-- **C75** The interpolated value does not depend on the order of the neighbours. -/
theorem C75_order {n : Nat} (solve : Matrix (Fin n) (Fin n) ℝ → (Fin n → ℝ) → Fin n → ℝ) (hs : Solver solve) (f : Rbf)
    (epsilon : Option ℝ) (x : Fin n → Point) (y : Fin n → ℝ) (e : ℝ) (he : EpsilonIs f epsilon x e)
    (hdet : (rbfMatrix f e x).det ≠ 0) (σ : Equiv.Perm (Fin n)) (p : Point) :
    rbfInterpolate solve f epsilon 0 (x ∘ σ) (y ∘ σ) p = rbfInterpolate solve f epsilon 0 x y p := by
  have he' : EpsilonIs f epsilon (x ∘ σ) e := by
    unfold EpsilonIs at he ⊢
    rw [usedEpsilon_perm]
    exact he
  rw [rbfInterpolate_eq solve f epsilon x y p e he, rbfInterpolate_eq solve f epsilon _ _ p e he']
  have hM : rbfMatrix f e (x ∘ σ) = (rbfMatrix f e x).submatrix σ σ := rfl
  have hdet' : (rbfMatrix f e (x ∘ σ)).det ≠ 0 := by rw [hM, Matrix.det_submatrix_equiv_self]; exact hdet
  have hw : solve (rbfMatrix f e (x ∘ σ)) (y ∘ σ) = solve (rbfMatrix f e x) y ∘ σ := by
    apply solve_unique hs hdet'
    rw [hM, Matrix.submatrix_mulVec_equiv]
    have : (solve (rbfMatrix f e x) y ∘ ⇑σ) ∘ ⇑σ.symm = solve (rbfMatrix f e x) y := by
      ext i; simp
    rw [this, hs _ _ hdet]
  rw [hw]
  congr 1
  unfold dotProduct
  exact Equiv.sum_comp σ (fun j => f.apply (distance p (x j)) e * solve (rbfMatrix f e x) y j)

theorem nearest_sub (p : Point) (near : List Item) (radius : Option ℝ) (within : Bool) :
    (nearest p near radius within).length ≤ near.length ∧
    (nearest p near radius within = used p near radius ∨ (within = true ∧ nearest p near radius within = [])) := by
  have hu : (near.filter fun i => close radius (distance p i.pt)) = used p near radius := by
    unfold used
    simp only [close_eq]
  unfold nearest
  dsimp only
  rw [hu]
  have hl : (used p near radius).length ≤ near.length := List.length_filter_le _ _
  split
  · rename_i h
    simp only [Bool.and_eq_true] at h
    exact ⟨by simp, Or.inr ⟨h.1, rfl⟩⟩
  · exact ⟨hl, Or.inl rfl⟩

/-- **C75** On the mesh: NaN and 0 without a neighbour within the radius; otherwise the number of neighbours used, at most `k`,
and at an observation (without smoothing, the system being invertible) its value. -/
theorem C75_mesh (solve : (n : Nat) → Matrix (Fin n) (Fin n) ℝ → (Fin n → ℝ) → Fin n → ℝ) (hs : ∀ n, Solver (solve n)) (f : Rbf)
    (epsilon : Option ℝ) (all near : List Item) (p : Point) (k : Nat) (radius : Option ℝ) (within : Bool)
    (h : KNearest all p k near) :
    (used p near radius = [] → rbf solve f epsilon 0 p near radius within = (none, 0)) ∧
    (rbf solve f epsilon 0 p near radius within).2 ≤ k ∧
    ((rbf solve f epsilon 0 p near radius within).2 = 0 ∨
      (rbf solve f epsilon 0 p near radius within).2 = (used p near radius).length) ∧
    ∀ (e : ℝ) (x : Fin (used p near radius).length → Point), (x = fun i => ((used p near radius).get i).pt) →
      EpsilonIs f epsilon x e → (rbfMatrix f e x).det ≠ 0 →
      ∀ i ∈ used p near radius, i.pt = p →
        rbf solve f epsilon 0 p near radius within = (some i.val, (used p near radius).length) := by
  have hcount := h.count
  have hul : (used p near radius).length ≤ k := by
    have : (used p near radius).length ≤ near.length := List.length_filter_le _ _
    omega
  obtain ⟨hn1, hn2⟩ := nearest_sub p near radius within
  refine ⟨?_, ?_, ?_, ?_⟩
  · intro hnil
    have : nearest p near radius within = [] := by
      rcases hn2 with h | h
      · rw [h, hnil]
      · exact h.2
    unfold rbf
    simp [this]
  · unfold rbf
    dsimp only
    split
    · exact Nat.zero_le _
    · dsimp only; omega
  · unfold rbf
    dsimp only
    split
    · exact Or.inl rfl
    · rename_i hne
      right
      rcases hn2 with h | h
      · dsimp only; rw [h]
      · rw [h.2] at hne; simp at hne
  · intro e x hx he hdet i hi hip
    have hbox : within = true → InBox p ((used p near radius).map Item.pt) :=
      fun _ => C54_within_hit _ p i hi hip
    have hnear : nearest p near radius within = used p near radius := by
      rcases hn2 with h | ⟨hw, h⟩
      · exact h
      · exfalso
        have hcov := (coveredBy_iff p ((used p near radius).map Item.pt)).2 (hbox hw)
        have hu : (near.filter fun i => close radius (distance p i.pt)) = used p near radius := by
          unfold used
          simp only [close_eq]
        unfold nearest at h
        dsimp only at h
        rw [hu, hcov] at h
        simp at h
        rw [h] at hi
        simp at hi
    unfold rbf
    dsimp only
    rw [hnear]
    have hpos : (used p near radius).length ≠ 0 := by
      have := List.length_pos_of_mem hi; omega
    rw [if_neg hpos]
    obtain ⟨j, hj, hij⟩ := List.getElem_of_mem hi
    have hx' : (fun i => ((used p near radius).get i).pt) = x := hx.symm
    rw [hx']
    have hp : p = x ⟨j, hj⟩ := by rw [hx]; simp [hij, hip]
    have hfin := C75_nodes (solve _) (hs _) f epsilon x (fun i => ((used p near radius).get i).val) e he hdet ⟨j, hj⟩
    rw [← hp] at hfin
    rw [hfin]
    simp [hij]

/-- Distinct positions in the list of the neighbours: the positions are an injective function of the index. -/
theorem injective_of_nodup {l : List Item} (h : (l.map Item.pt).Nodup) : Function.Injective fun i : Fin l.length => (l.get i).pt := by
  intro i j hij
  have h1 : (l.map Item.pt)[i.val]'(by simp) = (l.map Item.pt)[j.val]'(by simp) := by
    simpa using hij
  exact Fin.ext ((List.Nodup.getElem_inj_iff h).1 h1)

/-- **C75** On the mesh: a query at an observation, without smoothing, with two neighbours or more at distinct positions, returns the
value of the observation (gaussian, inverse multiquadric, multiquadric, linear). -/
theorem C75_mesh_hit (solve : (n : Nat) → Matrix (Fin n) (Fin n) ℝ → (Fin n → ℝ) → Fin n → ℝ) (hs : ∀ n, Solver (solve n)) (f : Rbf)
    (hf : f ≠ .cubic) (hf' : f ≠ .thinPlate) (epsilon : Option ℝ) (heps : epsilon ≠ some 0)
    (all near : List Item) (p : Point) (k : Nat) (radius : Option ℝ) (within : Bool) (h : KNearest all p k near)
    (hdist : (all.map Item.pt).Nodup) (htwo : 2 ≤ (used p near radius).length) (i : Item) (hi : i ∈ used p near radius)
    (hip : i.pt = p) : rbf solve f epsilon 0 p near radius within = (some i.val, (used p near radius).length) := by
  have hsub : ((used p near radius).map Item.pt).Nodup := by
    obtain ⟨rest, hperm, _⟩ := h.nearest
    have h1 : ((near ++ rest).map Item.pt).Nodup := (hperm.map Item.pt).nodup_iff.2 hdist
    rw [List.map_append] at h1
    exact (List.Nodup.of_append_left h1).sublist (List.Sublist.map _ (List.filter_sublist))
  have hx := injective_of_nodup hsub
  obtain ⟨e, he⟩ := epsilon_exists f epsilon heps _ hx htwo
  refine (C75_mesh solve hs f epsilon all near p k radius within h).2.2.2 e _ rfl he ?_ i hi hip
  apply rbfMatrix_det f hf hf' e _ _ hx (fun _ => by omega)
  intro ha
  unfold EpsilonIs at he
  rw [if_pos ha] at he
  exact usedEpsilon_ne he

/-- **C75, the part that fails** With one neighbour, the functions that vanish at 0 (linear, cubic, thin_plate) return 0 at the
observation instead of its value, whatever the solver. -/
theorem C75_single_false (solve : Matrix (Fin 1) (Fin 1) ℝ → (Fin 1 → ℝ) → Fin 1 → ℝ) (epsilon : Option ℝ) (x : Point) (y : ℝ)
    (f : Rbf) (hf : f = .linear ∨ f = .cubic ∨ f = .thinPlate) :
    rbfInterpolate solve f epsilon 0 (fun _ => x) (fun _ => y) x = some 0 := by
  rw [rbfInterpolate_eq solve f epsilon (fun _ => x) (fun _ => y) x 0 (by rcases hf with rfl | rfl | rfl <;> rfl)]
  congr 1
  rw [dotProduct]
  simp only [distance_self]
  rcases hf with rfl | rfl | rfl <;> simp [Rbf.apply]

/-- **C75, the part that fails** With one neighbour and the default `epsilon`, the other functions return NaN. -/
theorem C75_single_default_false (solve : Matrix (Fin 1) (Fin 1) ℝ → (Fin 1 → ℝ) → Fin 1 → ℝ) (x p : Point) (y : ℝ)
    (f : Rbf) (hf : f.adjustable = true) :
    rbfInterpolate solve f none 0 (fun _ => x) (fun _ => y) p = none := by
  unfold rbfInterpolate
  simp [hf, usedEpsilon, average]

/-- **C75, the part that fails** The thin plate function vanishes at the distance 1: with two observations one metre apart the
interpolant returns 0 at both, whatever the solver. -/
theorem C75_thin_plate_false (solve : Matrix (Fin 2) (Fin 2) ℝ → (Fin 2 → ℝ) → Fin 2 → ℝ) (y : Fin 2 → ℝ) (i : Fin 2) :
    rbfInterpolate solve .thinPlate none 0 ![onX 0, onX 1] y (![onX 0, onX 1] i) = some 0 := by
  rw [rbfInterpolate_eq solve .thinPlate none _ y _ 0 rfl]
  congr 1
  rw [dotProduct, Fin.sum_univ_two]
  fin_cases i <;> simp [Rbf.apply, distance_onX]

/-- Three distinct observations and the default `epsilon`. -/
example (solve : Matrix (Fin 3) (Fin 3) ℝ → (Fin 3 → ℝ) → Fin 3 → ℝ) (hs : Solver solve) :
    rbfInterpolate solve .multiquadric none 0 (fun i => onX ((i : ℕ) : ℝ)) ![10, 40, 20] (onX 2) = some 20 := by
  have := C75_interpolates solve hs .multiquadric (by decide) (by decide) none (by simp) (fun i => onX ((i : ℕ) : ℝ)) (by
    intro i j h
    have : ((i : ℕ) : ℝ) = ((j : ℕ) : ℝ) := congrArg Point.x h
    exact Fin.ext (by exact_mod_cast this)) (by norm_num) ![10, 40, 20] 2
  simpa using this

/-- The hypotheses of `C75_nodes` are met: two observations 3 m apart and the linear function. -/
example (solve : Matrix (Fin 2) (Fin 2) ℝ → (Fin 2 → ℝ) → Fin 2 → ℝ) (hs : Solver solve) :
    rbfInterpolate solve .linear none 0 ![onX (-1), onX 2] ![10, 40] (onX 2) = some 40 := by
  have := C75_nodes solve hs .linear none ![onX (-1), onX 2] ![10, 40] 0 rfl (by
    rw [Matrix.det_fin_two]
    simp [rbfMatrix, Rbf.apply, distance_onX]
    norm_num) 1
  simpa using this

/-- The documented radial functions (rtree.py:267-275): `r` is the distance and `ε` the adjustable constant. -/
noncomputable def documentedRbf (f : Rbf) (ε r : ℝ) : ℝ :=
  match f with
  | .cubic => r * r * r
  | .gaussian => exp (-((r / ε) * (r / ε)))
  | .inverseMultiquadric => 1 / √(1 + (r / ε) * (r / ε))
  | .linear => r
  | .multiquadric => √(1 + (r / ε) * (r / ε))
  | .thinPlate => r * r * log r

theorem apply_documented (f : Rbf) (ε r : ℝ) : f.apply r (1 / ε) = documentedRbf f ε r := by
  have h : (1 / ε * r) ^ 2 = r / ε * (r / ε) := by rw [sq]; congr 1 <;> rw [div_mul_eq_mul_div, one_mul]
  cases f <;> simp only [Rbf.apply, documentedRbf]
  · ring
  · rw [h]
  · rw [h, add_comm]
  · rw [h, add_comm]
  · split
    · rename_i h0; rw [h0]; simp
    · rw [sq]

theorem apply_notAdjustable (f : Rbf) (hf : f.adjustable = false) (r a b : ℝ) : f.apply r a = f.apply r b := by
  cases f <;> simp [Rbf.adjustable] at hf <;> rfl

/-- The documented constant: the argument, or the mean distance between two nodes. -/
noncomputable def documentedEpsilon {n : Nat} (epsilon : Option ℝ) (x : Fin n → Point) : ℝ :=
  match epsilon with
  | some e => e
  | none => (∑ i, ∑ j, distance (x i) (x j)) / ((n : ℝ) * ((n : ℝ) - 1))

/-- **C75** The interpolated value is the documented one: with `w` the weights for which the sum of the documented radial functions
centred on the nodes takes the given values on the nodes, it is this sum at the point asked for. -/
theorem C75_documented {n : Nat} (hn : 2 ≤ n) (solve : Matrix (Fin n) (Fin n) ℝ → (Fin n → ℝ) → Fin n → ℝ) (hs : Solver solve) (f : Rbf)
    (epsilon : Option ℝ) (x : Fin n → Point) (y w : Fin n → ℝ) (p : Point) (heps : documentedEpsilon epsilon x ≠ 0)
    (hdet : (Matrix.of fun i j => documentedRbf f (documentedEpsilon epsilon x) (distance (x i) (x j))).det ≠ 0)
    (hw : ∀ i, ∑ j, documentedRbf f (documentedEpsilon epsilon x) (distance (x i) (x j)) * w j = y i) :
    rbfInterpolate solve f epsilon 0 x y p =
      some (∑ j, documentedRbf f (documentedEpsilon epsilon x) (distance p (x j)) * w j) := by
  have hu : usedEpsilon epsilon (distanceMatrix x) = some (1 / documentedEpsilon epsilon x) := by
    cases epsilon with
    | some e => simp only [documentedEpsilon] at heps; simp [usedEpsilon, documentedEpsilon, heps]
    | none =>
      have hs2 := upper_sum x
      have hav : average (distanceMatrix x) = some (documentedEpsilon none x) := by
        unfold average documentedEpsilon
        rw [if_neg (by omega)]
        congr 1
        have h0 : (n : ℝ) * ((n : ℝ) - 1) ≠ 0 := by
          have : (2 : ℝ) ≤ n := by exact_mod_cast hn
          exact mul_ne_zero (by linarith) (by linarith)
        have : ∑ i, ∑ j, distance (x i) (x j) = (∑ i, ∑ j, if i < j then distanceMatrix x i j else 0) * 2 := hs2.symm
        rw [this]
        norm_num
        field_simp
      simp [usedEpsilon, hav, heps]
  have key : ∃ e, EpsilonIs f epsilon x e ∧ ∀ r, f.apply r e = documentedRbf f (documentedEpsilon epsilon x) r := by
    by_cases ha : f.adjustable = true
    · exact ⟨1 / documentedEpsilon epsilon x, by simp [EpsilonIs, ha, hu], fun r => apply_documented f _ r⟩
    · refine ⟨0, by simp [EpsilonIs, ha], fun r => ?_⟩
      rw [← apply_documented, apply_notAdjustable f (by simpa using ha) r 0 (1 / documentedEpsilon epsilon x)]
  obtain ⟨e, he, happ⟩ := key
  have hM : rbfMatrix f e x = Matrix.of fun i j => documentedRbf f (documentedEpsilon epsilon x) (distance (x i) (x j)) := by
    ext i j; simp [rbfMatrix, happ]
  rw [rbfInterpolate_eq solve f epsilon x y p e he]
  have hsol : solve (rbfMatrix f e x) y = w := by
    apply solve_unique hs (by rw [hM]; exact hdet)
    ext i
    rw [hM]
    exact hw i
  rw [hsol]
  congr 1
  exact Finset.sum_congr rfl fun j _ => by simp only [happ]

/-- Two nodes 3 m apart, the cubic function: halfway, half the sum of the values multiplied by 1/4. -/
example (solve : Matrix (Fin 2) (Fin 2) ℝ → (Fin 2 → ℝ) → Fin 2 → ℝ) (hs : Solver solve) :
    rbfInterpolate solve .cubic (some 1) 0 ![onX (-1), onX 2] ![27, 54] (onX (1/2)) = some (81 / 8) := by
  have := C75_documented (le_refl 2) solve hs .cubic (some 1) ![onX (-1), onX 2] ![27, 54] ![2, 1] (onX (1/2)) (by
    simp [documentedEpsilon]) (by
    rw [Matrix.det_fin_two]
    simp [documentedRbf, distance_onX]
    norm_num) (by
    intro i
    fin_cases i <;> simp [documentedRbf, distance_onX, Fin.sum_univ_two] <;> norm_num)
  rw [this]
  congr 1
  simp [documentedRbf, distance_onX, Fin.sum_univ_two]
  norm_num [abs_of_pos, abs_of_neg]

end Pyinterp.RTree
