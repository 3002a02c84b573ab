import Verif.Props.C75_Rbf

/-
C76. Kriging on the mesh.
-/
set_option linter.unusedVariables false
namespace Pyinterp.RTree
open Pyinterp.Spec Matrix Real

/-- The covariances between the observations. -/
noncomputable def covMatrix {n : Nat} (f : Cov) (sigma lambda : ℝ) (x : Fin n → Point) : Matrix (Fin n) (Fin n) ℝ :=
  Matrix.of fun i j => f.apply (distance (x i) (x j)) sigma lambda

theorem krige_eq {n : Nat} (solve : Matrix (Fin n) (Fin n) ℝ → (Fin n → ℝ) → Fin n → ℝ) (f : Cov) (sigma lambda : ℝ)
    (hsig : 0 < sigma) (hlam : 0 < lambda) (x : Fin n → Point) (v : Fin n → ℝ) (p : Point) :
    krige solve f sigma lambda x v p =
      .ok (v ⬝ᵥ solve (covMatrix f sigma lambda x) (fun i => f.apply (distance p (x i)) sigma lambda)) := by
  unfold krige
  rw [if_neg (not_le.2 hsig), if_neg (not_le.2 hlam)]
  rfl

/-- **C76** The system of the kriging is invertible: distinct positions, any covariance function but the spherical one (two
observations or more for the linear one), any `sigma` and `lambda` greater than zero. -/
theorem C76_invertible {n : Nat} (f : Cov) (hf : f ≠ .spherical) (sigma lambda : ℝ) (hsig : 0 < sigma) (hlam : 0 < lambda)
    (x : Fin n → Point) (hx : Function.Injective x) (hn : f = .linear → n ≠ 1) : (covMatrix f sigma lambda x).det ≠ 0 := by
  have hs2 : 0 < sigma ^ 2 := by positivity
  have hroot : ∀ (k : ℝ) (hk : 0 ≤ k) (i j : Fin n), √(k / lambda ^ 2 * distance (x i) (x j) ^ 2) = √k * (distance (x i) (x j) / lambda) := by
    intro k hk i j
    have : k / lambda ^ 2 * distance (x i) (x j) ^ 2 = k * (distance (x i) (x j) / lambda) ^ 2 := by field_simp
    rw [this, Real.sqrt_mul hk, Real.sqrt_sq (div_nonneg (distance_nonneg _ _) hlam.le)]
  have hexp : ∀ A : Matrix (Fin n) (Fin n) ℝ, (∀ i j, A i j = sigma ^ 2 * exp (-distance (x i) (x j) / lambda)) → A.det ≠ 0 := by
    intro A hA
    refine det_of_pos hx Kernel.pos_exp_sqrt (k := sigma ^ 2) (c := 1 / lambda ^ 2) hs2 (by positivity) fun i j => ?_
    rw [hA, hroot 1 zero_le_one, Real.sqrt_one, one_mul, neg_div]
  have h32 : ∀ A : Matrix (Fin n) (Fin n) ℝ, (∀ i j, A i j = sigma ^ 2 * ((1 + √3 * (distance (x i) (x j) / lambda)) *
      exp (-(√3 * (distance (x i) (x j) / lambda))))) → A.det ≠ 0 := by
    intro A hA
    refine det_of_pos hx Kernel.pos_matern32 (k := sigma ^ 2) (c := 3 / lambda ^ 2) hs2 (by positivity) fun i j => ?_
    rw [hA, hroot 3 (by norm_num)]
  cases f with
  | spherical => exact absurd rfl hf
  | matern12 => exact hexp _ fun i j => rfl
  | exponential => exact hexp _ fun i j => rfl
  | matern32 =>
    refine h32 _ fun i j => ?_
    simp only [covMatrix, Matrix.of_apply, Cov.apply, neg_mul]
  | whittleMatern =>
    refine h32 _ fun i j => ?_
    simp only [covMatrix, Matrix.of_apply, Cov.apply, neg_mul, mul_div_assoc, neg_div, mul_assoc]
  | matern52 =>
    refine det_of_pos hx Kernel.pos_matern52 (k := sigma ^ 2) (c := 5 / lambda ^ 2) hs2 (by positivity) fun i j => ?_
    rw [hroot 5 (by norm_num)]
    simp only [covMatrix, Matrix.of_apply, Cov.apply, neg_mul]
    congr 3
    field_simp
  | cauchy =>
    refine det_of_inv hx (k := sigma ^ 2) (c := 1 / lambda ^ 2) (a := 1) hs2 (by positivity) one_pos fun i j => ?_
    simp only [covMatrix, Matrix.of_apply, Cov.apply, Real.rpow_one]
    rw [div_pow, div_mul_eq_mul_div, one_mul, mul_one_div]
  | gaussian =>
    refine det_of_gauss hx (k := sigma ^ 2) (c := 1 / lambda ^ 2) hs2 (by positivity) fun i j => ?_
    simp only [covMatrix, Matrix.of_apply, Cov.apply]
    congr 2
    ring
  | linear =>
    refine det_of_sqrt hx (k := sigma ^ 2) (q := 0) (c := 1) hs2 le_rfl one_pos (fun _ => hn rfl) fun i j => ?_
    simp only [covMatrix, Matrix.of_apply, Cov.apply, one_mul, zero_add]
    rw [Real.sqrt_sq (distance_nonneg _ _)]

/-- **C76** The kriging is exact at the observations whenever its system is invertible. -/
theorem C76_exact {n : Nat} (solve : Matrix (Fin n) (Fin n) ℝ → (Fin n → ℝ) → Fin n → ℝ) (hs : Solver solve) (f : Cov)
    (sigma lambda : ℝ) (hsig : 0 < sigma) (hlam : 0 < lambda) (x : Fin n → Point)
    (hdet : (covMatrix f sigma lambda x).det ≠ 0) (v : Fin n → ℝ) (i : Fin n) :
    krige solve f sigma lambda x v (x i) = .ok (v i) := by
  rw [krige_eq solve f sigma lambda hsig hlam]
  have : solve (covMatrix f sigma lambda x) (fun j => f.apply (distance (x i) (x j)) sigma lambda) = Pi.single i 1 := by
    apply solve_unique hs hdet
    rw [Matrix.mulVec_single_one]
    funext j
    simp only [Matrix.col_apply, covMatrix, Matrix.of_apply]
    rw [distance_comm]
  rw [this]
  simp

/-- **C76** Distinct observations: the kriging returns the value of the observation at each of them (all the functions but the
spherical one; two observations or more for the linear one). -/
theorem C76_observations {n : Nat} (solve : Matrix (Fin n) (Fin n) ℝ → (Fin n → ℝ) → Fin n → ℝ) (hs : Solver solve) (f : Cov)
    (hf : f ≠ .spherical) (sigma lambda : ℝ) (hsig : 0 < sigma) (hlam : 0 < lambda) (x : Fin n → Point)
    (hx : Function.Injective x) (hn : f = .linear → n ≠ 1) (v : Fin n → ℝ) (i : Fin n) :
    krige solve f sigma lambda x v (x i) = .ok (v i) :=
  C76_exact solve hs f sigma lambda hsig hlam x (C76_invertible f hf sigma lambda hsig hlam x hx hn) v i

/-- **C76** The estimate does not depend on the scale `sigma`. -/
theorem C76_sigma {n : Nat} (solve : Matrix (Fin n) (Fin n) ℝ → (Fin n → ℝ) → Fin n → ℝ) (hs : Solver solve) (f : Cov)
    (sigma sigma' lambda : ℝ) (hsig : 0 < sigma) (hsig' : 0 < sigma') (hlam : 0 < lambda) (x : Fin n → Point)
    (hdet : (covMatrix f sigma lambda x).det ≠ 0) (v : Fin n → ℝ) (p : Point) :
    krige solve f sigma' lambda x v p = krige solve f sigma lambda x v p := by
  rw [krige_eq solve f sigma lambda hsig hlam, krige_eq solve f sigma' lambda hsig' hlam]
  have hsc : ∀ r, f.apply r sigma' lambda = (sigma' ^ 2 / sigma ^ 2) * f.apply r sigma lambda := by
    intro r
    have : sigma ^ 2 ≠ 0 := by positivity
    cases f <;> simp only [Cov.apply]
    case spherical =>
      split
      · simp
      · field_simp
    all_goals field_simp
  have hc : sigma' ^ 2 / sigma ^ 2 ≠ 0 := by positivity
  have hM : covMatrix f sigma' lambda x = (sigma' ^ 2 / sigma ^ 2) • covMatrix f sigma lambda x := by
    ext i j
    simp only [covMatrix, Matrix.of_apply, Matrix.smul_apply, smul_eq_mul]
    exact hsc _
  have hdet' : (covMatrix f sigma' lambda x).det ≠ 0 := by
    rw [hM, Matrix.det_smul]
    exact mul_ne_zero (pow_ne_zero _ hc) hdet
  congr 2
  apply solve_unique hs hdet'
  rw [hM, Matrix.smul_mulVec, hs _ _ hdet]
  funext i
  simp only [Pi.smul_apply, smul_eq_mul]
  exact (hsc _).symm

/-- **C76** The estimate is linear in the values of the observations. -/
theorem C76_linear {n : Nat} (solve : Matrix (Fin n) (Fin n) ℝ → (Fin n → ℝ) → Fin n → ℝ) (f : Cov)
    (sigma lambda : ℝ) (x : Fin n → Point) (v w : Fin n → ℝ) (a b : ℝ) (p : Point) (r s : ℝ)
    (hr : krige solve f sigma lambda x v p = .ok r) (hs : krige solve f sigma lambda x w p = .ok s) :
    krige solve f sigma lambda x (fun i => a * v i + b * w i) p = .ok (a * r + b * s) := by
  unfold krige at hr hs ⊢
  split at hr
  · cases hr
  · split at hr
    · cases hr
    · rename_i h1 h2
      rw [if_neg h1, if_neg h2] at hs ⊢
      injection hr with hr
      injection hs with hs
      rw [← hr, ← hs]
      dsimp only
      have : (fun i => a * v i + b * w i) = a • v + b • w := rfl
      rw [this, add_dotProduct, smul_dotProduct, smul_dotProduct]
      rfl

/-- **C76** The estimate does not depend on the order of the observations. -/
theorem C76_order {n : Nat} (solve : Matrix (Fin n) (Fin n) ℝ → (Fin n → ℝ) → Fin n → ℝ) (hs : Solver solve) (f : Cov)
    (sigma lambda : ℝ) (x : Fin n → Point) (v : Fin n → ℝ) (hdet : (covMatrix f sigma lambda x).det ≠ 0)
    (σ : Equiv.Perm (Fin n)) (p : Point) :
    krige solve f sigma lambda (x ∘ σ) (v ∘ σ) p = krige solve f sigma lambda x v p := by
  by_cases hsig : 0 < sigma
  · by_cases hlam : 0 < lambda
    · rw [krige_eq solve f sigma lambda hsig hlam, krige_eq solve f sigma lambda hsig hlam]
      have hM : covMatrix f sigma lambda (x ∘ σ) = (covMatrix f sigma lambda x).submatrix σ σ := rfl
      have hdet' : (covMatrix f sigma lambda (x ∘ σ)).det ≠ 0 := by rw [hM, Matrix.det_submatrix_equiv_self]; exact hdet
      set c : Fin n → ℝ := fun i => f.apply (distance p (x i)) sigma lambda with hc
      have hw : solve (covMatrix f sigma lambda (x ∘ σ)) (c ∘ σ) = solve (covMatrix f sigma lambda x) c ∘ σ := by
        apply solve_unique hs hdet'
        rw [hM, Matrix.submatrix_mulVec_equiv]
        have : (solve (covMatrix f sigma lambda x) c ∘ ⇑σ) ∘ ⇑σ.symm = solve (covMatrix f sigma lambda x) c := by
          ext i; simp
        rw [this, hs _ _ hdet]
      have hcc : (fun i => f.apply (distance p ((x ∘ σ) i)) sigma lambda) = c ∘ σ := rfl
      rw [hcc, hw]
      congr 1
      unfold dotProduct
      exact Equiv.sum_comp σ (fun j => v j * solve (covMatrix f sigma lambda x) c j)
    · unfold krige; simp [not_lt.1 hlam]
  · unfold krige; simp [not_lt.1 hsig]

/-- **C76** On the mesh: `sigma` or `lambda` not greater than zero is refused; without a neighbour within the radius, NaN and 0; with
neighbours, the number of neighbours used, at most `k`. -/
theorem C76_mesh (solve : (n : Nat) → Matrix (Fin n) (Fin n) ℝ → (Fin n → ℝ) → Fin n → ℝ) (f : Cov) (sigma lambda : ℝ)
    (all near : List Item) (p : Point) (k : Nat) (radius : Option ℝ) (within : Bool) (h : KNearest all p k near) :
    (kriging solve f sigma lambda p near radius within = .error .exn ↔ sigma ≤ 0 ∨ lambda ≤ 0) ∧
    (0 < sigma → 0 < lambda → ∃ v c, kriging solve f sigma lambda p near radius within = .ok (v, c) ∧ c ≤ k ∧
      (c = 0 ↔ v = none) ∧ (c = 0 ∨ c = (used p near radius).length) ∧ (used p near radius = [] → c = 0) ∧
      (within = false → c = (used p near radius).length)) := by
  have hcount := h.count
  have hul : (used p near radius).length ≤ k := by
    have : (used p near radius).length ≤ near.length := List.length_filter_le _ _
    omega
  obtain ⟨hn1, hn2⟩ := nearest_sub p near radius within
  have hok : 0 < sigma → 0 < lambda → ∃ v c, kriging solve f sigma lambda p near radius within = .ok (v, c) ∧ c ≤ k ∧
      (c = 0 ↔ v = none) ∧ (c = 0 ∨ c = (used p near radius).length) ∧ (used p near radius = [] → c = 0) ∧
      (within = false → c = (used p near radius).length) := by
    intro hsig hlam
    unfold kriging
    dsimp only
    by_cases hl : (nearest p near radius within).length = 0
    · rw [if_pos hl, if_neg (by push Not; exact ⟨hsig, hlam⟩)]
      refine ⟨none, 0, rfl, Nat.zero_le _, by simp, Or.inl rfl, fun _ => rfl, fun hw => ?_⟩
      rcases hn2 with h | h
      · rw [← h, hl]
      · rw [h.1] at hw; cases hw
    · rw [if_neg hl, krige_eq _ f sigma lambda hsig hlam]
      have hne : nearest p near radius within = used p near radius := by
        rcases hn2 with h | h
        · exact h
        · rw [h.2] at hl; exact absurd rfl hl
      refine ⟨_, _, rfl, ?_, ?_, Or.inr (by rw [hne]), fun hnil => ?_, fun _ => by rw [hne]⟩
      · rw [hne]; exact hul
      · simp only [hl, reduceCtorEq]
      · rw [hne, hnil] at hl; exact absurd rfl hl
  refine ⟨⟨?_, ?_⟩, hok⟩
  · intro he
    by_contra hc
    push Not at hc
    obtain ⟨v, c, h1, _⟩ := hok hc.1 hc.2
    rw [h1] at he; cases he
  · intro hbad
    unfold kriging
    dsimp only
    by_cases hl : (nearest p near radius within).length = 0
    · rw [if_pos hl, if_pos hbad]
    · rw [if_neg hl]
      unfold krige
      rcases hbad with hb | hb
      · rw [if_pos hb]; rfl
      · by_cases hsig : sigma ≤ 0
        · rw [if_pos hsig]; rfl
        · rw [if_neg hsig, if_pos hb]; rfl

/-- **C76** On the mesh: a query at an observation among the neighbours (positions all distinct) returns its value. -/
theorem C76_mesh_hit (solve : (n : Nat) → Matrix (Fin n) (Fin n) ℝ → (Fin n → ℝ) → Fin n → ℝ) (hs : ∀ n, Solver (solve n))
    (f : Cov) (hf : f ≠ .spherical) (hf' : f ≠ .linear) (sigma lambda : ℝ) (hsig : 0 < sigma) (hlam : 0 < lambda)
    (all near : List Item) (p : Point) (k : Nat) (radius : Option ℝ) (within : Bool) (h : KNearest all p k near)
    (hdist : (all.map Item.pt).Nodup) (i : Item) (hi : i ∈ used p near radius) (hip : i.pt = p) :
    kriging solve f sigma lambda p near radius within = .ok (some i.val, (used p near radius).length) := by
  have hsub : ((used p near radius).map Item.pt).Nodup := by
    obtain ⟨rest, hperm, _⟩ := h.nearest
    have h1 : ((near ++ rest).map Item.pt).Nodup := (hperm.map Item.pt).nodup_iff.2 hdist
    rw [List.map_append] at h1
    exact (List.Nodup.of_append_left h1).sublist (List.Sublist.map _ (List.filter_sublist))
  have hnear : nearest p near radius within = used p near radius := by
    have hu : (near.filter fun i => close radius (distance p i.pt)) = used p near radius := by
      unfold used
      simp only [close_eq]
    unfold nearest
    dsimp only
    rw [hu]
    have hcov := (coveredBy_iff p ((used p near radius).map Item.pt)).2 (C54_within_hit _ p i hi hip)
    rw [hcov]
    simp
  unfold kriging
  dsimp only
  rw [hnear]
  have hpos : (used p near radius).length ≠ 0 := by
    have := List.length_pos_of_mem hi; omega
  rw [if_neg hpos]
  obtain ⟨j, hj, hij⟩ := List.getElem_of_mem hi
  have hk := C76_observations (solve _) (hs _) f hf sigma lambda hsig hlam (fun i => ((used p near radius).get i).pt)
    (injective_of_nodup hsub) (fun h => absurd h hf') (fun i => ((used p near radius).get i).val) ⟨j, hj⟩
  simp only [List.get_eq_getElem, hij, hip] at hk
  simp only [List.get_eq_getElem]
  rw [hk]
  rfl

/-- **C76, the part that fails** The method is called universal kriging, but its weights do not sum to one: a constant field is not
reproduced. With one observation `v`, the estimate at the distance `d` is `v` times the correlation at `d`, which goes to 0. -/
theorem C76_constant_false (solve : Matrix (Fin 1) (Fin 1) ℝ → (Fin 1 → ℝ) → Fin 1 → ℝ) (hs : Solver solve)
    (sigma lambda : ℝ) (hsig : 0 < sigma) (hlam : 0 < lambda) (x p : Point) (v : ℝ) :
    krige solve .exponential sigma lambda (fun _ => x) (fun _ => v) p = .ok (v * exp (-distance p x / lambda)) := by
  rw [krige_eq solve .exponential sigma lambda hsig hlam]
  have hdet := C76_invertible .exponential (by decide) sigma lambda hsig hlam (fun _ : Fin 1 => x)
    (Function.injective_of_subsingleton _) (by intro h; cases h)
  have hw := solve_unique hs hdet (w := fun _ => exp (-distance p x / lambda))
    (y := fun _ => Cov.apply .exponential (distance p x) sigma lambda) (by
      funext i
      simp [Matrix.mulVec, dotProduct, covMatrix, Cov.apply, distance_self])
  rw [hw]
  simp [dotProduct]

/-- The witness: an observation of value 1 and a query one `lambda` away give `exp(-1)`, not 1. -/
theorem C76_constant_witness_false (solve : Matrix (Fin 1) (Fin 1) ℝ → (Fin 1 → ℝ) → Fin 1 → ℝ) (hs : Solver solve) :
    krige solve .exponential 1 1 (fun _ => onX 0) (fun _ => 1) (onX 1) = .ok (exp (-1)) ∧ exp (-1) ≠ 1 := by
  constructor
  · have := C76_constant_false solve hs 1 1 one_pos one_pos (onX 0) (onX 1) 1
    simpa [distance_onX] using this
  · exact (Real.exp_lt_one_iff.2 (by norm_num)).ne

/-- The hypotheses of `C76_observations` are met. -/
example (solve : Matrix (Fin 2) (Fin 2) ℝ → (Fin 2 → ℝ) → Fin 2 → ℝ) (hs : Solver solve) :
    krige solve .matern52 2 3 ![onX 0, onX 1] ![10, 40] (onX 1) = .ok 40 := by
  have := C76_observations solve hs .matern52 (by decide) 2 3 (by norm_num) (by norm_num) ![onX 0, onX 1] (by
    intro i j h
    fin_cases i <;> fin_cases j <;> simp_all [onX]) (by intro h; cases h) ![10, 40] 1
  simpa using this

end Pyinterp.RTree
