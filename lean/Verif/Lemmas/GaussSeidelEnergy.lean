import Mathlib.Algebra.BigOperators.Group.Finset.Basic
import Mathlib.Algebra.BigOperators.Ring.Finset
import Mathlib.Algebra.Order.BigOperators.Ring.Finset
import Mathlib.Algebra.Order.Archimedean.Basic
import Mathlib.Tactic.Positivity
import Verif.Props.C50_GaussSeidel

/-
The energy of a grid: the weighted sum of the squares of the differences between neighbours. An
update of `cell_fill` with a relaxation between 0 and 2 makes it smaller.
-/
namespace Pyinterp.GaussSeidel
set_option linter.unusedSectionVars false

variable {K : Type} [Field K] [LinearOrder K] [IsStrictOrderedRing K]

/-- The energy of a line of `n` cells. -/
def lineE (circle : Bool) (n : Nat) (f : Nat → K) : K :=
  (Finset.range (n - 1)).sum (fun i => (f i - f (i + 1)) ^ 2) +
    if circle then (f (n - 1) - f 0) ^ 2 else 0

/-- The weight of a cell of a line. -/
def mu (circle : Bool) (n i : Nat) : K :=
  if circle then 1 else if i = 0 ∨ i + 1 = n then 1 / 2 else 1

/-- A line with the value of a cell changed. -/
def bump (f : Nat → K) (i : Nat) (δ : K) : Nat → K := fun k => if k = i then f k + δ else f k

theorem mu_bounds (circle : Bool) (n i : Nat) : (1 / 2 : K) ≤ mu circle n i ∧ (mu circle n i : K) ≤ 1 := by
  unfold mu
  split
  · norm_num
  · split <;> norm_num

theorem lineE_nonneg (circle : Bool) (n : Nat) (f : Nat → K) : 0 ≤ lineE circle n f := by
  unfold lineE
  refine add_nonneg (Finset.sum_nonneg fun i _ => sq_nonneg _) ?_
  split
  · exact sq_nonneg _
  · exact le_refl _

theorem edges_bump (n : Nat) (f : Nat → K) (i : Nat) (δ : K) :
    (Finset.range n).sum (fun k => (bump f i δ k - bump f i δ (k + 1)) ^ 2) =
      (Finset.range n).sum (fun k => (f k - f (k + 1)) ^ 2) +
      (if i < n then 2 * δ * (f i - f (i + 1)) + δ ^ 2 else 0) +
      (if 1 ≤ i ∧ i ≤ n then 2 * δ * (f i - f (i - 1)) + δ ^ 2 else 0) := by
  induction n with
  | zero =>
    simp only [Finset.range_zero, Finset.sum_empty]
    rw [if_neg (by omega), if_neg (by omega)]
    ring
  | succ n ih =>
    rw [Finset.sum_range_succ, Finset.sum_range_succ, ih]
    unfold bump
    rcases Nat.lt_trichotomy i n with h | h | h
    · rw [if_neg (by omega : ¬ n = i), if_neg (by omega : ¬ n + 1 = i), if_pos h, if_pos (by omega : i < n + 1)]
      by_cases h1 : 1 ≤ i
      · rw [if_pos ⟨h1, by omega⟩, if_pos ⟨h1, by omega⟩]; ring
      · rw [if_neg (by omega), if_neg (by omega)]; ring
    · subst h
      rw [if_pos rfl, if_neg (by omega : ¬ i + 1 = i), if_neg (lt_irrefl i), if_pos (by omega : i < i + 1)]
      by_cases h1 : 1 ≤ i
      · rw [if_pos ⟨h1, by omega⟩, if_pos ⟨h1, by omega⟩]; ring
      · rw [if_neg (by omega), if_neg (by omega)]; ring
    · rw [if_neg (by omega : ¬ n = i), if_neg (by omega : ¬ i < n), if_neg (by omega : ¬ i < n + 1)]
      by_cases h1 : i = n + 1
      · subst h1
        rw [if_pos rfl, if_neg (by omega), if_pos (by omega)]
        simp only [Nat.add_sub_cancel]
        ring
      · rw [if_neg (by omega : ¬ n + 1 = i), if_neg (by omega), if_neg (by omega)]; ring

/-- The change of the energy of a line. -/
theorem lineE_bump (circle : Bool) (n : Nat) (hn : circle = true ∨ 2 ≤ n) (f : Nat → K) (i : Nat) (hi : i < n)
    (δ : K) : lineE circle n (bump f i δ) - lineE circle n f ≤
      mu circle n i * (2 * δ * (2 * f i - f (wx circle n i) - f (ex circle n i)) + 2 * δ ^ 2) := by
  unfold lineE mu wx ex xNeighbours
  rw [edges_bump]
  cases circle with
  | false =>
    have h2 : 2 ≤ n := by simpa using hn
    simp only [Bool.false_eq_true, if_false, add_zero]
    by_cases h0 : i = 0
    · subst h0
      have e : ((if ((0 : Nat) : Int) = (n : Int) - 1 then (n : Int) - 2 else ((0 : Nat) : Int) + 1)).toNat = 1 := by
        rw [if_neg (by omega)]; rfl
      simp only [if_true, true_or, e, Int.toNat_one]
      rw [if_pos (by omega), if_neg (by omega)]
      apply le_of_eq
      norm_num
      ring
    · simp only [h0, if_false, false_or]
      have e : ((i : Int) - 1).toNat = i - 1 := by omega
      by_cases h1 : i + 1 = n
      · have e2 : (if (i : Int) = (n : Int) - 1 then (n : Int) - 2 else (i : Int) + 1).toNat = i - 1 := by
          rw [if_pos (by omega)]; omega
        rw [e, e2, if_pos h1, if_neg (by omega), if_pos (by omega)]
        apply le_of_eq
        ring
      · have e2 : (if (i : Int) = (n : Int) - 1 then (n : Int) - 2 else (i : Int) + 1).toNat = i + 1 := by
          rw [if_neg (by omega)]; omega
        rw [e, e2, if_neg h1, if_pos (by omega), if_pos (by omega)]
        apply le_of_eq
        ring
  | true =>
    simp only [if_true, one_mul]
    by_cases h0 : i = 0
    · subst h0
      simp only [if_true]
      have e : ((n : Int) - 1).toNat = n - 1 := by omega
      by_cases h1 : n = 1
      · subst h1
        simp [bump]
        have : 2 * f 0 - f 0 - f 0 = 0 := by ring
        rw [this]
        have := sq_nonneg δ
        linarith
      · have e2 : (if ((0 : Nat) : Int) = (n : Int) - 1 then (0 : Int) else ((0 : Nat) : Int) + 1).toNat = 1 := by
          rw [if_neg (by omega)]; rfl
        rw [e, e2, if_pos (by omega), if_neg (by omega)]
        unfold bump
        rw [if_pos rfl, if_neg (by omega)]
        apply le_of_eq
        norm_num
        ring
    · simp only [h0, if_false]
      have e : ((i : Int) - 1).toNat = i - 1 := by omega
      rw [e]
      by_cases h1 : i + 1 = n
      · have e2 : (if (i : Int) = (n : Int) - 1 then (0 : Int) else (i : Int) + 1).toNat = 0 := by
          rw [if_pos (by omega)]; rfl
        rw [e2, if_neg (by omega), if_pos (by omega)]
        unfold bump
        rw [if_pos (by omega), if_neg (by omega)]
        have : n - 1 = i := by omega
        rw [this]
        apply le_of_eq
        ring
      · have e2 : (if (i : Int) = (n : Int) - 1 then (0 : Int) else (i : Int) + 1).toNat = i + 1 := by
          rw [if_neg (by omega)]; omega
        rw [e2, if_pos (by omega), if_pos (by omega)]
        unfold bump
        rw [if_neg (by omega), if_neg (by omega)]
        apply le_of_eq
        ring

/-- The energy of a grid. -/
def energy (rows cols : Nat) (circle : Bool) (f : Nat → Nat → K) : K :=
  (Finset.range cols).sum (fun j => mu false cols j * lineE circle rows fun i => f i j) +
  (Finset.range rows).sum (fun i => mu circle rows i * lineE false cols fun j => f i j)

theorem energy_nonneg (rows cols : Nat) (circle : Bool) (f : Nat → Nat → K) : 0 ≤ energy rows cols circle f := by
  unfold energy
  refine add_nonneg (Finset.sum_nonneg fun j _ => ?_) (Finset.sum_nonneg fun i _ => ?_)
  · exact mul_nonneg (by have := (mu_bounds (K := K) false cols j).1; linarith) (lineE_nonneg _ _ _)
  · exact mul_nonneg (by have := (mu_bounds (K := K) circle rows i).1; linarith) (lineE_nonneg _ _ _)

theorem sum_single_change (n y : Nat) (hy : y < n) (a a' : Nat → K) (h : ∀ j, j ≠ y → a' j = a j) :
    (Finset.range n).sum a' = (Finset.range n).sum a + (a' y - a y) := by
  have : (Finset.range n).sum (fun j => a' j - a j) = a' y - a y := by
    refine Finset.sum_eq_single y (fun j _ hj => by rw [h j hj, sub_self]) ?_
    intro hn
    exact absurd (Finset.mem_range.2 hy) hn
  rw [Finset.sum_sub_distrib] at this
  rw [← this]
  ring

theorem ny_eq (cols j : Nat) : ny cols j = ex false cols j ∧ sy cols j = wx false cols j := by
  unfold ny ex sy wx yNeighbours xNeighbours
  simp

/-- The change of the energy of a grid. -/
theorem energy_bump {rows cols : Nat} {circle : Bool} (hs : SizesOk rows cols circle) (f : Nat → Nat → K)
    {x y : Nat} (hx : x < rows) (hy : y < cols) (δ : K) :
    energy rows cols circle (fun i j => if i = x ∧ j = y then f i j + δ else f i j) ≤
      energy rows cols circle f + mu false cols y * mu circle rows x *
        (2 * δ * (4 * f x y - f (wx circle rows x) y - f (ex circle rows x) y - f x (sy cols y) -
          f x (ny cols y)) + 4 * δ ^ 2) := by
  set f' : Nat → Nat → K := fun i j => if i = x ∧ j = y then f i j + δ else f i j with hf'
  unfold energy
  have r1 : (fun i => f' i y) = bump (fun i => f i y) x δ := by
    funext i; simp [hf', bump]
  have r2 : (fun j => f' x j) = bump (fun j => f x j) y δ := by
    funext j; simp [hf', bump]
  rw [sum_single_change cols y hy (fun j => mu false cols j * lineE circle rows fun i => f i j)
      (fun j => mu false cols j * lineE circle rows fun i => f' i j)
      (by
        intro j hj
        have : (fun i => f' i j) = fun i => f i j := by
          funext i; simp [hf', hj]
        simp only [this]),
    sum_single_change rows x hx (fun i => mu circle rows i * lineE false cols fun j => f i j)
      (fun i => mu circle rows i * lineE false cols fun j => f' i j)
      (by
        intro i hi
        have : (fun j => f' i j) = fun j => f i j := by
          funext j; simp [hf', hi]
        simp only [this])]
  simp only [r1, r2]
  have a := lineE_bump circle rows hs.1 (fun i => f i y) x hx δ
  have b := lineE_bump false cols (Or.inr hs.2) (fun j => f x j) y hy δ
  obtain ⟨n1, n2⟩ := ny_eq cols y
  rw [n1, n2]
  have m1 : (0 : K) ≤ mu false cols y := by have := (mu_bounds (K := K) false cols y).1; linarith
  have m2 : (0 : K) ≤ mu circle rows x := by have := (mu_bounds (K := K) circle rows x).1; linarith
  have a' := mul_le_mul_of_nonneg_left a m1
  have b' := mul_le_mul_of_nonneg_left b m2
  generalize lineE circle rows (bump (fun i => f i y) x δ) = A at *
  generalize lineE false cols (bump (fun j => f x j) y δ) = B at *
  generalize lineE circle rows (fun i => f i y) = A0 at *
  generalize lineE false cols (fun j => f x j) = B0 at *
  generalize (mu false cols y : K) = p at *
  generalize (mu circle rows x : K) = q at *
  nlinarith

/-- The values of a grid without holes. -/
def vals (g : Val K) : Nat → Nat → K := fun i j => (g i j).getD 0

/-- An update with the residual `δ` takes at least `(2 - ω)/ω δ²` from the energy. -/
theorem energy_upd {rows cols : Nat} {circle : Bool} (hs : SizesOk rows cols circle) {relaxation : K}
    (h0 : 0 < relaxation) (h2 : relaxation ≤ 2) {g : Val K} (hg : Full rows cols g) {c : Nat × Nat}
    (hx : c.1 < rows) (hy : c.2 < cols) :
    ∃ δ, resid rows cols circle relaxation g c = some δ ∧ Full rows cols (upd rows cols circle relaxation g c) ∧
      energy rows cols circle (vals (upd rows cols circle relaxation g c)) ≤
        energy rows cols circle (vals g) - (2 - relaxation) / relaxation * δ ^ 2 := by
  obtain ⟨w, e, s, n, v, e1, e2, e3, e4, e5, er, hu⟩ := upd_full hs hg hx hy (relaxation := relaxation)
  refine ⟨_, er, ?_, ?_⟩
  · rw [hu]
    intro i j hi hj
    unfold put
    split
    · exact ⟨_, rfl⟩
    · exact hg i j hi hj
  set δ := (1 / 4 * (w + e + s + n) - v) * relaxation with hδ
  have hv : vals (upd rows cols circle relaxation g c) =
      fun i j => if i = c.1 ∧ j = c.2 then vals g i j + δ else vals g i j := by
    funext i j
    rw [hu]
    unfold vals put
    by_cases hij : i = c.1 ∧ j = c.2
    · rw [if_pos hij, if_pos hij, hij.1, hij.2, e5]
      simp
    · rw [if_neg hij, if_neg hij]
  rw [hv]
  refine (energy_bump hs (vals g) hx hy δ).trans ?_
  have d1 : vals g c.1 c.2 = v := by simp [vals, e5]
  have d2 : vals g (wx circle rows c.1) c.2 = w := by simp [vals, e1]
  have d3 : vals g (ex circle rows c.1) c.2 = e := by simp [vals, e2]
  have d4 : vals g c.1 (sy cols c.2) = s := by simp [vals, e3]
  have d5 : vals g c.1 (ny cols c.2) = n := by simp [vals, e4]
  rw [d1, d2, d3, d4, d5]
  have hd : 4 * v - w - e - s - n = -(4 * (δ / relaxation)) := by
    rw [hδ]; field_simp; ring
  rw [hd]
  have m1 := (mu_bounds (K := K) false cols c.2).1
  have m2 := (mu_bounds (K := K) circle rows c.1).1
  have hpq : (1 / 4 : K) ≤ mu false cols c.2 * mu circle rows c.1 := by
    nlinarith
  have hid : 2 * δ * -(4 * (δ / relaxation)) + 4 * δ ^ 2 = -(4 * ((2 - relaxation) / relaxation * δ ^ 2)) := by
    field_simp; ring
  rw [hid]
  have hnn : 0 ≤ (2 - relaxation) / relaxation * δ ^ 2 :=
    mul_nonneg (div_nonneg (by linarith) h0.le) (sq_nonneg _)
  nlinarith

/-- A sequence of updates does not increase the energy, and each residual has a cost. -/
theorem energy_fold {rows cols : Nat} {circle : Bool} (hs : SizesOk rows cols circle) {relaxation : K}
    (h0 : 0 < relaxation) (h2 : relaxation ≤ 2) (l : List (Nat × Nat)) (g : Val K) (hg : Full rows cols g)
    (hl : ∀ c ∈ l, c.1 < rows ∧ c.2 < cols) :
    Full rows cols (l.foldl (upd rows cols circle relaxation) g) ∧
    energy rows cols circle (vals (l.foldl (upd rows cols circle relaxation) g)) ≤
      energy rows cols circle (vals g) ∧
    ∀ p ∈ resids rows cols circle relaxation g l, ∀ v, p.2 = some v →
      energy rows cols circle (vals (l.foldl (upd rows cols circle relaxation) g)) ≤
        energy rows cols circle (vals g) - (2 - relaxation) / relaxation * v ^ 2 := by
  induction l generalizing g with
  | nil => exact ⟨hg, le_refl _, by simp [resids]⟩
  | cons c l ih =>
    obtain ⟨hx, hy⟩ := hl c (by simp)
    obtain ⟨δ, hr, hF, hE⟩ := energy_upd hs h0 h2 hg hx hy
    obtain ⟨i1, i2, i3⟩ := ih _ hF (fun d hd => hl d (by simp [hd]))
    have hnn : 0 ≤ (2 - relaxation) / relaxation * δ ^ 2 :=
      mul_nonneg (div_nonneg (by linarith) h0.le) (sq_nonneg _)
    refine ⟨i1, by rw [List.foldl_cons]; linarith, ?_⟩
    intro p hp v hv
    simp only [resids, List.mem_cons] at hp
    rw [List.foldl_cons]
    rcases hp with rfl | hp
    · rw [hr] at hv
      cases hv
      linarith
    · have := i3 p hp v hv
      linarith

end Pyinterp.GaussSeidel
