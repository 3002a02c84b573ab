import Mathlib.Data.Rat.Floor
import Mathlib.Tactic.NormNum
import Mathlib.Tactic.Positivity
import Verif.Lemmas.GaussSeidel
import Verif.Spec.Fill

/-
C50: filling of a grid by relaxation.
-/
namespace Pyinterp.GaussSeidel
open Spec
set_option linter.unusedSectionVars false
set_option linter.unusedVariables false
set_option linter.unusedSimpArgs false

variable {K : Type} [Field K] [LinearOrder K] [IsStrictOrderedRing K]

theorem relaxLoop_schedule {rows cols : Nat} {circle : Bool} (h : SizesOk rows cols circle)
    (relaxation epsilon : K) (mask : Nat → Nat → Bool) (n n' first : Nat) (hn : 1 ≤ n) (hn' : 1 ≤ n')
    (sched sched' : Nat → Nat → List Nat) (k it : Nat) (g : Val K) (res : K) :
    relaxLoop rows cols circle relaxation epsilon mask n first sched k it g res =
      relaxLoop rows cols circle relaxation epsilon mask n' first sched' k it g res := by
  induction k generalizing it g res with
  | zero => rfl
  | succ k ih =>
    have hi : ∀ g, iterate rows cols circle relaxation mask n first (sched it) g =
        iterate rows cols circle relaxation mask n' first (sched' it) g := by
      intro g
      unfold iterate
      rw [calculate_schedule h relaxation mask n n' hn hn' (sched it 0) (sched' it 0)]
      congr 1
      funext a
      rw [calculate_schedule h relaxation mask n n' hn hn' (sched it 1) (sched' it 1)]
    unfold relaxLoop
    rw [hi]
    congr 1
    funext r
    rw [ih]

/-- C50: the filled grid, the number of iterations and the residual depend neither on the number
of threads (`hw` is the number of CPUs, used when `num_threads` is 0) nor on the interleaving of
the threads. (The colour treated first, `first`, is the choice of the compiler.) -/
theorem C50_schedule (rows cols : Nat) (circle : Bool) (hs : (circle = true ∨ 2 ≤ rows) ∧ 2 ≤ cols)
    (g : Val K) (guess : Guess) (maxIterations : Nat) (epsilon relaxation : K) (first : Nat)
    (hw hw' n n' : Nat) (hn : 1 ≤ hw ∨ 1 ≤ n) (hn' : 1 ≤ hw' ∨ 1 ≤ n')
    (zsched zsched' : List Nat) (sched sched' : Nat → Nat → List Nat) (hz : n = 0 → 1 ≤ hw)
    (hz' : n' = 0 → 1 ≤ hw') :
    gaussSeidel hw zsched sched first rows cols g guess circle maxIterations epsilon relaxation n =
      gaussSeidel hw' zsched' sched' first rows cols g guess circle maxIterations epsilon relaxation n' := by
  unfold gaussSeidel
  split
  · rfl
  have h1 : 1 ≤ (if n = 0 then hw else n) := by split <;> omega
  have h2 : 1 ≤ (if n' = 0 then hw' else n') := by split <;> omega
  simp only
  cases guess with
  | zero =>
    simp only [bind, Except.bind]
    exact relaxLoop_schedule hs _ _ _ _ _ _ h1 h2 _ _ _ _ _ _
  | zonalAverage =>
    simp only [bind, Except.bind, setZonalAverage_eq _ _ _ _ h1, setZonalAverage_eq _ _ _ _ h2]
    exact relaxLoop_schedule hs _ _ _ _ _ _ h1 h2 _ _ _ _ _ _

/-- C50: the threads of a pass never touch a value that another one writes: a cell updated by a
thread is not updated by another thread, and is not one of the neighbours that another thread
reads. -/
theorem C50_race_free (rows cols : Nat) (circle : Bool) (hs : (circle = true ∨ 2 ≤ rows) ∧ 2 ≤ cols)
    (mask : Nat → Nat → Bool) (rb n : Nat) (sl : List (Nat × Nat))
    (hsl : Thread.slices 0 cols n = .ok sl) (i j : Nat) (hi : i < sl.length) (hj : j < sl.length)
    (hij : i ≠ j) (c d : Nat × Nat) (hc : c ∈ cells rows mask rb sl[i]) (hd : d ∈ cells rows mask rb sl[j]) :
    c ≠ d ∧ c ∉ [((xNeighbours circle rows d.1).1.toNat, d.2), ((xNeighbours circle rows d.1).2.toNat, d.2),
      (d.1, (yNeighbours cols d.2).1.toNat), (d.1, (yNeighbours cols d.2).2.toNat)] := by
  obtain ⟨o1, o2, o3⟩ := slices_owner hsl
  obtain ⟨c1, c2, c3, c4, c5⟩ := mem_cells.1 hc
  obtain ⟨d1, d2, d3, d4, d5⟩ := mem_cells.1 hd
  have hrow : c.2 ≠ d.2 := by
    intro e
    exact hij (o2 c.2 i j hi hj c2 c3 (e ▸ d2) (e ▸ d3))
  have hdy := o3 _ (List.getElem_mem hj) d.2 d2 d3
  obtain ⟨p1, p2, -, -⟩ := y_parity (x := d.1) hs.2 hdy
  refine ⟨fun e => hrow (by rw [e]), ?_⟩
  simp only [List.mem_cons, List.not_mem_nil, or_false]
  rintro (e | e | e | e)
  · exact hrow (by rw [e])
  · exact hrow (by rw [e])
  · rw [e] at c5
    exact p1 (by rw [d5]; exact c5)
  · rw [e] at c5
    exact p2 (by rw [d5]; exact c5)

/-- A property preserved by the update of the masked cells is preserved by the iterations. -/
theorem relaxLoop_inv {rows cols : Nat} {circle : Bool} (h : SizesOk rows cols circle)
    (relaxation epsilon : K) (mask : Nat → Nat → Bool) (n first : Nat) (hn : 1 ≤ n)
    (sched : Nat → Nat → List Nat) (P : Val K → Prop)
    (hP : ∀ g c, P g → c.1 < rows → c.2 < cols → mask c.1 c.2 = true →
      P (upd rows cols circle relaxation g c))
    (k it : Nat) (g : Val K) (res : K) (hg : P g) :
    ∃ g' it' res', relaxLoop rows cols circle relaxation epsilon mask n first sched k it g res =
        .ok (g', it', res') ∧ P g' ∧ it' ≤ it + k ∧ (it' < it + k → res' < epsilon) ∧
        (0 < k → it < it') := by
  have fold : ∀ (l : List (Nat × Nat)) g, P g → (∀ c ∈ l, c.1 < rows ∧ c.2 < cols ∧ mask c.1 c.2 = true) →
      P (l.foldl (upd rows cols circle relaxation) g) := by
    intro l
    induction l with
    | nil => intro g hg _; exact hg
    | cons c l ih =>
      intro g hg hc
      obtain ⟨a, b, d⟩ := hc c (by simp)
      exact ih _ (hP g c hg a b d) (fun e he => hc e (by simp [he]))
  induction k generalizing it g res with
  | zero => exact ⟨g, it, res, rfl, hg, by omega, by omega, by omega⟩
  | succ k ih =>
    obtain ⟨l, m, e, hl, -, -⟩ := calculate_eq h relaxation mask n hn (sched it 0) first g
    have h1 := fold l g hg (fun c hc => ⟨((hl c).1 hc).1, ((hl c).1 hc).2.1, ((hl c).1 hc).2.2.1⟩)
    obtain ⟨l', m', e', hl', -, -⟩ := calculate_eq h relaxation mask n hn (sched it 1) (1 - first)
      (l.foldl (upd rows cols circle relaxation) g)
    have h2 := fold l' _ h1 (fun c hc => ⟨((hl' c).1 hc).1, ((hl' c).1 hc).2.1, ((hl' c).1 hc).2.2.1⟩)
    unfold relaxLoop iterate
    simp only [e, e', bind, Except.bind]
    split
    · rename_i hlt
      exact ⟨_, _, _, rfl, h2, by omega, fun _ => hlt, by omega⟩
    · obtain ⟨g', it', res', e3, p3, q1, q2, q3⟩ := ih (it + 1) _ (max m m') h2
      refine ⟨g', it', res', e3, p3, by omega, fun hh => q2 (by omega), fun _ => ?_⟩
      cases k with
      | zero =>
        simp only [relaxLoop] at e3
        cases e3
        omega
      | succ k => have := q3 (by omega); omega

theorem undefinedMask_false {g : Val K} {i j : Nat} {v : K} (h : g i j = some v) :
    undefinedMask g i j = false := by simp [undefinedMask, h]

/-- The grid after the first guess. -/
def guessed (rows cols : Nat) (g : Val K) : Guess → Val K
  | .zero => fun i j => if undefinedMask g i j then some 0 else g i j
  | .zonalAverage => fun i j => if j < cols ∧ i < rows ∧ undefinedMask g i j = true then
      some (firstGuess rows (undefinedMask g) g j) else g i j

theorem gaussSeidel_eq (hw : Nat) (zsched : List Nat) (sched : Nat → Nat → List Nat) (first : Nat)
    (rows cols : Nat) (g : Val K) (guess : Guess) (circle : Bool) (maxIterations : Nat)
    (epsilon relaxation : K) (n : Nat) (hn : n = 0 → 1 ≤ hw) (hnan : hasNaN rows cols g = true) :
    gaussSeidel hw zsched sched first rows cols g guess circle maxIterations epsilon relaxation n =
      relaxLoop rows cols circle relaxation epsilon (undefinedMask g) (if n = 0 then hw else n) first
        sched maxIterations 0 (guessed rows cols g guess) 0 := by
  have h1 : 1 ≤ (if n = 0 then hw else n) := by split <;> omega
  unfold gaussSeidel
  rw [if_neg (by simp [hnan])]
  cases guess with
  | zero => simp only [bind, Except.bind]; rfl
  | zonalAverage =>
    simp only [bind, Except.bind, setZonalAverage_eq _ _ _ _ h1]
    rfl

/-- All the cells of the grid are defined. -/
def Full (rows cols : Nat) (g : Val K) : Prop := ∀ i j, i < rows → j < cols → ∃ v, g i j = some v

theorem guessed_full (rows cols : Nat) (g : Val K) (guess : Guess) : Full rows cols (guessed rows cols g guess) := by
  intro i j hi hj
  cases hv : g i j with
  | some v =>
    refine ⟨v, ?_⟩
    have := undefinedMask_false hv
    cases guess <;> simp [guessed, this, hv]
  | none =>
    have : undefinedMask g i j = true := by simp [undefinedMask, hv]
    cases guess <;> simp [guessed, this, hi, hj]

theorem upd_full {rows cols : Nat} {circle : Bool} (h : SizesOk rows cols circle) {relaxation : K}
    {g : Val K} (hg : Full rows cols g) {c : Nat × Nat} (hx : c.1 < rows) (hy : c.2 < cols) :
    ∃ w e s n v, g (wx circle rows c.1) c.2 = some w ∧ g (ex circle rows c.1) c.2 = some e ∧
      g c.1 (sy cols c.2) = some s ∧ g c.1 (ny cols c.2) = some n ∧ g c.1 c.2 = some v ∧
      resid rows cols circle relaxation g c = some ((1 / 4 * (w + e + s + n) - v) * relaxation) ∧
      upd rows cols circle relaxation g c =
        put g c.1 c.2 (some (v + (1 / 4 * (w + e + s + n) - v) * relaxation)) := by
  obtain ⟨⟨a1, a2⟩, ⟨a3, a4⟩, ⟨a5, a6⟩, ⟨a7, a8⟩⟩ := neighbours_bounds h hx hy
  obtain ⟨w, hw⟩ := hg (wx circle rows c.1) c.2 (by unfold wx; omega) hy
  obtain ⟨e, he⟩ := hg (ex circle rows c.1) c.2 (by unfold ex; omega) hy
  obtain ⟨s, hs⟩ := hg c.1 (sy cols c.2) hx (by unfold sy; omega)
  obtain ⟨n, hn⟩ := hg c.1 (ny cols c.2) hx (by unfold ny; omega)
  obtain ⟨v, hv⟩ := hg c.1 c.2 hx hy
  have hr : resid rows cols circle relaxation g c = some ((1 / 4 * (w + e + s + n) - v) * relaxation) := by
    unfold resid residual
    rw [hw, he, hs, hn, hv]
    rfl
  refine ⟨w, e, s, n, v, hw, he, hs, hn, hv, hr, ?_⟩
  unfold upd
  rw [hr, hv]
  rfl

/-- C50: the filling of a grid that has an undefined value always ends, without reading outside of
the grid; the defined values are unchanged, no value is undefined, at most `max_iterations`
iterations are made, fewer only if the residual is less than `epsilon`, and at least one if
`max_iterations` is not 0. -/
theorem C50_result (hw : Nat) (zsched : List Nat) (sched : Nat → Nat → List Nat) (first : Nat)
    (rows cols : Nat) (circle : Bool) (hs : (circle = true ∨ 2 ≤ rows) ∧ 2 ≤ cols) (g : Val K)
    (guess : Guess) (maxIterations : Nat) (epsilon relaxation : K) (n : Nat) (hn : n = 0 → 1 ≤ hw)
    (hnan : ∃ i j, i < rows ∧ j < cols ∧ g i j = none) :
    ∃ g' it res, gaussSeidel hw zsched sched first rows cols g guess circle maxIterations epsilon
        relaxation n = .ok (g', it, res) ∧
      (∀ i j v, g i j = some v → g' i j = some v) ∧
      (∀ i j, i < rows → j < cols → ∃ v, g' i j = some v) ∧
      it ≤ maxIterations ∧ (it < maxIterations → res < epsilon) ∧ (0 < maxIterations → 0 < it) := by
  have hN : hasNaN rows cols g = true := by
    obtain ⟨i, j, hi, hj, h⟩ := hnan
    simp only [hasNaN, List.any_eq_true, List.mem_range]
    exact ⟨i, hi, j, hj, by simp [h]⟩
  have h1 : 1 ≤ (if n = 0 then hw else n) := by split <;> omega
  rw [gaussSeidel_eq _ _ _ _ _ _ _ _ _ _ _ _ _ hn hN]
  obtain ⟨g', it, res, e, ⟨p1, p2⟩, q1, q2, q3⟩ := relaxLoop_inv hs relaxation epsilon (undefinedMask g)
    (if n = 0 then hw else n) first h1 sched
    (fun g' => (∀ i j v, g i j = some v → g' i j = some v) ∧ Full rows cols g')
    (by
      rintro g' c ⟨a, b⟩ hx hy hm
      obtain ⟨w, e, s, n, v, -, -, -, -, -, -, hu⟩ := upd_full hs b hx hy (relaxation := relaxation)
      rw [hu]
      constructor
      · intro i j v hv
        unfold put
        rw [if_neg]
        · exact a i j v hv
        · rintro ⟨rfl, rfl⟩
          rw [undefinedMask_false hv] at hm
          cases hm
      · intro i j hi hj
        unfold put
        split
        · exact ⟨_, rfl⟩
        · exact b i j hi hj)
    maxIterations 0 (guessed rows cols g guess) 0
    ⟨by
      intro i j v hv
      have := undefinedMask_false hv
      cases guess <;> simp [guessed, this, hv], guessed_full rows cols g guess⟩
  exact ⟨g', it, res, e, p1, p2, by omega, fun hh => q2 (by omega), q3⟩

/-- C50: a grid without undefined value is returned unchanged, with 0 iterations. -/
theorem C50_unchanged (hw : Nat) (zsched : List Nat) (sched : Nat → Nat → List Nat) (first : Nat)
    (rows cols : Nat) (circle : Bool) (g : Val K) (guess : Guess) (maxIterations : Nat)
    (epsilon relaxation : K) (n : Nat) (h : ∀ i j, i < rows → j < cols → g i j ≠ none) :
    gaussSeidel hw zsched sched first rows cols g guess circle maxIterations epsilon relaxation n =
      .ok (g, 0, 0) := by
  unfold gaussSeidel
  rw [if_pos]
  rw [Bool.eq_false_iff]
  intro hh
  simp only [hasNaN, List.any_eq_true, List.mem_range] at hh
  obtain ⟨i, hi, j, hj, hn⟩ := hh
  exact h i j hi hj (by simpa using hn)

/-- All the values of the grid are between `lo` and `hi`. -/
def Bounded (rows cols : Nat) (lo hi : K) (g : Val K) : Prop :=
  ∀ i j v, i < rows → j < cols → g i j = some v → lo ≤ v ∧ v ≤ hi

theorem sum_bounds (l : List K) (lo hi : K) (h : ∀ v ∈ l, lo ≤ v ∧ v ≤ hi) :
    (l.length : K) * lo ≤ l.sum ∧ l.sum ≤ (l.length : K) * hi := by
  induction l with
  | nil => simp
  | cons a l ih =>
    obtain ⟨h1, h2⟩ := h a (by simp)
    obtain ⟨i1, i2⟩ := ih (fun v hv => h v (by simp [hv]))
    simp only [List.length_cons, List.sum_cons, Nat.cast_add, Nat.cast_one]
    constructor <;> linarith

/-- C50: with a relaxation between 0 and 1, the values of the filled grid stay between any bounds
of the defined values, provided that 0 is between the bounds, or that the first guess is the zonal
average and each `y` has at least one defined value. -/
theorem C50_range (hw : Nat) (zsched : List Nat) (sched : Nat → Nat → List Nat) (first : Nat)
    (rows cols : Nat) (circle : Bool) (hs : (circle = true ∨ 2 ≤ rows) ∧ 2 ≤ cols) (g : Val K)
    (guess : Guess) (maxIterations : Nat) (epsilon relaxation : K) (n : Nat) (hn : n = 0 → 1 ≤ hw)
    (hr0 : 0 ≤ relaxation) (hr1 : relaxation ≤ 1) (lo hi : K)
    (hb : ∀ i j v, i < rows → j < cols → g i j = some v → lo ≤ v ∧ v ≤ hi)
    (hz : (lo ≤ 0 ∧ 0 ≤ hi) ∨
      (guess = .zonalAverage ∧ ∀ j, j < cols → ∃ i, i < rows ∧ g i j ≠ none))
    (g' : Val K) (it : Nat) (res : K)
    (h : gaussSeidel hw zsched sched first rows cols g guess circle maxIterations epsilon relaxation n =
      .ok (g', it, res)) :
    ∀ i j v, i < rows → j < cols → g' i j = some v → lo ≤ v ∧ v ≤ hi := by
  by_cases hN : hasNaN rows cols g = true
  swap
  · unfold gaussSeidel at h
    rw [if_pos (by simpa using hN)] at h
    cases h
    exact hb
  have h1 : 1 ≤ (if n = 0 then hw else n) := by split <;> omega
  have mean : ∀ j, j < cols → ((lo ≤ 0 ∧ 0 ≤ hi) ∨ ∃ i, i < rows ∧ g i j ≠ none) →
      lo ≤ firstGuess rows (undefinedMask g) g j ∧ firstGuess rows (undefinedMask g) g j ≤ hi := by
    intro j hj hcase
    have hmem : ∀ v ∈ columnValues rows (undefinedMask g) g j, lo ≤ v ∧ v ≤ hi := by
      intro v hv
      unfold columnValues at hv
      rw [List.mem_filterMap] at hv
      obtain ⟨i, hi, hv⟩ := hv
      rw [List.mem_range] at hi
      split at hv
      · cases hv
      · exact hb i j v hi hj hv
    unfold firstGuess
    simp only
    split
    · rename_i hlen
      rcases hcase with hc | ⟨i, hi, hg⟩
      · exact hc
      · exfalso
        obtain ⟨v, hv⟩ := Option.ne_none_iff_exists'.1 hg
        have : v ∈ columnValues rows (undefinedMask g) g j := by
          unfold columnValues
          rw [List.mem_filterMap]
          exact ⟨i, List.mem_range.2 hi, by simp [undefinedMask, hv]⟩
        rw [List.length_eq_zero_iff.1 hlen] at this
        cases this
    · rename_i hlen
      obtain ⟨s1, s2⟩ := sum_bounds _ lo hi hmem
      have hpos : (0 : K) < ((columnValues rows (undefinedMask g) g j).length : K) := by
        exact_mod_cast Nat.pos_of_ne_zero hlen
      rw [le_div_iff₀ hpos, div_le_iff₀ hpos]
      constructor <;> linarith
  have h0 : Bounded rows cols lo hi (guessed rows cols g guess) := by
    intro i j v hi hj hv
    cases hg : g i j with
    | some w =>
      have := undefinedMask_false hg
      have hvw : v = w := by
        cases guess <;> simp [guessed, this, hg] at hv <;> exact hv.symm
      subst hvw
      exact hb i j v hi hj hg
    | none =>
      have hm : undefinedMask g i j = true := by simp [undefinedMask, hg]
      cases guess with
      | zero =>
        simp [guessed, hm] at hv
        subst hv
        rcases hz with hz | ⟨hz, _⟩
        · exact hz
        · cases hz
      | zonalAverage =>
        simp [guessed, hm, hi, hj] at hv
        subst hv
        exact mean j hj (hz.imp id (fun hh => hh.2 j hj))
  rw [gaussSeidel_eq _ _ _ _ _ _ _ _ _ _ _ _ _ hn hN] at h
  obtain ⟨g'', it'', res'', e, ⟨p1, p2⟩, -⟩ := relaxLoop_inv hs relaxation epsilon (undefinedMask g)
    (if n = 0 then hw else n) first h1 sched
    (fun g' => Full rows cols g' ∧ Bounded rows cols lo hi g')
    (by
      rintro g' c ⟨b, a⟩ hx hy hm
      obtain ⟨w, e, s, n, v, e1, e2, e3, e4, e5, -, hu⟩ := upd_full hs b hx hy (relaxation := relaxation)
      obtain ⟨⟨a1, a2⟩, ⟨a3, a4⟩, ⟨a5, a6⟩, ⟨a7, a8⟩⟩ := neighbours_bounds hs hx hy
      obtain ⟨w1, w2⟩ := a _ _ _ (by unfold wx; omega) hy e1
      obtain ⟨x1, x2⟩ := a _ _ _ (by unfold ex; omega) hy e2
      obtain ⟨s1, s2⟩ := a _ _ _ hx (by unfold sy; omega) e3
      obtain ⟨n1, n2⟩ := a _ _ _ hx (by unfold ny; omega) e4
      obtain ⟨v1, v2⟩ := a _ _ _ hx hy e5
      rw [hu]
      constructor
      · intro i j hi hj
        unfold put
        split
        · exact ⟨_, rfl⟩
        · exact b i j hi hj
      · intro i j u hI hj hu'
        unfold put at hu'
        split at hu'
        · cases hu'
          have q1 : 0 ≤ (1 / 4 * (w + e + s + n) - lo) * relaxation :=
            mul_nonneg (by linarith) hr0
          have q2 : 0 ≤ (v - lo) * (1 - relaxation) := mul_nonneg (by linarith) (by linarith)
          have q3 : 0 ≤ (hi - 1 / 4 * (w + e + s + n)) * relaxation :=
            mul_nonneg (by linarith) hr0
          have q4 : 0 ≤ (hi - v) * (1 - relaxation) := mul_nonneg (by linarith) (by linarith)
          constructor <;> nlinarith
        · exact a i j u hI hj hu')
    maxIterations 0 (guessed rows cols g guess) 0 ⟨guessed_full rows cols g guess, h0⟩
  rw [e] at h
  cases h
  exact p2

/-- The updates of a pass change nothing when all the residuals are null. -/
theorem fold_fixed {rows cols : Nat} {circle : Bool} (hs : SizesOk rows cols circle) {relaxation : K}
    (l : List (Nat × Nat)) (g : Val K) (hg : Full rows cols g)
    (hl : ∀ c ∈ l, c.1 < rows ∧ c.2 < cols)
    (h : ∀ p ∈ resids rows cols circle relaxation g l, ∀ v, p.2 = some v → |v| ≤ 0) :
    l.foldl (upd rows cols circle relaxation) g = g ∧
      ∀ c ∈ l, resid rows cols circle relaxation g c = some 0 := by
  induction l with
  | nil => exact ⟨rfl, by simp⟩
  | cons c l ih =>
    obtain ⟨hx, hy⟩ := hl c (by simp)
    obtain ⟨w, e, s, n, v, -, -, -, -, e5, hr, hu⟩ := upd_full hs hg hx hy (relaxation := relaxation)
    have h0 : (1 / 4 * (w + e + s + n) - v) * relaxation = 0 := by
      have := h (c, resid rows cols circle relaxation g c) (by simp [resids]) _ hr
      exact abs_eq_zero.1 (le_antisymm this (abs_nonneg _))
    have hfix : upd rows cols circle relaxation g c = g := by
      rw [hu, h0, add_zero]
      funext i j
      unfold put
      split
      · rename_i hij
        rw [hij.1, hij.2, e5]
      · rfl
    have hrest := ih (fun d hd => hl d (by simp [hd])) (by
      intro p hp
      refine h p ?_
      simp only [resids, List.mem_cons]
      rw [hfix]
      exact Or.inr hp)
    refine ⟨by rw [List.foldl_cons, hfix]; exact hrest.1, ?_⟩
    intro d hd
    rcases List.mem_cons.1 hd with rfl | hd
    · rw [hr, h0]
    · exact hrest.2 d hd

/-- C50: when the residual returned is 0 (the relaxation has converged), every filled value is the
mean of its four neighbours: the grid is a solution of the discrete Laplace equation. -/
theorem C50_laplace (hw : Nat) (zsched : List Nat) (sched : Nat → Nat → List Nat) (first : Nat)
    (hf : first = 0 ∨ first = 1)
    (rows cols : Nat) (circle : Bool) (hs : (circle = true ∨ 2 ≤ rows) ∧ 2 ≤ cols) (g : Val K)
    (guess : Guess) (maxIterations : Nat) (hmax : 0 < maxIterations) (epsilon relaxation : K) (n : Nat)
    (hn : n = 0 → 1 ≤ hw) (hr : relaxation ≠ 0) (g' : Val K) (it : Nat)
    (h : gaussSeidel hw zsched sched first rows cols g guess circle maxIterations epsilon relaxation n =
      .ok (g', it, 0)) (x y : Nat) (hx : x < rows) (hy : y < cols) (hxy : g x y = none) :
    MeanOfNeighbours rows cols circle g' x y := by
  have hN : hasNaN rows cols g = true := by
    simp only [hasNaN, List.any_eq_true, List.mem_range]
    exact ⟨x, hx, y, hy, by simp [hxy]⟩
  have h1 : 1 ≤ (if n = 0 then hw else n) := by split <;> omega
  rw [gaussSeidel_eq _ _ _ _ _ _ _ _ _ _ _ _ _ hn hN] at h
  generalize (if n = 0 then hw else n) = n at *
  have hm : undefinedMask g x y = true := by simp [undefinedMask, hxy]
  generalize undefinedMask g = mask at *
  have hfull := guessed_full rows cols g guess
  generalize guessed rows cols g guess = g0 at *
  -- the last iteration
  have key : ∀ k it0 (g0 : Val K) (res0 : K), Full rows cols g0 → 0 < k →
      relaxLoop rows cols circle relaxation epsilon mask n first sched k it0 g0 res0 = .ok (g', it, 0) →
      Full rows cols g' ∧ resid rows cols circle relaxation g' (x, y) = some 0 := by
    intro k
    induction k with
    | zero => intro _ _ _ _ h; omega
    | succ k ih =>
      intro it0 g0 res0 hg0 _ h
      have fold : ∀ (l : List (Nat × Nat)) g, Full rows cols g → (∀ c ∈ l, c.1 < rows ∧ c.2 < cols) →
          Full rows cols (l.foldl (upd rows cols circle relaxation) g) := by
        intro l
        induction l with
        | nil => intro g hg _; exact hg
        | cons c l ih =>
          intro g hg hc
          obtain ⟨a, b⟩ := hc c (by simp)
          refine ih _ ?_ (fun e he => hc e (by simp [he]))
          obtain ⟨w, e, s, n, v, -, -, -, -, -, -, hu⟩ := upd_full hs hg a b (relaxation := relaxation)
          rw [hu]
          intro i j hi hj
          unfold put
          split
          · exact ⟨_, rfl⟩
          · exact hg i j hi hj
      obtain ⟨l, m, e, hl, -, hb⟩ := calculate_eq hs relaxation mask n h1 (sched it0 0) first g0
      have f1 := fold l g0 hg0 (fun c hc => ⟨((hl c).1 hc).1, ((hl c).1 hc).2.1⟩)
      obtain ⟨l', m', e', hl', -, hb'⟩ := calculate_eq hs relaxation mask n h1 (sched it0 1) (1 - first)
        (l.foldl (upd rows cols circle relaxation) g0)
      have f2 := fold l' _ f1 (fun c hc => ⟨((hl' c).1 hc).1, ((hl' c).1 hc).2.1⟩)
      -- a last iteration with a null residual
      have last : max m m' = 0 → l'.foldl (upd rows cols circle relaxation)
          (l.foldl (upd rows cols circle relaxation) g0) = g' →
          Full rows cols g' ∧ resid rows cols circle relaxation g' (x, y) = some 0 := by
        intro hmm hgg
        have hm0 : m ≤ 0 := hmm ▸ le_max_left _ _
        have hm1 : m' ≤ 0 := hmm ▸ le_max_right _ _
        obtain ⟨a1, a2⟩ := fold_fixed hs l g0 hg0 (fun c hc => ⟨((hl c).1 hc).1, ((hl c).1 hc).2.1⟩)
          ((hb 0).1 hm0).2
        rw [a1] at hb' hgg
        obtain ⟨b1, b2⟩ := fold_fixed hs l' g0 hg0 (fun c hc => ⟨((hl' c).1 hc).1, ((hl' c).1 hc).2.1⟩)
          ((hb' 0).1 hm1).2
        rw [b1] at hgg
        subst hgg
        refine ⟨hg0, ?_⟩
        by_cases hp : (x + y) % 2 = first
        · exact a2 (x, y) ((hl (x, y)).2 ⟨hx, hy, hm, hp⟩)
        · exact b2 (x, y) ((hl' (x, y)).2 ⟨hx, hy, hm, by rcases hf with rfl | rfl <;> dsimp only <;> omega⟩)
      unfold relaxLoop iterate at h
      simp only [e, e', bind, Except.bind] at h
      split at h
      · injection h with h
        injection h with hg hrest
        injection hrest with _ hres
        exact last hres hg
      · cases k with
        | zero =>
          simp only [relaxLoop] at h
          injection h with h
          injection h with hg hrest
          injection hrest with _ hres
          exact last hres hg
        | succ k => exact ih _ _ _ f2 (by omega) h
  obtain ⟨hF, hR⟩ := key _ _ _ _ hfull hmax h
  obtain ⟨w, e, s, n', v, e1, e2, e3, e4, e5, er, -⟩ := upd_full (c := (x, y)) hs hF hx hy (relaxation := relaxation)
  dsimp only at e1 e2 e3 e4 e5
  rw [er] at hR
  have hz : 1 / 4 * (w + e + s + n') - v = 0 := by
    rcases mul_eq_zero.1 (Option.some.inj hR) with hz | hz
    · exact hz
    · exact absurd hz hr
  refine ⟨w, e, s, n', wx circle rows x, ex circle rows x, sy cols y, ny cols y, ?_, ?_, ?_, ?_, e1, e2,
    e3, e4, ?_⟩
  · refine Or.inl ⟨rfl, rfl, ?_⟩
    obtain ⟨⟨a1, a2⟩, -⟩ := neighbours_bounds hs hx hy
    unfold wx
    unfold xNeighbours at a1 a2 ⊢
    dsimp only at a1 a2 ⊢
    split
    · rename_i h0
      rw [if_pos h0] at a1 a2
      cases circle
      · right; right; right
        simp only [Bool.false_eq_true, if_false] at a1 a2 ⊢
        refine ⟨trivial, by omega, by omega⟩
      · right; left
        simp only [if_true] at a1 a2 ⊢
        refine ⟨trivial, by omega, by omega⟩
    · left; omega
  · refine Or.inl ⟨rfl, rfl, ?_⟩
    obtain ⟨-, ⟨a1, a2⟩, -⟩ := neighbours_bounds hs hx hy
    unfold ex
    unfold xNeighbours at a1 a2 ⊢
    dsimp only at a1 a2 ⊢
    split
    · rename_i h0
      rw [if_pos h0] at a1 a2
      cases circle
      · right; right; right
        simp only [Bool.false_eq_true, if_false] at a1 a2 ⊢
        refine ⟨trivial, by omega, by omega⟩
      · right; right; left
        simp only [if_true] at a1 a2 ⊢
        refine ⟨trivial, by omega, by omega⟩
    · left; omega
  · refine Or.inr ⟨rfl, rfl, ?_⟩
    obtain ⟨-, -, ⟨a1, a2⟩, -⟩ := neighbours_bounds hs hx hy
    unfold sy
    unfold yNeighbours at a1 a2 ⊢
    dsimp only at a1 a2 ⊢
    split
    · right; omega
    · left; omega
  · refine Or.inr ⟨rfl, rfl, ?_⟩
    obtain ⟨-, -, -, a1, a2⟩ := neighbours_bounds hs hx hy
    unfold ny
    unfold yNeighbours at a1 a2 ⊢
    dsimp only at a1 a2 ⊢
    split
    · right; omega
    · left; omega
  · rw [e5]
    congr 1
    linarith

section Examples

/-- A 3 x 3 grid with a hole in the middle and one in a corner. -/
def exGrid : Val ℚ := fun i j =>
  if (i = 1 ∧ j = 1) ∨ (i = 0 ∧ j = 2) then none else some ((i : ℚ) + 4 * j)

/- Non vacuity of `C50_result`, `C50_schedule`, `C50_range`: the filled values. -/
example : (gaussSeidel 4 [] (fun _ _ => [1, 0]) 0 3 3 exGrid .zonalAverage false 2 0 1 2).map
    (fun r => (r.1 1 1, r.1 0 2, r.1 0 0, r.2)) = .ok (some 5, some (13 / 2), some 0, 2, 0) := by
  decide +kernel

/-- C50, the part that fails: a grid with one single `x` that is not a circle makes the code read
outside of the grid. -/
theorem C50_one_row_false :
    (gaussSeidel 4 [] (fun _ _ => []) 0 1 3 (fun i j => if j = 1 then none else some (1 : ℚ)) .zero false
      1 0 1 1).map (fun r => r.1 0 1) = .error .ub := by decide +kernel

/-- C50, the part that fails: with the first guess 0 the values filled leave the range of the data
(all the defined values are 8). -/
theorem C50_range_zero_false :
    (gaussSeidel 4 [] (fun _ _ => []) 0 2 2 (fun i j => if i = 0 then none else some (8 : ℚ)) .zero false
      1 0 1 1).map (fun r => r.1 0 0) = .ok (some 4) := by decide +kernel

end Examples

end Pyinterp.GaussSeidel
