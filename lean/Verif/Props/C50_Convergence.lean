import Verif.Lemmas.GaussSeidelEnergy

/-
**C50** (continued) The relaxation converges, and what "converged" means.
-/
namespace Pyinterp.GaussSeidel
open Spec
set_option linter.unusedSectionVars false
set_option linter.unusedVariables false

variable {K : Type} [Field K] [LinearOrder K] [IsStrictOrderedRing K]

/-- An iteration: the energy decreases, and a residual that is not smaller than `b` has a cost. -/
theorem iterate_energy {rows cols : Nat} {circle : Bool} (hs : SizesOk rows cols circle) {relaxation : K}
    (h0 : 0 < relaxation) (h2 : relaxation ≤ 2) (mask : Nat → Nat → Bool) (n first : Nat) (hn : 1 ≤ n)
    (sched : Nat → List Nat) (g : Val K) (hg : Full rows cols g) :
    ∃ g' res, iterate rows cols circle relaxation mask n first sched g = .ok (g', res) ∧ Full rows cols g' ∧
      ∀ b, 0 < b → b ≤ res → energy rows cols circle (vals g') ≤
        energy rows cols circle (vals g) - (2 - relaxation) / relaxation * b ^ 2 := by
  obtain ⟨l, m, e, hl, -, hb⟩ := calculate_eq hs relaxation mask n hn (sched 0) first g
  obtain ⟨f1, E1, R1⟩ := energy_fold hs h0 h2 l g hg (fun c hc => ⟨((hl c).1 hc).1, ((hl c).1 hc).2.1⟩)
  obtain ⟨l', m', e', hl', -, hb'⟩ := calculate_eq hs relaxation mask n hn (sched 1) (1 - first)
    (l.foldl (upd rows cols circle relaxation) g)
  obtain ⟨f2, E2, R2⟩ := energy_fold hs h0 h2 l' _ f1 (fun c hc => ⟨((hl' c).1 hc).1, ((hl' c).1 hc).2.1⟩)
  refine ⟨_, max m m', by unfold iterate; simp only [e, e', bind, Except.bind], f2, ?_⟩
  intro b b0 hbr
  have hk : 0 ≤ (2 - relaxation) / relaxation := div_nonneg (by linarith) h0.le
  -- a residual at least as large as `b`
  have find : ∀ (g : Val K) (l : List (Nat × Nat)) (m : K),
      (∀ b, m ≤ b ↔ 0 ≤ b ∧ ∀ p ∈ resids rows cols circle relaxation g l, ∀ v, p.2 = some v → |v| ≤ b) →
      b ≤ m → ∃ p ∈ resids rows cols circle relaxation g l, ∃ v, p.2 = some v ∧ b ^ 2 ≤ v ^ 2 := by
    intro g l m hm hbm
    by_contra hcon
    push Not at hcon
    -- the largest residual is smaller than b
    have hlt : ∀ p ∈ resids rows cols circle relaxation g l, ∀ v, p.2 = some v → |v| < b := by
      intro p hp v hv
      have := hcon p hp v hv
      exact abs_lt_of_sq_lt_sq this b0.le
    have : ∃ b', 0 ≤ b' ∧ b' < b ∧ ∀ p ∈ resids rows cols circle relaxation g l, ∀ v, p.2 = some v → |v| ≤ b' := by
      generalize resids rows cols circle relaxation g l = rs at hlt
      clear hcon hm
      induction rs with
      | nil => exact ⟨0, le_refl _, b0, by simp⟩
      | cons p rs ih =>
        obtain ⟨b', p1, p2, p3⟩ := ih (fun q hq => hlt q (by simp [hq]))
        cases hv : p.2 with
        | none =>
          refine ⟨b', p1, p2, ?_⟩
          intro q hq v hqv
          rcases List.mem_cons.1 hq with rfl | hq
          · rw [hv] at hqv; cases hqv
          · exact p3 q hq v hqv
        | some u =>
          refine ⟨max b' |u|, le_max_of_le_left p1, max_lt p2 (hlt p (by simp) u hv), ?_⟩
          intro q hq v hqv
          rcases List.mem_cons.1 hq with rfl | hq
          · rw [hv] at hqv; cases hqv
            exact le_max_right _ _
          · exact (p3 q hq v hqv).trans (le_max_left _ _)
    obtain ⟨b', p1, p2, p3⟩ := this
    have := (hm b').2 ⟨p1, p3⟩
    linarith
  rcases le_max_iff.1 hbr with h | h
  · obtain ⟨p, hp, v, hv, hbv⟩ := find _ _ _ hb h
    have := R1 p hp v hv
    have := mul_le_mul_of_nonneg_left hbv hk
    linarith
  · obtain ⟨p, hp, v, hv, hbv⟩ := find _ _ _ hb' h
    have := R2 p hp v hv
    have := mul_le_mul_of_nonneg_left hbv hk
    linarith

/-- The loop stops with a small residual as soon as enough iterations are allowed. -/
theorem relaxLoop_converges {rows cols : Nat} {circle : Bool} (hs : SizesOk rows cols circle)
    {relaxation epsilon : K} (h0 : 0 < relaxation) (h2 : relaxation < 2) (he : 0 < epsilon)
    (mask : Nat → Nat → Bool) (n first : Nat) (hn : 1 ≤ n) (sched : Nat → Nat → List Nat) (k : Nat) :
    ∀ it (g : Val K) (res : K), Full rows cols g →
      energy rows cols circle (vals g) < (k : K) * ((2 - relaxation) / relaxation * epsilon ^ 2) →
      ∀ extra, ∃ g' it' res', relaxLoop rows cols circle relaxation epsilon mask n first sched (k + extra) it g res =
        .ok (g', it', res') ∧ res' < epsilon ∧ it < it' := by
  induction k with
  | zero =>
    intro it g res hg hE
    have := energy_nonneg rows cols circle (vals g)
    simp only [Nat.cast_zero, zero_mul] at hE
    linarith
  | succ k ih =>
    intro it g res hg hE extra
    obtain ⟨g', r, e, hF, hcost⟩ := iterate_energy hs h0 h2.le mask n first hn (sched it) g hg
    rw [show k + 1 + extra = (k + extra) + 1 by omega]
    unfold relaxLoop
    simp only [e, bind, Except.bind]
    by_cases hr : r < epsilon
    · rw [if_pos hr]
      exact ⟨_, _, _, rfl, hr, by omega⟩
    · rw [if_neg hr]
      have := hcost epsilon he (not_lt.1 hr)
      push_cast at hE
      obtain ⟨a, b, c, d1, d2, d3⟩ := ih (it + 1) g' r hF (by linarith) extra
      exact ⟨a, b, c, d1, d2, by omega⟩

/-- **C50** The relaxation converges: for a relaxation constant strictly between 0 and 2 and any
positive tolerance there is a number of iterations after which the function, with any number of
threads and whatever the schedule, stops with a residual smaller than the tolerance. -/
theorem C50_converges [Archimedean K] (rows cols : Nat) (circle : Bool)
    (hs : (circle = true ∨ 2 ≤ rows) ∧ 2 ≤ cols) (g : Val K) (guess : Guess) (epsilon relaxation : K)
    (h0 : 0 < relaxation) (h2 : relaxation < 2) (he : 0 < epsilon) :
    ∃ N : Nat, ∀ maxIterations, N ≤ maxIterations → ∀ (hw : Nat) (zsched : List Nat)
      (sched : Nat → Nat → List Nat) (first n : Nat), (n = 0 → 1 ≤ hw) →
      ∃ g' it res, gaussSeidel hw zsched sched first rows cols g guess circle maxIterations epsilon relaxation n =
        .ok (g', it, res) ∧ res < epsilon := by
  by_cases hN : hasNaN rows cols g = true
  swap
  · refine ⟨0, fun maxIterations _ hw zsched sched first n _ => ⟨g, 0, 0, ?_, he⟩⟩
    unfold gaussSeidel
    rw [if_pos (by simpa using hN)]
  have hk : 0 < (2 - relaxation) / relaxation * epsilon ^ 2 :=
    mul_pos (div_pos (by linarith) h0) (by positivity)
  obtain ⟨N, hNe⟩ := exists_nat_gt
    (energy rows cols circle (vals (guessed rows cols g guess)) / ((2 - relaxation) / relaxation * epsilon ^ 2))
  rw [div_lt_iff₀ hk] at hNe
  refine ⟨N, fun maxIterations hM hw zsched sched first n hn => ?_⟩
  have h1 : 1 ≤ (if n = 0 then hw else n) := by split <;> omega
  rw [gaussSeidel_eq _ _ _ _ _ _ _ _ _ _ _ _ _ hn hN]
  obtain ⟨g', it, res, e, hr, -⟩ := relaxLoop_converges hs h0 h2 he (undefinedMask g) _ first h1 sched N 0
    (guessed rows cols g guess) 0 (guessed_full rows cols g guess) hNe (maxIterations - N)
  rw [show N + (maxIterations - N) = maxIterations by omega] at e
  exact ⟨g', it, res, e, hr⟩

/-- The indexes of the neighbours. -/
theorem neighbours_spec {rows cols : Nat} {circle : Bool} (hs : SizesOk rows cols circle) {x y : Nat}
    (hx : x < rows) (hy : y < cols) :
    Neighbour rows cols circle x y (wx circle rows x) y (-1) 0 ∧
    Neighbour rows cols circle x y (ex circle rows x) y 1 0 ∧
    Neighbour rows cols circle x y x (sy cols y) 0 (-1) ∧ Neighbour rows cols circle x y x (ny cols y) 0 1 := by
  refine ⟨?_, ?_, ?_, ?_⟩
  · refine Or.inl ⟨rfl, rfl, ?_⟩
    obtain ⟨⟨a1, a2⟩, -⟩ := neighbours_bounds hs hx hy
    unfold wx
    unfold xNeighbours at a1 a2 ⊢
    dsimp only at a1 a2 ⊢
    split
    · rename_i h0
      rw [if_pos h0] at a1 a2
      cases circle
      · right; right; right
        simp only [Bool.false_eq_true, if_false] at a1 a2 ⊢
        refine ⟨trivial, by omega, by omega⟩
      · right; left
        simp only [if_true] at a1 a2 ⊢
        refine ⟨trivial, by omega, by omega⟩
    · left; omega
  · refine Or.inl ⟨rfl, rfl, ?_⟩
    obtain ⟨-, ⟨a1, a2⟩, -⟩ := neighbours_bounds hs hx hy
    unfold ex
    unfold xNeighbours at a1 a2 ⊢
    dsimp only at a1 a2 ⊢
    split
    · rename_i h0
      rw [if_pos h0] at a1 a2
      cases circle
      · right; right; right
        simp only [Bool.false_eq_true, if_false] at a1 a2 ⊢
        refine ⟨trivial, by omega, by omega⟩
      · right; right; left
        simp only [if_true] at a1 a2 ⊢
        refine ⟨trivial, by omega, by omega⟩
    · left; omega
  · refine Or.inr ⟨rfl, rfl, ?_⟩
    obtain ⟨-, -, ⟨a1, a2⟩, -⟩ := neighbours_bounds hs hx hy
    unfold sy
    unfold yNeighbours at a1 a2 ⊢
    dsimp only at a1 a2 ⊢
    split
    · right; omega
    · left; omega
  · refine Or.inr ⟨rfl, rfl, ?_⟩
    obtain ⟨-, -, -, a1, a2⟩ := neighbours_bounds hs hx hy
    unfold ny
    unfold yNeighbours at a1 a2 ⊢
    dsimp only at a1 a2 ⊢
    split
    · right; omega
    · left; omega

/-- A pass updates a cell at most once. -/
theorem rowCells_nodup (rows : Nat) (mask : Nat → Nat → Bool) (rb y : Nat) : (rowCells rows mask rb y).Nodup := by
  unfold rowCells
  rw [List.nodup_flatMap]
  refine ⟨fun ix _ => by split <;> simp, ?_⟩
  refine List.nodup_range.imp ?_
  intro a b hab c hc hc'
  dsimp only at hc hc'
  split at hc
  · split at hc'
    · simp only [List.mem_singleton] at hc hc'
      exact hab (by rw [hc] at hc'; exact (Prod.mk.inj hc').1)
    · simp at hc'
  · simp at hc

theorem pass_nodup {cols : Nat} {rows : Nat} {mask : Nat → Nat → Bool} {rb : Nat} {l : List (Nat × Nat)}
    (hl : ∀ c ∈ l, c.2 < cols)
    (h : ∀ y, y < cols → (l.filter fun c => decide (c.2 = y)) = rowCells rows mask rb y) : l.Nodup := by
  rw [List.nodup_iff_count_le_one]
  intro c
  by_cases hc : c ∈ l
  · have e : (l.filter fun d => decide (d.2 = c.2)).count c = l.count c :=
      List.count_filter (by simp)
    rw [← e, h c.2 (hl c hc)]
    exact List.nodup_iff_count_le_one.1 (rowCells_nodup _ _ _ _) c
  · rw [List.count_eq_zero_of_not_mem hc]; omega

/-- With residuals of at most `b` each value moves by at most `b`. -/
theorem fold_close {rows cols : Nat} {circle : Bool} (hs : SizesOk rows cols circle) {relaxation : K} {b : K}
    (hb : 0 ≤ b) (l : List (Nat × Nat)) (hn : l.Nodup) (g : Val K) (hg : Full rows cols g)
    (hl : ∀ c ∈ l, c.1 < rows ∧ c.2 < cols)
    (h : ∀ p ∈ resids rows cols circle relaxation g l, ∀ v, p.2 = some v → |v| ≤ b) :
    Full rows cols (l.foldl (upd rows cols circle relaxation) g) ∧
    ∀ i j v, g i j = some v → ∃ v', l.foldl (upd rows cols circle relaxation) g i j = some v' ∧ |v' - v| ≤ b := by
  induction l generalizing g with
  | nil => exact ⟨hg, fun i j v hv => ⟨v, hv, by simpa using hb⟩⟩
  | cons c l ih =>
    obtain ⟨hx, hy⟩ := hl c (by simp)
    obtain ⟨hcl, hn'⟩ := List.nodup_cons.1 hn
    obtain ⟨w, e, s, n, v0, -, -, -, -, e5, er, hu⟩ := upd_full hs hg hx hy (relaxation := relaxation)
    have hF : Full rows cols (upd rows cols circle relaxation g c) := by
      rw [hu]
      intro i j hi hj
      unfold put
      split
      · exact ⟨_, rfl⟩
      · exact hg i j hi hj
    have hres : ∀ p ∈ resids rows cols circle relaxation (upd rows cols circle relaxation g c) l,
        ∀ v, p.2 = some v → |v| ≤ b := by
      intro p hp
      exact h p (by simp only [resids, List.mem_cons]; exact Or.inr hp)
    obtain ⟨i1, i2⟩ := ih hn' _ hF (fun d hd => hl d (by simp [hd])) hres
    refine ⟨i1, ?_⟩
    intro i j v hv
    rw [List.foldl_cons]
    by_cases hij : i = c.1 ∧ j = c.2
    · obtain ⟨rfl, rfl⟩ := hij
      rw [foldl_upd_out l _ (fun d hd hdc => hcl (by rw [← show d = c from hdc]; exact hd)), hu]
      unfold put
      rw [if_pos ⟨rfl, rfl⟩]
      rw [e5] at hv
      cases hv
      refine ⟨_, rfl, ?_⟩
      have := h (c, resid rows cols circle relaxation g c) (by simp [resids]) _ er
      simpa using this
    · refine i2 i j v ?_
      rw [hu]
      unfold put
      rw [if_neg hij]
      exact hv

theorem resids_append {rows cols : Nat} {circle : Bool} {relaxation : K} (l l' : List (Nat × Nat)) (g : Val K) :
    resids rows cols circle relaxation g (l ++ l') = resids rows cols circle relaxation g l ++
      resids rows cols circle relaxation (l.foldl (upd rows cols circle relaxation) g) l' := by
  induction l generalizing g with
  | nil => rfl
  | cons c l ih => simp only [List.cons_append, resids, List.foldl_cons, ih]

/-- After an iteration whose residuals are at most `b`, the values updated are near the mean of their
neighbours. -/
theorem fold_near {rows cols : Nat} {circle : Bool} (hs : SizesOk rows cols circle) {relaxation : K}
    (hr : relaxation ≠ 0) {b : K} (hb : 0 ≤ b) (l : List (Nat × Nat)) (hn : l.Nodup) (g : Val K)
    (hg : Full rows cols g) (hl : ∀ c ∈ l, c.1 < rows ∧ c.2 < cols)
    (h : ∀ p ∈ resids rows cols circle relaxation g l, ∀ v, p.2 = some v → |v| ≤ b) (x y : Nat)
    (hc : (x, y) ∈ l) :
    NearMeanOfNeighbours rows cols circle (l.foldl (upd rows cols circle relaxation) g) x y
      (b * (1 + |1 - relaxation| / |relaxation|)) := by
  obtain ⟨A, B, rfl⟩ := List.append_of_mem hc
  rw [resids_append] at h
  have hnA : A.Nodup := (List.nodup_append.1 hn).1
  have hnB : ((x, y) :: B).Nodup := (List.nodup_append.1 hn).2.1
  obtain ⟨hF, -⟩ := fold_close hs hb A hnA g hg (fun c hc => hl c (by simp [hc]))
    (fun p hp => h p (List.mem_append_left _ hp))
  rw [List.foldl_append]
  generalize A.foldl (upd rows cols circle relaxation) g = g1 at *
  obtain ⟨hx, hy⟩ := hl (x, y) (by simp)
  dsimp only at hx hy
  have hB := fun p hp => h p (List.mem_append_right _ hp)
  obtain ⟨-, hclose⟩ := fold_close hs hb ((x, y) :: B) hnB g1 hF (fun c hc => hl c (List.mem_append_right _ hc)) hB
  obtain ⟨w, e, s, n, v, e1, e2, e3, e4, e5, er, hu⟩ := upd_full (c := (x, y)) hs hF hx hy (relaxation := relaxation)
  dsimp only at e1 e2 e3 e4 e5
  have hδ := hB ((x, y), resid rows cols circle relaxation g1 (x, y)) (by simp [resids]) _ er
  obtain ⟨w', f1, c1⟩ := hclose _ _ _ e1
  obtain ⟨e', f2, c2⟩ := hclose _ _ _ e2
  obtain ⟨s', f3, c3⟩ := hclose _ _ _ e3
  obtain ⟨n', f4, c4⟩ := hclose _ _ _ e4
  obtain ⟨n1, n2, n3, n4⟩ := neighbours_spec hs hx hy
  have f5 : ((x, y) :: B).foldl (upd rows cols circle relaxation) g1 x y =
      some (v + (1 / 4 * (w + e + s + n) - v) * relaxation) := by
    have hcB := (List.nodup_cons.1 hnB).1
    rw [List.foldl_cons, foldl_upd_out B _ (fun d hd hdc => hcB (by rw [← show d = (x, y) from hdc]; exact hd)), hu]
    unfold put
    rw [if_pos ⟨rfl, rfl⟩]
  refine ⟨w', e', s', n', _, _, _, _, _, n1, n2, n3, n4, f1, f2, f3, f4, f5, ?_⟩
  set δ := (1 / 4 * (w + e + s + n) - v) * relaxation with hd
  have key : (w' + e' + s' + n') / 4 - (v + δ) =
      ((w' - w) + (e' - e) + (s' - s) + (n' - n)) / 4 + δ * ((1 - relaxation) / relaxation) := by
    rw [hd]; field_simp; ring
  rw [key]
  have t1 : |((w' - w) + (e' - e) + (s' - s) + (n' - n)) / 4| ≤ b := by
    rw [abs_le] at c1 c2 c3 c4 ⊢
    constructor <;> linarith [c1.1, c1.2, c2.1, c2.2, c3.1, c3.2, c4.1, c4.2]
  have t2 : |δ * ((1 - relaxation) / relaxation)| ≤ b * (|1 - relaxation| / |relaxation|) := by
    rw [abs_mul, abs_div]
    exact mul_le_mul_of_nonneg_right hδ (div_nonneg (abs_nonneg _) (abs_nonneg _))
  calc _ ≤ _ := abs_add_le _ _
    _ ≤ b + b * (|1 - relaxation| / |relaxation|) := add_le_add t1 t2
    _ = _ := by ring

/-- **C50** What the residual returned means: every value filled differs from the mean of its four
neighbours by at most `(1 + |1 - ω|/|ω|)` times the residual, `ω` being the relaxation constant. -/
theorem C50_residual (hw : Nat) (zsched : List Nat) (sched : Nat → Nat → List Nat) (first : Nat)
    (hf : first = 0 ∨ first = 1)
    (rows cols : Nat) (circle : Bool) (hs : (circle = true ∨ 2 ≤ rows) ∧ 2 ≤ cols) (g : Val K)
    (guess : Guess) (maxIterations : Nat) (hmax : 0 < maxIterations) (epsilon relaxation : K) (n : Nat)
    (hn : n = 0 → 1 ≤ hw) (hr : relaxation ≠ 0) (g' : Val K) (it : Nat) (res : K)
    (h : gaussSeidel hw zsched sched first rows cols g guess circle maxIterations epsilon relaxation n =
      .ok (g', it, res)) (x y : Nat) (hx : x < rows) (hy : y < cols) (hxy : g x y = none) :
    NearMeanOfNeighbours rows cols circle g' x y (res * (1 + |1 - relaxation| / |relaxation|)) := by
  have hN : hasNaN rows cols g = true := by
    simp only [hasNaN, List.any_eq_true, List.mem_range]
    exact ⟨x, hx, y, hy, by simp [hxy]⟩
  have h1 : 1 ≤ (if n = 0 then hw else n) := by split <;> omega
  rw [gaussSeidel_eq _ _ _ _ _ _ _ _ _ _ _ _ _ hn hN] at h
  generalize (if n = 0 then hw else n) = n at *
  have hm : undefinedMask g x y = true := by simp [undefinedMask, hxy]
  generalize undefinedMask g = mask at *
  have hfull := guessed_full rows cols g guess
  generalize guessed rows cols g guess = g0 at *
  have key : ∀ k it0 (g0 : Val K) (res0 : K), Full rows cols g0 → 0 < k →
      relaxLoop rows cols circle relaxation epsilon mask n first sched k it0 g0 res0 = .ok (g', it, res) →
      NearMeanOfNeighbours rows cols circle g' x y (res * (1 + |1 - relaxation| / |relaxation|)) := by
    intro k
    induction k with
    | zero => intro _ _ _ _ h; omega
    | succ k ih =>
      intro it0 g0 res0 hg0 _ h
      obtain ⟨l, m, e, hl, hrow, hb⟩ := calculate_eq hs relaxation mask n h1 (sched it0 0) first g0
      obtain ⟨l', m', e', hl', hrow', hb'⟩ := calculate_eq hs relaxation mask n h1 (sched it0 1) (1 - first)
        (l.foldl (upd rows cols circle relaxation) g0)
      have in1 : ∀ c ∈ l ++ l', c.1 < rows ∧ c.2 < cols := by
        intro c hc
        rcases List.mem_append.1 hc with hc | hc
        · exact ⟨((hl c).1 hc).1, ((hl c).1 hc).2.1⟩
        · exact ⟨((hl' c).1 hc).1, ((hl' c).1 hc).2.1⟩
      have hnd : (l ++ l').Nodup := by
        rw [List.nodup_append]
        refine ⟨pass_nodup (fun c hc => ((hl c).1 hc).2.1) hrow, pass_nodup (fun c hc => ((hl' c).1 hc).2.1) hrow', ?_⟩
        intro a ha c hc hac
        have p1 := ((hl a).1 ha).2.2.2
        have p2 := ((hl' c).1 hc).2.2.2
        rw [hac] at p1
        omega
      have hbnd : 0 ≤ max m m' ∧ ∀ p ∈ resids rows cols circle relaxation g0 (l ++ l'), ∀ v, p.2 = some v →
          |v| ≤ max m m' := by
        obtain ⟨q1, q2⟩ := (hb (max m m')).1 (le_max_left _ _)
        obtain ⟨q3, q4⟩ := (hb' (max m m')).1 (le_max_right _ _)
        refine ⟨q1, ?_⟩
        intro p hp
        rw [resids_append] at hp
        rcases List.mem_append.1 hp with hp | hp
        · exact q2 p hp
        · exact q4 p hp
      obtain ⟨f2, -⟩ := fold_close hs hbnd.1 (l ++ l') hnd g0 hg0 in1 hbnd.2
      have hmem : (x, y) ∈ l ++ l' := by
        rw [List.mem_append]
        by_cases hp : (x + y) % 2 = first
        · exact Or.inl ((hl (x, y)).2 ⟨hx, hy, hm, hp⟩)
        · exact Or.inr ((hl' (x, y)).2 ⟨hx, hy, hm, by rcases hf with rfl | rfl <;> dsimp only <;> omega⟩)
      have last := fold_near hs hr hbnd.1 (l ++ l') hnd g0 hg0 in1 hbnd.2 x y hmem
      rw [List.foldl_append] at last f2
      unfold relaxLoop iterate at h
      simp only [e, e', bind, Except.bind] at h
      split at h
      · injection h with h
        injection h with hg hrest
        injection hrest with _ hres
        rw [← hg, ← hres]; exact last
      · cases k with
        | zero =>
          simp only [relaxLoop] at h
          injection h with h
          injection h with hg hrest
          injection hrest with _ hres
          rw [← hg, ← hres]; exact last
        | succ k => exact ih _ _ _ f2 (by omega) h
  exact key _ _ _ _ hfull hmax h

/-- **C50** The result converged is near the solution: with a relaxation constant strictly between 0 and 2, any
positive tolerance and enough iterations, the filled values satisfy the discrete Laplace equation up to
the tolerance. -/
theorem C50_converges_laplace [Archimedean K] (rows cols : Nat) (circle : Bool)
    (hs : (circle = true ∨ 2 ≤ rows) ∧ 2 ≤ cols) (g : Val K) (guess : Guess) (tol relaxation : K)
    (h0 : 0 < relaxation) (h2 : relaxation < 2) (ht : 0 < tol) :
    ∃ epsilon > 0, ∃ N : Nat, ∀ maxIterations, N ≤ maxIterations → ∀ (hw : Nat) (zsched : List Nat)
      (sched : Nat → Nat → List Nat) (first n : Nat), (n = 0 → 1 ≤ hw) → (first = 0 ∨ first = 1) →
      ∃ g' it res, gaussSeidel hw zsched sched first rows cols g guess circle maxIterations epsilon relaxation n =
        .ok (g', it, res) ∧ ∀ x y, x < rows → y < cols → g x y = none →
          NearMeanOfNeighbours rows cols circle g' x y tol := by
  have hc : 0 < 1 + |1 - relaxation| / |relaxation| :=
    add_pos_of_pos_of_nonneg one_pos (div_nonneg (abs_nonneg _) (abs_nonneg _))
  refine ⟨tol / (1 + |1 - relaxation| / |relaxation|), div_pos ht hc, ?_⟩
  obtain ⟨N, hN⟩ := C50_converges rows cols circle hs g guess (tol / (1 + |1 - relaxation| / |relaxation|))
    relaxation h0 h2 (div_pos ht hc)
  refine ⟨max N 1, fun maxIterations hM hw zsched sched first n hn hf => ?_⟩
  obtain ⟨g', it, res, e, hr⟩ := hN maxIterations ((le_max_left _ _).trans hM) hw zsched sched first n hn
  refine ⟨g', it, res, e, fun x y hx hy hxy => ?_⟩
  obtain ⟨w, e1, s, n1, v, x1, x2, y1, y2, p⟩ := C50_residual hw zsched sched first hf rows cols circle hs g guess
    maxIterations (by have := (le_max_right N 1).trans hM; omega) _ relaxation n hn h0.ne' g' it res e x y hx hy hxy
  refine ⟨w, e1, s, n1, v, x1, x2, y1, y2, p.1, p.2.1, p.2.2.1, p.2.2.2.1, p.2.2.2.2.1, p.2.2.2.2.2.1,
    p.2.2.2.2.2.2.1, p.2.2.2.2.2.2.2.1, p.2.2.2.2.2.2.2.2.1, p.2.2.2.2.2.2.2.2.2.trans ?_⟩
  rw [lt_div_iff₀ hc] at hr
  exact hr.le

section Examples

/- Non vacuity: the relaxation constant 3/2, a grid with two holes. -/
example : ∃ N : Nat, ∀ maxIterations, N ≤ maxIterations → ∀ (hw : Nat) (zsched : List Nat)
    (sched : Nat → Nat → List Nat) (first n : Nat), (n = 0 → 1 ≤ hw) →
    ∃ g' it res, gaussSeidel hw zsched sched first 3 3 exGrid .zero false maxIterations (1 / 100) (3 / 2) n =
      .ok (g', it, res) ∧ res < 1 / 100 :=
  C50_converges 3 3 false ⟨Or.inr (by decide), by decide⟩ exGrid .zero (1 / 100) (3 / 2) (by norm_num) (by norm_num)
    (by norm_num)

/- The hypotheses of `C50_residual`: after 3 iterations the residual is not null. -/
example : (gaussSeidel 4 [] (fun _ _ => [1, 0]) 0 3 3 exGrid .zero false 3 0 (3 / 2) 2).map
    (fun r => (r.1 1 1, r.1 0 2, r.2)) = .ok (some (45 / 8), some (117 / 16), 3, 39 / 16) := by decide +kernel

/-- A grid of 2 x 2 cells with the value `a` in a corner and 1 elsewhere. -/
def corner (a : ℚ) : Val ℚ := fun i j => if i = 0 ∧ j = 0 then some a else some 1

theorem corner_iterate (sched : Nat → List Nat) (hs : ∀ k, sched k = []) (a : ℚ) :
    iterate 2 2 false 2 (fun i j => decide (i = 0 ∧ j = 0)) 1 0 sched (corner a) =
      .ok (corner (2 - a), |(1 - a) * 2|) := by
  have c0 : cells 2 (fun i j => decide (i = 0 ∧ j = 0)) 0 (0, 2) = [(0, 0)] := by decide
  have c1 : cells 2 (fun i j => decide (i = 0 ∧ j = 0)) 1 (0, 2) = [] := by decide
  have hsl : Thread.slices 0 2 1 = .ok [(0, 2)] := by decide
  have hcell : cellFill 2 2 false 2 (corner a) (0, 0) = .ok (corner (2 - a), some ((1 - a) * 2)) := by
    have e : residual 2 (some (1 : ℚ)) (some 1) (some 1) (some 1) (some a) = some ((1 - a) * 2) := by
      simp only [residual, bind, Option.bind]; congr 1; ring
    have : cellFill 2 2 false 2 (corner a) (0, 0) = .ok (put (corner a) 0 0
        (do some ((← some a) + (← residual 2 (some (1 : ℚ)) (some 1) (some 1) (some 1) (some a)))),
        residual 2 (some (1 : ℚ)) (some 1) (some 1) (some 1) (some a)) := rfl
    rw [this, e]
    congr 2
    funext i j
    unfold put corner
    by_cases h : i = 0 ∧ j = 0
    · rw [if_pos h, if_pos h]
      simp only [bind, Option.bind]
      congr 1; ring
    · rw [if_neg h, if_neg h, if_neg h]
  unfold iterate calculate
  simp only [hs, hsl, bind, Except.bind, List.map_cons, List.map_nil, c0, Nat.sub_zero, c1, interleave,
    List.mapIdx_cons, List.mapIdx_nil, List.flatten_cons, List.flatten_nil, List.append_nil,
    List.foldlM_cons, List.foldlM_nil, apply, hcell, pure, Except.pure]
  congr 2
  simp only [maxRes, List.length_cons, List.length_nil, Nat.zero_add, List.replicate_one, List.modify_zero_cons,
    List.foldl_cons, List.foldl_nil, max_self]
  have h0 := abs_nonneg ((1 - a) * 2)
  by_cases h : 0 < |(1 - a) * 2|
  · rw [if_pos h, max_eq_right h0, max_eq_left h0]
  · rw [if_neg h, max_self, max_self]
    exact le_antisymm h0 (not_lt.1 h)

/-- **C50**, the part that fails: with the relaxation constant 2 the method may never converge. The hole of
this grid of ones is filled by turns with 2 and 0, whatever the number of iterations, and the residual
is always 2. -/
theorem C50_relaxation_two_false (N : Nat) (hN : 0 < N) :
    ∃ g' it, gaussSeidel 1 [] (fun _ _ => []) 0 2 2 (fun i j => if i = 0 ∧ j = 0 then none else some (1 : ℚ)) .zero
      false N 1 2 1 = .ok (g', it, 2) ∧ it = N ∧ g' 0 0 ≠ some 1 := by
  have loop : ∀ k it a res, (a = 0 ∨ a = 2) → (k = 0 → res = 2) →
      ∃ a', relaxLoop 2 2 false (2 : ℚ) 1 (fun i j => decide (i = 0 ∧ j = 0)) 1 0 (fun _ _ => []) k it (corner a)
        res = .ok (corner a', it + k, 2) ∧ (a' = 0 ∨ a' = 2) := by
    intro k
    induction k with
    | zero => intro it a res ha hr; exact ⟨a, by simp [relaxLoop, hr rfl], ha⟩
    | succ k ih =>
      intro it a res ha _
      unfold relaxLoop
      rw [corner_iterate _ (fun _ => rfl)]
      simp only [bind, Except.bind]
      have h2 : |(1 - a) * 2| = 2 := by rcases ha with rfl | rfl <;> norm_num
      rw [h2, if_neg (by norm_num)]
      obtain ⟨a', e, ha'⟩ := ih (it + 1) (2 - a) 2 (by rcases ha with rfl | rfl <;> norm_num) (fun _ => rfl)
      exact ⟨a', by rw [e, show it + 1 + k = it + (k + 1) by omega], ha'⟩
  obtain ⟨a', e, ha'⟩ := loop N 0 0 0 (Or.inl rfl) (by omega)
  refine ⟨corner a', N, ?_, rfl, ?_⟩
  · unfold gaussSeidel
    rw [if_neg (by decide)]
    simp only [bind, Except.bind]
    have m : undefinedMask (fun i j => if i = 0 ∧ j = 0 then none else some (1 : ℚ)) =
        fun i j => decide (i = 0 ∧ j = 0) := by
      funext i j
      unfold undefinedMask
      by_cases h : i = 0 ∧ j = 0 <;> simp [h]
    have c : (fun i j => if (fun (i j : Nat) => decide (i = 0 ∧ j = 0)) i j = true then some (0 : ℚ) else
        (fun i j => if i = 0 ∧ j = 0 then none else some (1 : ℚ)) i j) = corner 0 := by
      funext i j
      unfold corner
      by_cases h : i = 0 ∧ j = 0 <;> simp [h]
    rw [m, c, if_neg (by decide), e, Nat.zero_add]
  · rcases ha' with rfl | rfl <;> simp [corner]

end Examples

end Pyinterp.GaussSeidel
