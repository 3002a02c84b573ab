import Mathlib.Analysis.Real.Pi.Bounds
import Mathlib.Analysis.SpecialFunctions.Pow.Real
import Verif.Model.FillPy
import Verif.Props.C50_Convergence

/-
**C111** `pyinterp.fill.gauss_seidel` (Python): the tasks of the layers, the default parameters and
the flag returned.
-/
namespace Pyinterp.FillPy
open Pyinterp Pyinterp.GaussSeidel Spec
set_option linter.unusedSectionVars false
set_option linter.unusedVariables false

variable {K : Type} [Field K] [LinearOrder K] [IsStrictOrderedRing K]

/-! ### One task -/

/-- `n` steps of a task. -/
def iterLocal (c : Cfg K) (iz : Nat) : Nat → Task K × Val K → Out (Task K × Val K)
  | 0, s => .ok s
  | n + 1, s => do
    let s' ← stepLocal c iz s
    iterLocal c iz n s'

theorem iterLocal_succ (c : Cfg K) (iz n : Nat) (s s' : Task K × Val K) (h : iterLocal c iz n s = .ok s') :
    iterLocal c iz (n + 1) s = stepLocal c iz s' := by
  induction n generalizing s with
  | zero =>
    simp only [iterLocal, Except.ok.injEq] at h
    subst h
    simp only [iterLocal, bind, Except.bind]
    cases stepLocal c iz s <;> rfl
  | succ n ih =>
    rw [iterLocal] at h ⊢
    cases h1 : stepLocal c iz s with
    | error e => rw [h1] at h; cases h
    | ok s1 =>
      rw [h1] at h
      simp only [bind, Except.bind] at h ⊢
      exact ih s1 h

theorem iterLocal_done (c : Cfg K) (iz n it : Nat) (res : K) (g : Val K) :
    iterLocal c iz n (.done it res, g) = .ok (.done it res, g) := by
  induction n with
  | zero => rfl
  | succ n ih => simp only [iterLocal, stepLocal, bind, Except.bind, ih]

/-- The steps of a running task are those of the loop. -/
theorem iterLocal_running (c : Cfg K) (iz : Nat) (mask : Nat → Nat → Bool) (k : Nat) :
    ∀ it res (g : Val K) r, relaxLoop c.rows c.cols c.circle c.relaxation c.epsilon mask 1 c.first (c.isched iz)
        k it g res = .ok r →
      (∀ n, ∃ s, iterLocal c iz n (.running mask k it res, g) = .ok s) ∧
      ∀ n, k + 1 ≤ n → iterLocal c iz n (.running mask k it res, g) = .ok (.done r.2.1 r.2.2, r.1) := by
  induction k with
  | zero =>
    intro it res g r h
    simp only [relaxLoop, Except.ok.injEq] at h
    subst h
    constructor
    · intro n
      cases n with
      | zero => exact ⟨_, rfl⟩
      | succ n => exact ⟨_, by simp only [iterLocal, stepLocal, bind, Except.bind]; exact iterLocal_done ..⟩
    · intro n hn
      obtain ⟨n, rfl⟩ : ∃ m, n = m + 1 := ⟨n - 1, by omega⟩
      simp only [iterLocal, stepLocal, bind, Except.bind]
      exact iterLocal_done ..
  | succ k ih =>
    intro it res g r h
    rw [relaxLoop] at h
    cases hi : iterate c.rows c.cols c.circle c.relaxation mask 1 c.first (c.isched iz it) g with
    | error e => rw [hi] at h; cases h
    | ok q =>
      rw [hi] at h
      simp only [bind, Except.bind] at h
      have hstep : ∀ n, iterLocal c iz (n + 1) (.running mask (k + 1) it res, g) =
          iterLocal c iz n (if q.2 < c.epsilon then (.done (it + 1) q.2, q.1) else (.running mask k (it + 1) q.2, q.1)) := by
        intro n
        simp only [iterLocal, stepLocal, hi, bind, Except.bind]
        by_cases hq : q.2 < c.epsilon
        · rw [if_pos hq, if_pos hq]
        · rw [if_neg hq, if_neg hq]
      by_cases hq : q.2 < c.epsilon
      · rw [if_pos hq] at h
        cases h
        simp only [if_pos hq] at hstep
        constructor
        · intro n
          cases n with
          | zero => exact ⟨_, rfl⟩
          | succ n => exact ⟨_, by rw [hstep, iterLocal_done]⟩
        · intro n hn
          obtain ⟨n, rfl⟩ : ∃ m, n = m + 1 := ⟨n - 1, by omega⟩
          rw [hstep, iterLocal_done]
      · rw [if_neg hq] at h
        simp only [if_neg hq] at hstep
        obtain ⟨i1, i2⟩ := ih _ _ _ _ h
        constructor
        · intro n
          cases n with
          | zero => exact ⟨_, rfl⟩
          | succ n => rw [hstep]; exact i1 n
        · intro n hn
          obtain ⟨n, rfl⟩ : ∃ m, n = m + 1 := ⟨n - 1, by omega⟩
          rw [hstep]
          exact i2 n (by omega)

/-- The function of C++ called for a layer by a task. -/
def call (c : Cfg K) (iz : Nat) (g : Val K) : Out (Val K × Nat × K) :=
  gaussSeidel 1 (c.zsched iz) (c.isched iz) c.first c.rows c.cols g c.guess c.circle c.maxIterations c.epsilon
    c.relaxation 1

theorem iterLocal_pending (c : Cfg K) (iz : Nat) (g : Val K) (r : Val K × Nat × K) (h : call c iz g = .ok r) :
    (∀ n, ∃ s, iterLocal c iz n (.pending, g) = .ok s) ∧
    ∀ n, c.maxIterations + 2 ≤ n → iterLocal c iz n (.pending, g) = .ok (.done r.2.1 r.2.2, r.1) := by
  unfold call gaussSeidel at h
  by_cases hN : hasNaN c.rows c.cols g = false
  · rw [if_pos hN] at h
    cases h
    have hstep : ∀ n, iterLocal c iz (n + 1) (.pending, g) = .ok (.done 0 0, g) := by
      intro n
      simp only [iterLocal, stepLocal, if_pos hN, bind, Except.bind]
      exact iterLocal_done ..
    constructor
    · intro n
      cases n with
      | zero => exact ⟨_, rfl⟩
      | succ n => exact ⟨_, hstep n⟩
    · intro n hn
      obtain ⟨n, rfl⟩ : ∃ m, n = m + 1 := ⟨n - 1, by omega⟩
      exact hstep n
  · rw [if_neg hN] at h
    have hone : (if (1 : Nat) = 0 then (1 : Nat) else 1) = 1 := by simp
    simp only [hone] at h
    obtain ⟨g0, hg0, h⟩ : ∃ g0, (match c.guess with
        | .zero => (.ok (fun i j => if undefinedMask g i j then some 0 else g i j) : Out (Val K))
        | .zonalAverage => setZonalAverage c.rows c.cols (undefinedMask g) 1 (c.zsched iz) g) = .ok g0 ∧
        relaxLoop c.rows c.cols c.circle c.relaxation c.epsilon (undefinedMask g) 1 c.first (c.isched iz)
          c.maxIterations 0 g0 0 = .ok r := by
      revert h
      cases c.guess with
      | zero => intro h; exact ⟨_, rfl, h⟩
      | zonalAverage =>
        intro h
        cases hz : setZonalAverage c.rows c.cols (undefinedMask g) 1 (c.zsched iz) g with
        | error e => rw [hz] at h; cases h
        | ok g0 => rw [hz] at h; exact ⟨g0, rfl, h⟩
    have hstep : ∀ n, iterLocal c iz (n + 1) (.pending, g) =
        iterLocal c iz n (.running (undefinedMask g) c.maxIterations 0 0, g0) := by
      intro n
      simp only [iterLocal, stepLocal, if_neg hN, bind, Except.bind]
      cases hgu : c.guess with
      | zero =>
        rw [hgu] at hg0
        cases hg0
        rfl
      | zonalAverage =>
        rw [hgu] at hg0
        simp only at hg0
        rw [hg0]
    obtain ⟨i1, i2⟩ := iterLocal_running c iz (undefinedMask g) c.maxIterations 0 0 g0 r h
    constructor
    · intro n
      cases n with
      | zero => exact ⟨_, rfl⟩
      | succ n => rw [hstep]; exact i1 n
    · intro n hn
      obtain ⟨n, rfl⟩ : ∃ m, n = m + 1 := ⟨n - 1, by omega⟩
      rw [hstep]
      exact i2 n (by omega)

/-! ### The pool -/

/-- The state of a task in an execution only depends on the number of its steps. -/
theorem pool_run (c : Cfg K) (array : Val3 K) (L : List Nat)
    (hok : ∀ iz ∈ L, ∀ n, ∃ s, iterLocal c iz n (.pending, fun i j => array i j iz) = .ok s) :
    ∃ p, L.foldlM (step c) { tasks := fun _ => .pending, filled := array } = .ok p ∧
      ∀ iz, iterLocal c iz (L.count iz) (.pending, fun i j => array i j iz) =
        .ok (p.tasks iz, fun i j => p.filled i j iz) := by
  induction L using List.reverseRecOn with
  | nil => exact ⟨_, rfl, fun iz => rfl⟩
  | append_singleton L a ih =>
    obtain ⟨p, e, hp⟩ := ih (fun iz hiz => hok iz (by simp [hiz]))
    rw [List.foldlM_append, e]
    simp only [bind, Except.bind, List.foldlM_cons, List.foldlM_nil]
    have hs := iterLocal_succ c a (L.count a) _ _ (hp a)
    obtain ⟨s, hs'⟩ := hok a (by simp) (L.count a + 1)
    rw [hs] at hs'
    refine ⟨{ tasks := fun k => if k = a then s.1 else p.tasks k
              filled := fun i j k => if k = a then s.2 i j else p.filled i j k },
      by unfold step; rw [hs']; rfl, ?_⟩
    intro iz
    rw [List.count_append]
    by_cases h : iz = a
    · subst h
      simp only [List.count_singleton_self, if_true]
      rw [hs, hs']
    · have : List.count iz [a] = 0 := List.count_eq_zero_of_not_mem (by simpa using h)
      rw [this, Nat.add_zero, hp iz]
      simp only [if_neg h]

theorem count_steps (c : Cfg K) (nz : Nat) (sched : List Nat) (iz : Nat) (h : iz < nz) :
    c.maxIterations + 2 ≤ (steps c nz sched).count iz := by
  unfold steps
  rw [List.count_append]
  have : c.maxIterations + 2 ≤
      ((List.range nz).flatMap fun iz => List.replicate (c.maxIterations + 2) iz).count iz := by
    have hsub : List.Sublist (List.replicate (c.maxIterations + 2) iz)
        ((List.range nz).flatMap fun iz => List.replicate (c.maxIterations + 2) iz) := by
      rw [List.flatMap_def]
      exact List.sublist_flatten_of_mem (List.mem_map.2 ⟨iz, List.mem_range.2 h, rfl⟩)
    have := hsub.count_le iz
    simpa using this
  omega

theorem pyMax_le (l : List K) (hl : l ≠ []) : ∃ m, pyMax l = .ok m ∧ ∀ b, m ≤ b ↔ ∀ v ∈ l, v ≤ b := by
  cases l with
  | nil => exact absurd rfl hl
  | cons a l =>
    refine ⟨_, rfl, ?_⟩
    intro b
    induction l generalizing a with
    | nil => simp
    | cons x l ih =>
      rw [List.foldl_cons, ih _ (by simp)]
      simp only [List.mem_cons, forall_eq_or_imp]
      by_cases h : a < x
      · rw [if_pos h]
        exact ⟨fun ⟨q, r⟩ => ⟨h.le.trans q, q, r⟩, fun ⟨_, q, r⟩ => ⟨q, r⟩⟩
      · rw [if_neg h]
        exact ⟨fun ⟨q, r⟩ => ⟨q, (not_lt.1 h).trans q, r⟩, fun ⟨q, _, r⟩ => ⟨q, r⟩⟩

/-! ### The properties -/

/-- The relaxation constant and the number of iterations that a call uses. -/
def relaxationOf (sqrt : K → K) (pi : K) (nx ny : Nat) (a : Args K) : K :=
  match a.relaxation with
  | some r => r
  | none =>
    if nx = ny then 2 / (1 + pi / (nx : K))
    else 2 / (1 + pi / ((nx : K) * (ny : K) * sqrt (2 / ((nx : K) ^ 2 + (ny : K) ^ 2))))

def iterationsOf (nx ny : Nat) (a : Args K) : Nat :=
  match a.maxIteration with
  | some m => m.toNat
  | none => nx * ny

theorem relaxationOf_eq (sqrt : K → K) (pi : K) (nx ny : Nat) (a : Args K) :
    a.relaxation.getD (defaultRelaxation sqrt pi nx ny) = relaxationOf sqrt pi nx ny a := by
  unfold relaxationOf defaultRelaxation
  cases a.relaxation with
  | some r => rfl
  | none =>
    simp only [Option.getD_none]
    by_cases h : nx = ny
    · simp [h]
    · simp [h]

theorem iterationsOf_eq (nx ny : Nat) (a : Args K) (h : ∀ m, a.maxIteration = some m → 0 ≤ m) :
    sizeT (a.maxIteration.getD ((nx * ny : Nat) : Int)) = .ok (iterationsOf nx ny a) := by
  unfold sizeT iterationsOf
  cases hm : a.maxIteration with
  | none => simp only [Option.getD_none]; rw [if_neg (by omega)]; rfl
  | some m =>
    simp only [Option.getD_some]
    rw [if_neg (by have := h m hm; omega)]

/-- The arguments that the function accepts. -/
structure Accepted (a : Args K) (guess : Guess) : Prop where
  name : (a.firstGuess = "zero" ∧ guess = .zero) ∨ (a.firstGuess = "zonal_average" ∧ guess = .zonalAverage)
  iterations : ∀ m, a.maxIteration = some m → 0 ≤ m
  threads : 0 ≤ a.numThreads

theorem guessOf_eq {a : Args K} {guess : Guess} (h : Accepted a guess) : guessOf a.firstGuess = .ok guess := by
  rcases h.name with ⟨e, rfl⟩ | ⟨e, rfl⟩
  · rw [e]; rfl
  · rw [e]; rfl

/-- **C111** A grid of 2 dimensions: the function returns the values filled by the relaxation, and a flag that is true
if, and only if, the residual does not exceed `epsilon`. The result does not depend on the number of
threads, nor on their schedule. -/
theorem C111_grid2D (env : Env) (sqrt : K → K) (pi : K) (nx ny : Nat) (circle : Bool) (array : Val K) (a : Args K)
    (guess : Guess) (ha : Accepted a guess) (hs : (circle = true ∨ 2 ≤ nx) ∧ 2 ≤ ny) (hw : 1 ≤ env.hw) :
    ∃ flag filled it res, gaussSeidel2D env sqrt pi nx ny circle array a = .ok (flag, filled) ∧
      (flag = true ↔ res ≤ a.epsilon) ∧
      ∀ hw' zs sc n, (n = 0 → 1 ≤ hw') → gaussSeidel hw' zs sc env.first nx ny array guess circle
        (iterationsOf nx ny a) a.epsilon (relaxationOf sqrt pi nx ny a) n = .ok (filled, it, res) := by
  have hok : ∃ r, gaussSeidel 1 [] (fun _ _ => []) env.first nx ny array guess circle (iterationsOf nx ny a) a.epsilon
      (relaxationOf sqrt pi nx ny a) 1 = .ok r := by
    by_cases hN : ∃ i j, i < nx ∧ j < ny ∧ array i j = none
    · obtain ⟨g', it, res, e, -⟩ := C50_result 1 [] (fun _ _ => []) env.first nx ny circle hs array guess
        (iterationsOf nx ny a) a.epsilon (relaxationOf sqrt pi nx ny a) 1 (by simp) hN
      exact ⟨_, e⟩
    · push Not at hN
      exact ⟨_, C50_unchanged _ _ _ _ _ _ _ _ _ _ _ _ _ hN⟩
  obtain ⟨r, hr⟩ := hok
  have hall : ∀ hw' zs sc n, (n = 0 → 1 ≤ hw') → gaussSeidel hw' zs sc env.first nx ny array guess circle
        (iterationsOf nx ny a) a.epsilon (relaxationOf sqrt pi nx ny a) n = .ok r := by
    intro hw' zs sc n hn
    rw [← hr]
    exact C50_schedule nx ny circle hs array guess _ _ _ _ _ _ _ _ (by rcases Nat.eq_zero_or_pos n with h | h; exacts [Or.inl (hn h), Or.inr h])
      (Or.inl (le_refl _)) _ _ _ _ hn (by simp)
  refine ⟨decide (r.2.2 ≤ a.epsilon), r.1, r.2.1, r.2.2, ?_, by simp, hall⟩
  unfold gaussSeidel2D
  simp only [guessOf_eq ha, iterationsOf_eq nx ny a ha.iterations, relaxationOf_eq, bind, Except.bind]
  have hn : sizeT a.numThreads = .ok a.numThreads.toNat := by
    unfold sizeT; rw [if_neg (by have := ha.threads; omega)]
  rw [hn]
  simp only
  rw [hall _ _ _ _ (fun _ => hw)]

/-- **C111** A grid of 3 dimensions: whatever the schedule of the tasks and the order in which they complete, each layer is
filled as the grid of 2 dimensions made of this layer would be, and the flag is true if, and only if, the residual of
every layer does not exceed `epsilon`. -/
theorem C111_grid3D (env : Env) (sqrt : K → K) (pi : K) (nx ny nz : Nat) (circle : Bool) (array : Val3 K)
    (a : Args K) (guess : Guess) (ha : Accepted a guess) (hs : (circle = true ∨ 2 ≤ nx) ∧ 2 ≤ ny) (hz : 0 < nz)
    (hsched : ∀ iz ∈ env.sched, iz < nz) (horder : env.order.Perm (List.range nz)) :
    ∃ flag filled, ∃ it : Nat → Nat, ∃ res : Nat → K, gaussSeidel3D env sqrt pi nx ny nz circle array a =
        .ok (flag, filled) ∧ (flag = true ↔ ∀ iz, iz < nz → res iz ≤ a.epsilon) ∧
      ∀ iz, iz < nz → ∀ hw' zs sc n, (n = 0 → 1 ≤ hw') →
        gaussSeidel hw' zs sc env.first nx ny (fun i j => array i j iz) guess circle (iterationsOf nx ny a) a.epsilon
          (relaxationOf sqrt pi nx ny a) n = .ok (fun i j => filled i j iz, it iz, res iz) := by
  set c : Cfg K := { rows := nx, cols := ny, circle := circle, guess := guess, maxIterations := iterationsOf nx ny a,
                     epsilon := a.epsilon, relaxation := relaxationOf sqrt pi nx ny a, first := env.first,
                     zsched := env.zsched, isched := env.isched } with hc
  have hcall : ∀ iz, ∃ r, call c iz (fun i j => array i j iz) = .ok r := by
    intro iz
    by_cases hN : ∃ i j, i < nx ∧ j < ny ∧ array i j iz = none
    · obtain ⟨g', it, res, e, -⟩ := C50_result 1 (env.zsched iz) (env.isched iz) env.first nx ny circle hs
        (fun i j => array i j iz) guess (iterationsOf nx ny a) a.epsilon (relaxationOf sqrt pi nx ny a) 1 (by simp) hN
      exact ⟨_, e⟩
    · push Not at hN
      exact ⟨_, C50_unchanged _ _ _ _ _ _ _ _ _ _ _ _ _ hN⟩
  choose r hr using hcall
  obtain ⟨p, e, hp⟩ := pool_run c array (steps c nz env.sched)
    (fun iz _ => (iterLocal_pending c iz _ _ (hr iz)).1)
  have hdone : ∀ iz, iz < nz → p.tasks iz = .done (r iz).2.1 (r iz).2.2 ∧ (fun i j => p.filled i j iz) = (r iz).1 := by
    intro iz hiz
    have h1 := (iterLocal_pending c iz _ _ (hr iz)).2 _ (count_steps c nz env.sched iz hiz)
    rw [hp iz] at h1
    injection h1 with h1
    exact ⟨(Prod.mk.inj h1).1, (Prod.mk.inj h1).2⟩
  have hne : env.order.map (fun iz => residualOf (p.tasks iz)) ≠ [] := by
    intro hnil
    have := horder.length_eq
    rw [List.map_eq_nil_iff.1 hnil] at this
    simp at this
    omega
  obtain ⟨m, hm, hmb⟩ := pyMax_le _ hne
  refine ⟨decide (m ≤ a.epsilon), p.filled, fun iz => (r iz).2.1, fun iz => (r iz).2.2, ?_, ?_, ?_⟩
  · unfold gaussSeidel3D
    simp only [guessOf_eq ha, iterationsOf_eq nx ny a ha.iterations, relaxationOf_eq, bind, Except.bind]
    have hn : sizeT a.numThreads = .ok a.numThreads.toNat := by
      unfold sizeT; rw [if_neg (by have := ha.threads; omega)]
    rw [hn]
    simp only [← hc]
    rw [e]
    simp only
    rw [hm]
  · rw [decide_eq_true_eq, hmb]
    simp only [List.mem_map, forall_exists_index, and_imp, forall_apply_eq_imp_iff₂]
    constructor
    · intro h iz hiz
      have := h iz (horder.mem_iff.2 (List.mem_range.2 hiz))
      rw [(hdone iz hiz).1] at this
      exact this
    · intro h iz hiz
      have hlt := List.mem_range.1 (horder.mem_iff.1 hiz)
      rw [(hdone iz hlt).1]
      exact h iz hlt
  · intro iz hiz hw' zs sc n hn
    rw [(hdone iz hiz).2]
    have := hr iz
    unfold call at this
    rw [show ((r iz).1, (r iz).2.1, (r iz).2.2) = r iz from rfl, ← this]
    exact C50_schedule nx ny circle hs _ guess _ _ _ _ _ _ _ _ (by rcases Nat.eq_zero_or_pos n with h | h; exacts [Or.inl (hn h), Or.inr h])
      (Or.inl (le_refl _)) _ _ _ _ hn (by simp)

/-- **C111** The values: what was defined is kept, nothing remains undefined, and when the flag is true every value
filled is the mean of its four neighbours up to `(1 + |1 - ω|/|ω|) epsilon`, `ω` being the relaxation constant
used. -/
theorem C111_values (env : Env) (hf : env.first = 0 ∨ env.first = 1) (sqrt : K → K) (pi : K) (nx ny nz : Nat) (circle : Bool) (array : Val3 K)
    (a : Args K) (guess : Guess) (ha : Accepted a guess) (hs : (circle = true ∨ 2 ≤ nx) ∧ 2 ≤ ny) (hz : 0 < nz)
    (hsched : ∀ iz ∈ env.sched, iz < nz) (horder : env.order.Perm (List.range nz)) (flag : Bool) (filled : Val3 K)
    (h : gaussSeidel3D env sqrt pi nx ny nz circle array a = .ok (flag, filled)) (ix iy iz : Nat) (hx : ix < nx)
    (hy : iy < ny) (hiz : iz < nz) :
    (∀ v, array ix iy iz = some v → filled ix iy iz = some v) ∧
    (array ix iy iz = none → ∃ v, filled ix iy iz = some v) ∧
    (array ix iy iz = none → flag = true → 0 < iterationsOf nx ny a → relaxationOf sqrt pi nx ny a ≠ 0 →
      NearMeanOfNeighbours nx ny circle (fun i j => filled i j iz) ix iy
        (a.epsilon * (1 + |1 - relaxationOf sqrt pi nx ny a| / |relaxationOf sqrt pi nx ny a|))) := by
  obtain ⟨flag', filled', it, res, e, hflag, hl⟩ := C111_grid3D env sqrt pi nx ny nz circle array a guess ha hs hz hsched horder
  rw [h] at e
  cases e
  have hl := hl iz hiz 1 [] (fun _ _ => []) 1 (by simp)
  by_cases hN : ∃ i j, i < nx ∧ j < ny ∧ array i j iz = none
  · obtain ⟨g', it', res', e, h1, h2, -⟩ := C50_result 1 [] (fun _ _ => []) env.first nx ny circle hs
        (fun i j => array i j iz) guess (iterationsOf nx ny a) a.epsilon (relaxationOf sqrt pi nx ny a) 1 (by simp) hN
    rw [hl] at e
    cases e
    refine ⟨h1 ix iy, fun _ => h2 ix iy hx hy, fun hn hfl hi hr => ?_⟩
    obtain ⟨w, e1, s, n1, v, x1, x2, y1, y2, p⟩ := C50_residual 1 [] (fun _ _ => []) env.first hf nx ny circle hs
      (fun i j => array i j iz) guess (iterationsOf nx ny a) hi a.epsilon (relaxationOf sqrt pi nx ny a) 1 (by simp) hr _ _ _ hl
      ix iy hx hy hn
    refine ⟨w, e1, s, n1, v, x1, x2, y1, y2, p.1, p.2.1, p.2.2.1, p.2.2.2.1, p.2.2.2.2.1, p.2.2.2.2.2.1,
      p.2.2.2.2.2.2.1, p.2.2.2.2.2.2.2.1, p.2.2.2.2.2.2.2.2.1, p.2.2.2.2.2.2.2.2.2.trans ?_⟩
    refine mul_le_mul_of_nonneg_right (hflag.1 hfl iz hiz) ?_
    exact add_nonneg zero_le_one (div_nonneg (abs_nonneg _) (abs_nonneg _))
  · push Not at hN
    have e := C50_unchanged 1 [] (fun _ _ => []) env.first nx ny circle (fun i j => array i j iz) guess (iterationsOf nx ny a)
      a.epsilon (relaxationOf sqrt pi nx ny a) 1 hN
    rw [hl] at e
    injection e with e
    have e := (Prod.mk.inj e).1
    have e' : filled ix iy iz = array ix iy iz := congrFun (congrFun e ix) iy
    refine ⟨fun v hv => by rw [e', hv], fun hn => absurd hn (hN ix iy hx hy), fun hn => absurd hn (hN ix iy hx hy)⟩

/-- **C111** The names accepted for the first guess, and the refusals. -/
theorem C111_refused (env : Env) (sqrt : K → K) (pi : K) (nx ny nz : Nat) (circle : Bool) (array : Val3 K) (array2 : Val K)
    (a : Args K) (h : (a.firstGuess ≠ "zero" ∧ a.firstGuess ≠ "zonal_average") ∨
      (∃ m, a.maxIteration = some m ∧ m < 0) ∨ a.numThreads < 0) :
    gaussSeidel3D env sqrt pi nx ny nz circle array a = .error .exn ∧
      gaussSeidel2D env sqrt pi nx ny circle array2 a = .error .exn := by
  unfold gaussSeidel3D gaussSeidel2D
  have hg : guessOf a.firstGuess = .error .exn ∨ ∃ g, guessOf a.firstGuess = .ok g := by
    unfold guessOf
    by_cases h1 : a.firstGuess = "zero"
    · rw [if_pos h1]; exact Or.inr ⟨_, rfl⟩
    · rw [if_neg h1]
      by_cases h2 : a.firstGuess = "zonal_average"
      · rw [if_pos h2]; exact Or.inr ⟨_, rfl⟩
      · rw [if_neg h2]; exact Or.inl rfl
  have hsz : ∀ v, v < 0 → sizeT v = .error .exn := fun v hv => by unfold sizeT; rw [if_pos hv]
  have hsz' : ∀ v, sizeT v = .error .exn ∨ ∃ n, sizeT v = .ok n := by
    intro v
    unfold sizeT
    by_cases hv : v < 0
    · rw [if_pos hv]; exact Or.inl rfl
    · rw [if_neg hv]; exact Or.inr ⟨_, rfl⟩
  rcases hg with hg | ⟨g, hg⟩
  · rw [hg]; exact ⟨rfl, rfl⟩
  rw [hg]
  simp only [bind, Except.bind]
  rcases h with ⟨h1, h2⟩ | ⟨m, hm, hneg⟩ | hneg
  · unfold guessOf at hg
    rw [if_neg h1, if_neg h2] at hg
    cases hg
  · rw [hm, Option.getD_some, hsz m hneg]
    exact ⟨rfl, rfl⟩
  · rcases hsz' (a.maxIteration.getD ((nx * ny : Nat) : Int)) with h | ⟨n, h⟩
    · rw [h]; exact ⟨rfl, rfl⟩
    · rw [h, hsz _ hneg]; exact ⟨rfl, rfl⟩

/-- **C111** The default relaxation constant is strictly between 0 and 2 for every non-empty grid, so that the
relaxation converges with enough iterations (`C50_converges`); it is an over-relaxation (greater than 1) for the square grids of
4 x 4 cells or more, and an under-relaxation for the smaller ones. -/
theorem C111_default_relaxation (nx ny : Nat) (hx : 0 < nx) (hy : 0 < ny) (a : Args ℝ) (ha : a.relaxation = none) :
    0 < relaxationOf Real.sqrt Real.pi nx ny a ∧ relaxationOf Real.sqrt Real.pi nx ny a < 2 ∧
      (nx = ny → (1 < relaxationOf Real.sqrt Real.pi nx ny a ↔ 4 ≤ nx)) := by
  have hX : (0 : ℝ) < nx := by exact_mod_cast hx
  have hY : (0 : ℝ) < ny := by exact_mod_cast hy
  have gen : ∀ n : ℝ, 0 < n → 0 < 2 / (1 + Real.pi / n) ∧ 2 / (1 + Real.pi / n) < 2 ∧
      (1 < 2 / (1 + Real.pi / n) ↔ Real.pi < n) := by
    intro n hn
    have hp := div_pos Real.pi_pos hn
    have h1 : 0 < 1 + Real.pi / n := by linarith
    refine ⟨by positivity, ?_, ?_⟩
    · rw [div_lt_iff₀ h1]; linarith
    · rw [lt_div_iff₀ h1, one_mul]
      constructor
      · intro h
        have : Real.pi / n < 1 := by linarith
        rwa [div_lt_one hn] at this
      · intro h
        have : Real.pi / n < 1 := by rwa [div_lt_one hn]
        linarith
  unfold relaxationOf
  rw [ha]
  simp only
  by_cases h : nx = ny
  · rw [if_pos h]
    obtain ⟨g1, g2, g3⟩ := gen nx hX
    refine ⟨g1, g2, fun _ => ?_⟩
    rw [g3]
    constructor
    · intro hpi
      have : (3 : ℝ) < nx := Real.pi_gt_three.trans hpi
      have : 3 < nx := by exact_mod_cast this
      omega
    · intro h4
      have : (4 : ℝ) ≤ nx := by exact_mod_cast h4
      exact Real.pi_lt_four.trans_le this
  · rw [if_neg h]
    obtain ⟨g1, g2, -⟩ := gen ((nx : ℝ) * ny * Real.sqrt (2 / ((nx : ℝ) ^ 2 + (ny : ℝ) ^ 2)))
      (mul_pos (mul_pos hX hY) (Real.sqrt_pos.2 (by positivity)))
    exact ⟨g1, g2, fun h' => absurd h' h⟩

section Examples

/-- A grid of 2 x 2 x 2 cells with a hole in each layer. -/
def exArray : Val3 ℚ := fun i j k => if (i = 0 ∧ j = 0 ∧ k = 0) ∨ (i = 1 ∧ j = 0 ∧ k = 1) then none
  else some ((i : ℚ) + j + 2 * k)

def exEnv : Env := { hw := 4, first := 0, zsched := fun _ => [], isched := fun _ _ _ => [], sched := [1, 0, 1, 0, 0, 1],
                     order := [1, 0] }

def exArgs : Args ℚ := { firstGuess := "zonal_average", maxIteration := none, epsilon := 1 / 10, relaxation := some (1 / 2),
                         numThreads := 0 }

/- Non vacuity of the theorems. -/
example : Accepted exArgs .zonalAverage := ⟨Or.inr ⟨rfl, rfl⟩, by simp [exArgs], by decide⟩

example : (gaussSeidel3D exEnv id 3 2 2 2 false exArray exArgs).map (fun r => (r.1, r.2 0 0 0, r.2 1 0 1)) =
    .ok (true, some 1, some (47 / 16)) := by decide +kernel

/-- **C111**, the part that fails: with no iteration allowed the function reports that the calculation has converged, although
the residual was never computed: the hole of a grid of ones is filled with 0. -/
theorem C111_no_iteration_false :
    (gaussSeidel2D exEnv id 3 2 2 false (fun i j => if i = 0 ∧ j = 0 then none else some (1 : ℚ))
      { firstGuess := "zero", maxIteration := some 0, epsilon := 0, relaxation := some 1, numThreads := 0 }).map
      (fun r => (r.1, r.2 0 0)) = .ok (true, some 0) := by decide +kernel

end Examples

end Pyinterp.FillPy
