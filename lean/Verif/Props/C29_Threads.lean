import Verif.Lemmas.Thread

/-
C29: work splitting between threads.
-/
namespace Pyinterp.Thread

variable {V E : Type}

/-- C29: the slices are defined for every size and number of threads (provided that
the machine reports at least one CPU), one after the other they list the elements
0, ..., size-1 each once, so they are disjoint and in range. -/
theorem C29_slices (hw size n : Nat) (hhw : 1 ≤ hw) :
    ∃ sl, slices hw size n = .ok sl ∧ sl.length = (if n = 0 then hw else n) ∧
      (∀ s ∈ sl, s.1 ≤ s.2 ∧ s.2 ≤ size) ∧
      (sl.map fun s => List.range' s.1 (s.2 - s.1)).flatten = List.range size := by
  cases h : slices hw size n with
  | error e =>
    exfalso
    unfold slices at h
    split at h
    · cases h
    · simp only at h
      have hm : (if n = 0 then hw else n) ≠ 0 := by split <;> omega
      rw [if_neg hm] at h
      cases h
  | ok sl =>
    refine ⟨sl, rfl, ?_, ?_, slices_flatten h⟩
    · unfold slices at h
      split at h
      · cases h
        next h1 => subst h1; rfl
      · simp only at h
        generalize (if n = 0 then hw else n) = m at *
        split at h
        · cases h
        · cases h
          next h0 =>
          simp only [List.length_append, List.length_map, List.length_range, List.length_cons,
            List.length_nil]
          omega
    · unfold slices at h
      split at h
      · cases h
        intro s hs
        simp only [List.mem_singleton] at hs
        subst hs
        simp
      · simp only at h
        generalize (if n = 0 then hw else n) = m at *
        split at h
        · cases h
        · cases h
          next h0 =>
          have hm := Nat.mul_div_le size m
          have key : ∀ k, k < m → k * (size / m) + size / m ≤ size := by
            intro k hk
            calc k * (size / m) + size / m = (k + 1) * (size / m) := by rw [Nat.succ_mul]
              _ ≤ m * (size / m) := Nat.mul_le_mul_right _ hk
              _ ≤ size := hm
          intro s hs
          simp only [List.mem_append, List.mem_map, List.mem_range, List.mem_singleton] at hs
          rcases hs with ⟨k, hk, rfl⟩ | rfl
          · exact ⟨by simp, key k (by omega)⟩
          · exact ⟨le_trans (Nat.le_add_right _ _) (key (m - 1) (by omega)), le_refl _⟩

example : slices 8 10 3 = .ok [(0, 3), (3, 6), (6, 10)] := by decide
example : slices 8 2 0 = .ok [(0, 0), (0, 0), (0, 0), (0, 0), (0, 0), (0, 0), (0, 0), (0, 2)] := by
  decide

/-- C29, boundary: the code divides by zero when the number of CPUs is not known. -/
theorem C29_unknown_cpu (size : Nat) : slices 0 size 0 = .error .ub := by
  unfold slices; simp

/-- C29: whatever the number of threads and the schedule, when no element raises an
exception, the joined computation has computed each element exactly once and the
result array holds the result of each element, nothing else being written. -/
theorem C29_result (hw size n : Nat) (sl : List (Nat × Nat)) (hsl : slices hw size n = .ok sl)
    (f : Nat → Except E V) (g : Nat → V) (hf : ∀ ix, ix < size → f ix = .ok (g ix))
    (schedule : List Nat) (hj : joined (run f (init sl) schedule)) :
    (run f (init sl) schedule).trace.Perm (List.range size) ∧
    (run f (init sl) schedule).except = none ∧
    ∀ ix, (run f (init sl) schedule).result ix = if ix < size then some (g ix) else none := by
  have inv := inv_run f size schedule _ (inv_init hsl f)
  generalize run f (init sl) schedule = s at *
  obtain ⟨dropped, hp, hd⟩ := inv.part
  have hnil : s.pending.flatten = [] := List.flatten_eq_nil_iff.2 hj
  have htr : ∀ ix ∈ s.trace, ix < size := fun ix hix =>
    List.mem_range.1 (hp.subset (List.mem_append_left _ hix))
  have hexc : s.except = none := inv.exc.2 fun ix hix => ⟨_, hf ix (htr ix hix)⟩
  have hperm : s.trace.Perm (List.range size) := by
    rw [hnil, hd hexc] at hp
    simpa using hp
  refine ⟨hperm, hexc, ?_⟩
  intro ix
  by_cases h : ix < size
  · rw [if_pos h, inv.res]
    exact ⟨hperm.symm.subset (List.mem_range.2 h), hf ix h⟩
  · rw [if_neg h]
    cases hr : s.result ix with
    | none => rfl
    | some v => exact absurd (htr ix ((inv.res ix v).1 hr).1) h

/-- Two threads, a schedule that mixes them. -/
example : joined (run (fun ix => (Except.ok (ix * ix) : Except Unit Nat))
    (init [(0, 1), (1, 3)]) [1, 0, 1]) := by
  unfold joined; decide

/-- C29: in particular two runs with any numbers of threads and any schedules give
the same array. -/
theorem C29_deterministic (size hw hw' n n' : Nat) (sl sl' : List (Nat × Nat))
    (hsl : slices hw size n = .ok sl) (hsl' : slices hw' size n' = .ok sl')
    (f : Nat → Except E V) (hf : ∀ ix, ix < size → ∃ v, f ix = .ok v)
    (sched sched' : List Nat) (hj : joined (run f (init sl) sched))
    (hj' : joined (run f (init sl') sched')) :
    (run f (init sl) sched).result = (run f (init sl') sched').result := by
  have hv : ∀ ix, ∃ v : Option V, ix < size → ∃ w, v = some w ∧ f ix = .ok w := by
    intro ix
    by_cases h : ix < size
    · obtain ⟨w, hw⟩ := hf ix h; exact ⟨some w, fun _ => ⟨w, rfl, hw⟩⟩
    · exact ⟨none, fun h' => absurd h' h⟩
  have inv := inv_run f size sched _ (inv_init hsl f)
  have inv' := inv_run f size sched' _ (inv_init hsl' f)
  have full : ∀ s : State V E, Inv f size s → joined s → ∀ ix, ix ∈ s.trace ↔ ix < size := by
    intro s i j ix
    obtain ⟨dropped, hp, hd⟩ := i.part
    have hnil : s.pending.flatten = [] := List.flatten_eq_nil_iff.2 j
    have htr : ∀ ix ∈ s.trace, ix < size := fun ix hix =>
      List.mem_range.1 (hp.subset (List.mem_append_left _ hix))
    have hexc : s.except = none := i.exc.2 fun ix hix => hf ix (htr ix hix)
    rw [hnil, hd hexc] at hp
    simp only [List.append_nil] at hp
    exact ⟨htr ix, fun h => hp.symm.subset (List.mem_range.2 h)⟩
  funext ix
  apply Option.ext
  intro v
  rw [inv.res, inv'.res, full _ inv hj, full _ inv' hj']

/-- C29: the call raises exactly when the computation of some element raises, and the
exception raised is the one of an element; the results written are always right. -/
theorem C29_exception (hw size n : Nat) (sl : List (Nat × Nat)) (hsl : slices hw size n = .ok sl)
    (f : Nat → Except E V) (schedule : List Nat) (hj : joined (run f (init sl) schedule)) :
    ((run f (init sl) schedule).except ≠ none ↔ ∃ ix, ix < size ∧ ∃ e, f ix = .error e) ∧
    (∀ e, (run f (init sl) schedule).except = some e → ∃ ix, ix < size ∧ f ix = .error e) ∧
    ∀ ix v, (run f (init sl) schedule).result ix = some v → ix < size ∧ f ix = .ok v := by
  have inv := inv_run f size schedule _ (inv_init hsl f)
  generalize run f (init sl) schedule = s at *
  obtain ⟨dropped, hp, hd⟩ := inv.part
  have hnil : s.pending.flatten = [] := List.flatten_eq_nil_iff.2 hj
  have htr : ∀ ix ∈ s.trace, ix < size := fun ix hix =>
    List.mem_range.1 (hp.subset (List.mem_append_left _ hix))
  refine ⟨⟨?_, ?_⟩, ?_, ?_⟩
  · intro h
    cases he : s.except with
    | none => exact absurd he h
    | some e =>
      obtain ⟨ix, hix, hfe⟩ := inv.excv e he
      exact ⟨ix, htr ix hix, e, hfe⟩
  · rintro ⟨ix, hix, e, hfe⟩ h
    rw [hnil, hd h] at hp
    simp only [List.append_nil] at hp
    obtain ⟨v, hv⟩ := inv.exc.1 h ix (hp.symm.subset (List.mem_range.2 hix))
    rw [hfe] at hv; cases hv
  · intro e he
    obtain ⟨ix, hix, hfe⟩ := inv.excv e he
    exact ⟨ix, htr ix hix, hfe⟩
  · intro ix v h
    obtain ⟨a, b⟩ := (inv.res ix v).1 h
    exact ⟨htr ix a, b⟩

example : joined (run (fun ix => if ix = 1 then Except.error () else Except.ok ix)
    (init [(0, 1), (1, 3)] : State Nat Unit) [1, 0]) := by
  unfold joined; decide

/-- C29: the shared variable that keeps the exception is assigned once by each thread
whose slice holds a failing element; with two such threads the two assignments are
not synchronised (a data race of the code). -/
theorem C29_exception_assignments (f : Nat → Except E V) (sl : List (Nat × Nat))
    (schedule : List Nat) (hj : joined (run f (init sl) schedule)) :
    (run f (init sl) schedule).excWrites =
      sl.countP fun s => (List.range' s.1 (s.2 - s.1)).any fun ix => !(f ix).isOk := by
  have h := excWrites_run f schedule (init sl : State V E)
  have h0 : (run f (init sl) schedule).pending.countP (willRaise f) = 0 := by
    rw [List.countP_eq_zero]
    intro l hl
    rw [hj l hl]
    simp [willRaise]
  rw [h0] at h
  simp only [init, Nat.add_zero, Nat.zero_add, List.countP_map] at h
  exact h

example : (run (fun ix => if ix = 1 then Except.ok ix else Except.error ())
    (init [(0, 1), (1, 3)] : State Nat Unit) [1, 0, 1]).excWrites = 2 := by decide

/-- C29: no deadlock and no endless run: while a thread has work left, its next step
makes progress, and the joined state is reached after at most `size` such steps. -/
theorem C29_progress (f : Nat → Except E V) (s : State V E) :
    (¬ joined s → ∃ k, (step f s k).pending.flatten.length < s.pending.flatten.length) ∧
    (∀ k, step f s k = s ∨ (step f s k).pending.flatten.length < s.pending.flatten.length) ∧
    ∃ schedule, schedule.length ≤ s.pending.flatten.length ∧ joined (run f s schedule) := by
  have h2 : ∀ (s : State V E) k x rest, s.pending[k]? = some (x :: rest) →
      (step f s k).pending.flatten.length < s.pending.flatten.length := by
    intro s k x rest h
    unfold step
    rw [h]
    simp only
    cases f x with
    | ok v => exact sum_set_lt _ _ _ _ _ h (le_refl _)
    | error e => exact sum_set_lt _ _ _ _ _ h (Nat.zero_le _)
  have h1 : ∀ s : State V E, ¬ joined s →
      ∃ k, (step f s k).pending.flatten.length < s.pending.flatten.length := by
    intro s h
    unfold joined at h
    push Not at h
    obtain ⟨l, hl, hne⟩ := h
    obtain ⟨k, hk, hk'⟩ := List.mem_iff_getElem.1 hl
    cases l with
    | nil => exact absurd rfl hne
    | cons x rest =>
      exact ⟨k, h2 s k x rest (by rw [List.getElem?_eq_getElem hk, hk'])⟩
  refine ⟨h1 s, ?_, ?_⟩
  · intro k
    cases h : s.pending[k]? with
    | none => left; unfold step; rw [h]
    | some l =>
      cases l with
      | nil => left; unfold step; rw [h]
      | cons x rest => right; exact h2 s k x rest h
  · generalize hm : s.pending.flatten.length = m
    induction m using Nat.strongRecOn generalizing s with
    | _ m ih =>
      by_cases hj : joined s
      · exact ⟨[], Nat.zero_le _, hj⟩
      · obtain ⟨k, hk⟩ := h1 s hj
        obtain ⟨sch, a, b⟩ := ih _ (by omega) (step f s k) rfl
        exact ⟨k :: sch, by simp only [List.length_cons]; omega, b⟩

end Pyinterp.Thread
