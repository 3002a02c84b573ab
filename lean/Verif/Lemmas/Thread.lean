import Mathlib.Data.List.Perm.Basic
import Mathlib.Data.List.Perm.Subperm
import Mathlib.Data.List.Range
import Mathlib.Data.List.Nodup
import Verif.Model.Thread

namespace Pyinterp.Thread

/-- consecutive slices of equal length -/
theorem flatten_shift (shift n : Nat) :
    ((List.range n).map fun k => List.range' (k * shift) shift).flatten = List.range (n * shift) := by
  induction n with
  | zero => simp
  | succ n ih =>
    rw [List.range_succ, List.map_append, List.flatten_append, ih]
    simp only [List.map_cons, List.map_nil, List.flatten_cons, List.flatten_nil, List.append_nil]
    rw [List.range_eq_range', List.range_eq_range', Nat.succ_mul,
      ← List.range'_append_1 (s := 0), Nat.zero_add]

theorem slices_flatten {hw size n : Nat} {sl : List (Nat × Nat)} (h : slices hw size n = .ok sl) :
    (sl.map fun s => List.range' s.1 (s.2 - s.1)).flatten = List.range size := by
  unfold slices at h
  split at h
  · cases h
    simp [List.range_eq_range']
  · simp only at h
    generalize (if n = 0 then hw else n) = m at *
    split at h
    · cases h
    · cases h
      rename_i h1 h0
      have hm : (m - 1) * (size / m) ≤ size := by
        calc (m - 1) * (size / m) ≤ m * (size / m) := Nat.mul_le_mul_right _ (by omega)
          _ ≤ size := Nat.mul_div_le size m
      rw [List.map_append, List.flatten_append, List.map_map]
      have : ((fun s : Nat × Nat => List.range' s.1 (s.2 - s.1)) ∘
          fun k => (k * (size / m), k * (size / m) + size / m)) =
          fun k => List.range' (k * (size / m)) (size / m) := by
        funext k
        simp
      rw [this, flatten_shift]
      simp only [List.map_cons, List.map_nil, List.flatten_cons, List.flatten_nil, List.append_nil]
      rw [List.range_eq_range', List.range_eq_range']
      have := List.range'_append_1 (s := 0) (m := (m - 1) * (size / m)) (n := size - (m - 1) * (size / m))
      rw [Nat.zero_add] at this
      rw [this]
      congr 1
      omega

/-- removing the head of the list `k` -/
theorem perm_set_tail {α : Type} : ∀ (p : List (List α)) (k : Nat) (x : α) (rest : List α),
    p[k]? = some (x :: rest) → p.flatten.Perm (x :: (p.set k rest).flatten)
  | [], k, x, rest, h => by simp at h
  | l :: p, 0, x, rest, h => by
    simp only [List.getElem?_cons_zero, Option.some.injEq] at h
    subst h
    simp
  | l :: p, k + 1, x, rest, h => by
    simp only [List.getElem?_cons_succ] at h
    have := perm_set_tail p k x rest h
    simp only [List.set_cons_succ, List.flatten_cons]
    exact (List.Perm.append_left l this).trans List.perm_middle

/-- emptying the list `k` -/
theorem perm_set_nil {α : Type} : ∀ (p : List (List α)) (k : Nat) (x : α) (rest : List α),
    p[k]? = some (x :: rest) → p.flatten.Perm (x :: ((p.set k []).flatten ++ rest))
  | [], k, x, rest, h => by simp at h
  | l :: p, 0, x, rest, h => by
    simp only [List.getElem?_cons_zero, Option.some.injEq] at h
    subst h
    simpa using List.perm_append_comm
  | l :: p, k + 1, x, rest, h => by
    simp only [List.getElem?_cons_succ] at h
    have := perm_set_nil p k x rest h
    simp only [List.set_cons_succ, List.flatten_cons, List.append_assoc]
    exact (List.Perm.append_left l this).trans List.perm_middle

variable {V E : Type}

/-- Invariant of every execution: the elements computed, to be computed and
dropped after an exception are the elements of the arrays, each once. -/
structure Inv (f : Nat → Except E V) (size : Nat) (s : State V E) : Prop where
  part : ∃ dropped, (s.trace ++ (s.pending.flatten ++ dropped)).Perm (List.range size) ∧
    (s.except = none → dropped = [])
  exc : s.except = none ↔ ∀ ix ∈ s.trace, ∃ v, f ix = .ok v
  excv : ∀ e, s.except = some e → ∃ ix ∈ s.trace, f ix = .error e
  res : ∀ ix v, s.result ix = some v ↔ ix ∈ s.trace ∧ f ix = .ok v

theorem inv_step (f : Nat → Except E V) (size : Nat) (s : State V E) (k : Nat)
    (h : Inv f size s) : Inv f size (step f s k) := by
  unfold step
  split
  · next ix rest hk =>
    obtain ⟨dropped, hp, hd⟩ := h.part
    cases hf : f ix with
    | ok v =>
      refine ⟨⟨dropped, ?_, hd⟩, ?_, ?_, ?_⟩
      · refine List.Perm.trans ?_ hp
        have := perm_set_tail _ _ _ _ hk
        simp only [List.cons_append]
        refine List.Perm.trans ?_ (List.Perm.append_left s.trace
          (List.Perm.append_right dropped this.symm))
        simp only [List.cons_append]
        exact List.perm_middle.symm
      · rw [h.exc]
        simp only [List.mem_cons, forall_eq_or_imp]
        exact ⟨fun g => ⟨⟨v, hf⟩, g⟩, fun g => g.2⟩
      · intro e he
        obtain ⟨j, hj, hj'⟩ := h.excv e he
        exact ⟨j, List.mem_cons_of_mem _ hj, hj'⟩
      · intro i w
        simp only [List.mem_cons]
        by_cases hi : i = ix
        · subst hi
          rw [if_pos rfl, hf]
          constructor
          · intro e; exact ⟨Or.inl rfl, congrArg Except.ok (Option.some.inj e)⟩
          · intro e; exact congrArg some (Except.ok.inj e.2)
        · rw [if_neg hi, h.res]
          simp [hi]
    | error e =>
      refine ⟨⟨rest ++ dropped, ?_, ?_⟩, ?_, ?_, ?_⟩
      · refine List.Perm.trans ?_ hp
        have := perm_set_nil _ _ _ _ hk
        simp only [List.cons_append]
        refine List.Perm.trans ?_ (List.Perm.append_left s.trace
          (List.Perm.append_right dropped this.symm))
        simp only [List.cons_append, List.append_assoc]
        exact List.perm_middle.symm
      · intro g; cases g
      · constructor
        · intro g; cases g
        · intro g
          obtain ⟨v, hv⟩ := g ix (List.mem_cons_self ..)
          rw [hf] at hv; cases hv
      · intro e' he'
        cases he'
        exact ⟨ix, List.mem_cons_self .., hf⟩
      · intro i w
        simp only [List.mem_cons, h.res]
        constructor
        · rintro ⟨a, b⟩; exact ⟨Or.inr a, b⟩
        · rintro ⟨a | a, b⟩
          · subst a; rw [hf] at b; cases b
          · exact ⟨a, b⟩
  · exact h

theorem inv_run (f : Nat → Except E V) (size : Nat) (sched : List Nat) (s : State V E)
    (h : Inv f size s) : Inv f size (run f s sched) := by
  unfold run
  induction sched generalizing s with
  | nil => exact h
  | cons k l ih => exact ih _ (inv_step f size s k h)

theorem inv_init {hw size n : Nat} {sl : List (Nat × Nat)} (h : slices hw size n = .ok sl)
    (f : Nat → Except E V) : Inv f size (init sl : State V E) := by
  refine ⟨⟨[], ?_, fun _ => rfl⟩, ?_, ?_, ?_⟩
  · simp only [init, List.nil_append, List.append_nil, slices_flatten h]
    exact List.Perm.refl _
  · simp [init]
  · intro e he; cases he
  · intro ix v; simp [init]

/-! ### assignments of the shared exception -/

/-- the thread has still to raise an exception -/
def willRaise (f : Nat → Except E V) (l : List Nat) : Bool := l.any fun ix => !(f ix).isOk

theorem countP_set {α : Type} (p : α → Bool) : ∀ (l : List α) (k : Nat) (a b : α), l[k]? = some a →
    (l.set k b).countP p + (if p a then 1 else 0) = l.countP p + (if p b then 1 else 0)
  | [], k, a, b, h => by simp at h
  | x :: l, 0, a, b, h => by
    simp only [List.getElem?_cons_zero, Option.some.injEq] at h
    subst h
    simp only [List.set_cons_zero, List.countP_cons]
    omega
  | x :: l, k + 1, a, b, h => by
    simp only [List.getElem?_cons_succ] at h
    have := countP_set p l k a b h
    simp only [List.set_cons_succ, List.countP_cons]
    omega

theorem excWrites_step (f : Nat → Except E V) (s : State V E) (k : Nat) :
    (step f s k).excWrites + (step f s k).pending.countP (willRaise f) =
      s.excWrites + s.pending.countP (willRaise f) := by
  unfold step
  split
  · next ix rest hk =>
    cases hf : f ix with
    | ok v =>
      have := countP_set (willRaise f) s.pending k _ rest hk
      have e : willRaise f (ix :: rest) = willRaise f rest := by
        simp [willRaise, hf, Except.isOk, Except.toBool]
      rw [e] at this
      simp only
      omega
    | error e =>
      have := countP_set (willRaise f) s.pending k _ [] hk
      have e1 : willRaise f (ix :: rest) = true := by
        simp [willRaise, hf, Except.isOk, Except.toBool]
      have e2 : willRaise f [] = false := rfl
      rw [e1, e2] at this
      simp only [if_true, Bool.false_eq_true, if_false] at this
      simp only
      omega
  · rfl

theorem excWrites_run (f : Nat → Except E V) (sched : List Nat) (s : State V E) :
    (run f s sched).excWrites + (run f s sched).pending.countP (willRaise f) =
      s.excWrites + s.pending.countP (willRaise f) := by
  unfold run
  induction sched generalizing s with
  | nil => rfl
  | cons k l ih => exact (ih _).trans (excWrites_step f s k)

/-! ### progress -/

theorem sum_set_lt : ∀ (p : List (List Nat)) (k : Nat) (x : Nat) (rest l' : List Nat),
    p[k]? = some (x :: rest) → l'.length ≤ rest.length →
    (p.set k l').flatten.length < p.flatten.length
  | [], k, x, rest, l', h, _ => by simp at h
  | l :: p, 0, x, rest, l', h, h' => by
    simp only [List.getElem?_cons_zero, Option.some.injEq] at h
    subst h
    simp
    omega
  | l :: p, k + 1, x, rest, l', h, h' => by
    simp only [List.getElem?_cons_succ] at h
    have := sum_set_lt p k x rest l' h h'
    simp only [List.set_cons_succ, List.flatten_cons, List.length_append]
    omega

end Pyinterp.Thread
