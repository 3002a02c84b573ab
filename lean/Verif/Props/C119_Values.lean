import Mathlib.Data.Rat.Floor
import Verif.Spec.Values

/-
C119: the Python objects of the statistics and of the binnings as values.
-/
namespace Pyinterp.PyObjects

open Spec

variable {O Call : Type}

/-- Each Python object has a C++ object, of its own. -/
structure Own (w : World O) (vals : List O) : Prop where
  nodup : w.objs.Nodup
  length : w.objs.length = vals.length
  value : ∀ a (h : a < vals.length), w.value a = some vals[a]

theorem Own.lt {w : World O} {vals : List O} (h : Own w vals) {p : Nat} (hp : p ∈ w.objs) :
    p < w.heap.length := by
  obtain ⟨a, ha, rfl⟩ := List.getElem_of_mem hp
  have := h.value a (by rw [← h.length]; exact ha)
  unfold World.value at this
  rw [List.getElem?_eq_getElem ha] at this
  exact (List.getElem?_eq_some_iff.1 this).1

theorem Own.value_eq {w : World O} {vals : List O} (h : Own w vals) (a : Nat) :
    w.value a = vals[a]? := by
  by_cases ha : a < vals.length
  · rw [h.value a ha, List.getElem?_eq_getElem ha]
  · rw [List.getElem?_eq_none (not_lt.1 ha)]
    unfold World.value
    rw [List.getElem?_eq_none (by rw [h.length]; exact not_lt.1 ha)]
    rfl

theorem Own.push {w : World O} {vals : List O} (h : Own w vals) (o : O) :
    Own ⟨w.objs ++ [w.heap.length], w.heap ++ [o]⟩ (vals ++ [o]) := by
  refine ⟨?_, by simp [h.length], ?_⟩
  · rw [List.nodup_append]
    refine ⟨h.nodup, by simp, ?_⟩
    intro a ha b hb
    have := h.lt ha
    simp only [List.mem_singleton] at hb
    omega
  · intro a ha
    unfold World.value
    by_cases hl : a < vals.length
    · have hv := h.value a hl
      unfold World.value at hv
      have hl' : a < w.objs.length := by rw [h.length]; exact hl
      rw [List.getElem?_eq_getElem hl'] at hv
      have hp : w.objs[a] < w.heap.length := h.lt (List.getElem_mem hl')
      simp only [List.getElem?_append_left hl', List.getElem?_eq_getElem hl', Option.bind_some]
      rw [List.getElem?_append_left hp, List.getElem_append_left hl]
      exact hv
    · have ea : a = vals.length := by simp at ha; omega
      subst ea
      simp [← h.length]

theorem Own.set {w : World O} {vals : List O} (h : Own w vals) {a p : Nat}
    (hp : w.objs[a]? = some p) (r : O) : Own ⟨w.objs, w.heap.set p r⟩ (vals.set a r) := by
  obtain ⟨ha, rfl⟩ := List.getElem?_eq_some_iff.1 hp
  refine ⟨h.nodup, by simp [h.length], ?_⟩
  intro b hb
  have hb' : b < w.objs.length := by simpa [h.length] using hb
  unfold World.value
  simp only [List.getElem?_eq_getElem hb', Option.bind_some]
  rw [List.getElem_set]
  by_cases e : a = b
  · subst e
    rw [if_pos rfl, List.getElem?_set_self (h.lt (List.getElem_mem ha))]
  · rw [if_neg e]
    have hne : w.objs[a] ≠ w.objs[b] := fun he => e ((h.nodup.getElem_inj_iff).1 he)
    rw [List.getElem?_set_ne hne]
    have hv := h.value b (by rw [← h.length]; exact hb')
    unfold World.value at hv
    rw [List.getElem?_eq_getElem hb'] at hv
    exact hv

theorem Own.obj {w : World O} {vals : List O} (_h : Own w vals) {a : Nat} {u : O}
    (hu : w.value a = some u) : ∃ p, w.objs[a]? = some p := by
  unfold World.value at hu
  cases e : w.objs[a]? with
  | none => rw [e] at hu; cases hu
  | some p => exact ⟨p, rfl⟩

/-- One operation which shares nothing. -/
theorem Own.step {iadd : O → O → Out O} {run : Call → O → Out O} {w : World O} {vals : List O}
    (h : Own w vals) (op : Op O Call) (hop : NoSharing op) :
    (∃ w' vals', step iadd run w op = .ok w' ∧ valueStep iadd run vals op = .ok vals' ∧ Own w' vals') ∨
      (∃ e e', PyObjects.step iadd run w op = .error e ∧ valueStep iadd run vals op = .error e') := by
  cases op with
  | new o => exact .inl ⟨_, _, rfl, rfl, h.push o⟩
  | copyCopy a => exact hop.elim
  | add a b => exact hop.elim
  | copyMethod a =>
    have hv := h.value_eq a
    cases e : vals[a]? with
    | none =>
      rw [e] at hv
      exact .inr ⟨.exn, .exn, by simp only [PyObjects.step, hv], by simp only [valueStep, e]⟩
    | some u =>
      rw [e] at hv
      exact .inl ⟨_, _, by simp only [PyObjects.step, hv], by simp only [valueStep, e], h.push u⟩
  | iadd a b =>
    have hv := h.value_eq a
    have hw := h.value_eq b
    cases e : vals[a]? with
    | none =>
      rw [e] at hv
      refine .inr ⟨.exn, .exn, ?_, by simp only [valueStep, e]⟩
      simp only [PyObjects.step, hv]
      cases w.objs[a]? <;> rfl
    | some u =>
      rw [e] at hv
      obtain ⟨p, hp⟩ := h.obj hv
      cases e' : vals[b]? with
      | none =>
        rw [e'] at hw
        exact .inr ⟨.exn, .exn, by simp only [PyObjects.step, hv, hw, hp], by simp only [valueStep, e, e']⟩
      | some v =>
        rw [e'] at hw
        cases er : iadd u v with
        | error x =>
          exact .inr ⟨x, x, by simp only [PyObjects.step, hv, hw, hp, er, bind, Except.bind],
            by simp only [valueStep, e, e', er, bind, Except.bind]⟩
        | ok r =>
          exact .inl ⟨_, _, by simp only [PyObjects.step, hv, hw, hp, er, bind, Except.bind],
            by simp only [valueStep, e, e', er, bind, Except.bind], h.set hp r⟩
  | call a c =>
    have hv := h.value_eq a
    cases e : vals[a]? with
    | none =>
      rw [e] at hv
      refine .inr ⟨.exn, .exn, ?_, by simp only [valueStep, e]⟩
      simp only [PyObjects.step, hv]
      cases w.objs[a]? <;> rfl
    | some u =>
      rw [e] at hv
      obtain ⟨p, hp⟩ := h.obj hv
      cases er : run c u with
      | error x =>
        exact .inr ⟨x, x, by simp only [PyObjects.step, hv, hp, er, bind, Except.bind],
          by simp only [valueStep, e, er, bind, Except.bind]⟩
      | ok r =>
        exact .inl ⟨_, _, by simp only [PyObjects.step, hv, hp, er, bind, Except.bind],
          by simp only [valueStep, e, er, bind, Except.bind], h.set hp r⟩

theorem Own.exec {iadd : O → O → Out O} {run : Call → O → Out O} {w : World O} {vals : List O}
    (h : Own w vals) (ops : List (Op O Call)) (hops : ∀ op ∈ ops, NoSharing op) :
    Own (exec iadd run w ops) (valueExec iadd run vals ops) := by
  induction ops generalizing w vals with
  | nil => exact h
  | cons op ops ih =>
    have hr : ∀ o ∈ ops, NoSharing o := fun o ho => hops o (by simp [ho])
    rcases h.step (iadd := iadd) (run := run) op (hops op (by simp)) with
      ⟨w', vals', e, e', h'⟩ | ⟨x, x', e, e'⟩
    · simp only [PyObjects.exec, valueExec, e, e']
      exact ih h' hr
    · simp only [PyObjects.exec, valueExec, e, e']
      exact ih h hr

/-- C119: in every program that creates objects, copies them with `copy()`, adds them with `+=`
and calls `push` and `clear`, in any order and with any operands (also `a += a`), the objects
behave as independent values: each operation changes only the object on which it is called, and a
copy is not changed by the operations on the original. -/
theorem C119_values (iadd : O → O → Out O) (run : Call → O → Out O) (ops : List (Op O Call))
    (hops : ∀ op ∈ ops, NoSharing op) (a : Nat) :
    (exec iadd run ⟨[], []⟩ ops).value a = (valueExec iadd run [] ops)[a]? :=
  have h0 : Own (⟨[], []⟩ : World O) ([] : List O) :=
    ⟨List.nodup_nil, rfl, fun _ h => absurd h (Nat.not_lt_zero _)⟩
  (h0.exec ops hops).value_eq a

/- Two data sets, a copy, `+=` on the original and `a += a`: the numbers of samples. -/
example : (∀ op ∈ ([.new 1, .new 2, .copyMethod 0, .iadd 0 1, .iadd 1 1, .call 2 10] :
      List (Op Nat Nat)), NoSharing op) ∧
    ((List.range 4).map fun a => (exec (fun u v => .ok (u + v)) (fun c u => .ok (u + c)) ⟨[], []⟩
      ([.new 1, .new 2, .copyMethod 0, .iadd 0 1, .iadd 1 1, .call 2 10] : List (Op Nat Nat))).value a) =
      [some 3, some 4, some 11, none] := by
  constructor
  · intro op hop
    simp only [List.mem_cons, List.not_mem_nil, or_false] at hop
    rcases hop with rfl | rfl | rfl | rfl | rfl | rfl <;> trivial
  · decide

/-- Nobody else holds the C++ object of `c`. -/
structure Private (w : World O) (c p : Nat) (u : O) : Prop where
  obj : w.objs[c]? = some p
  cell : w.heap[p]? = some u
  other : ∀ a, a ≠ c → w.objs[a]? ≠ some p

theorem Private.step {iadd : O → O → Out O} {run : Call → O → Out O} {w w' : World O} {c p : Nat}
    {u : O} (h : Private w c p u) (op : Op O Call) (hop : Leaves c op)
    (e : step iadd run w op = .ok w') : Private w' c p u := by
  obtain ⟨hc, _⟩ := List.getElem?_eq_some_iff.1 h.obj
  obtain ⟨hp, _⟩ := List.getElem?_eq_some_iff.1 h.cell
  have push : ∀ o, Private ⟨w.objs ++ [w.heap.length], w.heap ++ [o]⟩ c p u := by
    intro o
    refine ⟨by rw [List.getElem?_append_left hc]; exact h.obj,
      by rw [List.getElem?_append_left hp]; exact h.cell, ?_⟩
    intro a ha
    by_cases hl : a < w.objs.length
    · rw [List.getElem?_append_left hl]; exact h.other a ha
    · rw [List.getElem?_append_right (not_lt.1 hl)]
      intro e
      have : p ∈ [w.heap.length] := List.mem_of_getElem? e
      simp only [List.mem_singleton] at this
      omega
  have share : ∀ q, q ≠ p → ∀ heap : List O, heap[p]? = some u → Private ⟨w.objs ++ [q], heap⟩ c p u := by
    intro q hq heap hh
    refine ⟨by rw [List.getElem?_append_left hc]; exact h.obj, hh, ?_⟩
    intro a ha
    by_cases hl : a < w.objs.length
    · rw [List.getElem?_append_left hl]; exact h.other a ha
    · rw [List.getElem?_append_right (not_lt.1 hl)]
      intro e
      have : p ∈ [q] := List.mem_of_getElem? e
      simp only [List.mem_singleton] at this
      exact hq this.symm
  have set' : ∀ a q r, a ≠ c → w.objs[a]? = some q → (w.heap.set q r)[p]? = some u := by
    intro a q r ha hq
    have hne : q ≠ p := fun e => h.other a ha (by rw [← e]; exact hq)
    rw [List.getElem?_set_ne hne]
    exact h.cell
  cases op with
  | new o =>
    simp only [PyObjects.step] at e
    obtain rfl := Except.ok.inj e
    exact push o
  | copyMethod a =>
    simp only [PyObjects.step] at e
    cases ev : w.value a with
    | none => rw [ev] at e; cases e
    | some v => rw [ev] at e; obtain rfl := Except.ok.inj e; exact push v
  | copyCopy a =>
    simp only [PyObjects.step] at e
    cases ev : w.objs[a]? with
    | none => rw [ev] at e; cases e
    | some q =>
      rw [ev] at e
      obtain rfl := Except.ok.inj e
      exact share q (fun e => h.other a hop (by rw [← e]; exact ev)) _ h.cell
  | iadd a b =>
    simp only [PyObjects.step] at e
    cases e1 : w.objs[a]? with
    | none => rw [e1] at e; cases e
    | some q =>
      cases e2 : w.value a with
      | none => rw [e1, e2] at e; cases e
      | some x =>
        cases e3 : w.value b with
        | none => rw [e1, e2, e3] at e; cases e
        | some y =>
          rw [e1, e2, e3] at e
          simp only [bind, Except.bind] at e
          cases e4 : iadd x y with
          | error z => rw [e4] at e; cases e
          | ok r =>
            rw [e4] at e
            obtain rfl := Except.ok.inj e
            exact ⟨h.obj, set' a q r hop e1, h.other⟩
  | add a b =>
    simp only [PyObjects.step] at e
    cases e1 : w.objs[a]? with
    | none => rw [e1] at e; cases e
    | some q =>
      cases e2 : w.value a with
      | none => rw [e1, e2] at e; cases e
      | some x =>
        cases e3 : w.value b with
        | none => rw [e1, e2, e3] at e; cases e
        | some y =>
          rw [e1, e2, e3] at e
          simp only [bind, Except.bind] at e
          cases e4 : iadd x y with
          | error z => rw [e4] at e; cases e
          | ok r =>
            rw [e4] at e
            obtain rfl := Except.ok.inj e
            exact share q (fun e => h.other a hop (by rw [← e]; exact e1)) _ (set' a q r hop e1)
  | call a k =>
    simp only [PyObjects.step] at e
    cases e1 : w.objs[a]? with
    | none => rw [e1] at e; cases e
    | some q =>
      cases e2 : w.value a with
      | none => rw [e1, e2] at e; cases e
      | some x =>
        rw [e1, e2] at e
        simp only [bind, Except.bind] at e
        cases e4 : run k x with
        | error z => rw [e4] at e; cases e
        | ok r =>
          rw [e4] at e
          obtain rfl := Except.ok.inj e
          exact ⟨h.obj, set' a q r hop e1, h.other⟩

theorem Private.exec {iadd : O → O → Out O} {run : Call → O → Out O} {w : World O} {c p : Nat}
    {u : O} (h : Private w c p u) (ops : List (Op O Call)) (hops : ∀ op ∈ ops, Leaves c op) :
    Private (exec iadd run w ops) c p u := by
  induction ops generalizing w with
  | nil => exact h
  | cons op ops ih =>
    have hr : ∀ o ∈ ops, Leaves c o := fun o ho => hops o (by simp [ho])
    simp only [PyObjects.exec]
    cases e : PyObjects.step iadd run w op with
    | error x => exact ih h hr
    | ok w' => exact ih (h.step op (hops op (by simp)) e) hr

/-- Every object has a C++ object: what the operations keep. -/
def Valid (w : World O) : Prop := ∀ p ∈ w.objs, p < w.heap.length

theorem Valid.step {iadd : O → O → Out O} {run : Call → O → Out O} {w w' : World O}
    (h : Valid w) (op : Op O Call) (e : step iadd run w op = .ok w') : Valid w' := by
  have push : ∀ o, Valid (⟨w.objs ++ [w.heap.length], w.heap ++ [o]⟩ : World O) := by
    intro o p hp
    rcases List.mem_append.1 hp with hp | hp
    · have := h p hp; simp; omega
    · simp only [List.mem_singleton] at hp; simp; omega
  cases op with
  | new o =>
    simp only [PyObjects.step] at e
    obtain rfl := Except.ok.inj e
    exact push o
  | copyMethod a =>
    simp only [PyObjects.step] at e
    cases ev : w.value a with
    | none => rw [ev] at e; cases e
    | some v => rw [ev] at e; obtain rfl := Except.ok.inj e; exact push v
  | copyCopy a =>
    simp only [PyObjects.step] at e
    cases ev : w.objs[a]? with
    | none => rw [ev] at e; cases e
    | some q =>
      rw [ev] at e
      obtain rfl := Except.ok.inj e
      intro p hp
      rcases List.mem_append.1 hp with hp | hp
      · exact h p hp
      · simp only [List.mem_singleton] at hp
        subst hp
        exact h p (List.mem_of_getElem? ev)
  | iadd a b =>
    simp only [PyObjects.step] at e
    cases e1 : w.objs[a]? with
    | none => rw [e1] at e; cases e
    | some q =>
      cases e2 : w.value a with
      | none => rw [e1, e2] at e; cases e
      | some x =>
        cases e3 : w.value b with
        | none => rw [e1, e2, e3] at e; cases e
        | some y =>
          rw [e1, e2, e3] at e
          simp only [bind, Except.bind] at e
          cases e4 : iadd x y with
          | error z => rw [e4] at e; cases e
          | ok r =>
            rw [e4] at e
            obtain rfl := Except.ok.inj e
            intro p hp
            simpa using h p hp
  | add a b =>
    simp only [PyObjects.step] at e
    cases e1 : w.objs[a]? with
    | none => rw [e1] at e; cases e
    | some q =>
      cases e2 : w.value a with
      | none => rw [e1, e2] at e; cases e
      | some x =>
        cases e3 : w.value b with
        | none => rw [e1, e2, e3] at e; cases e
        | some y =>
          rw [e1, e2, e3] at e
          simp only [bind, Except.bind] at e
          cases e4 : iadd x y with
          | error z => rw [e4] at e; cases e
          | ok r =>
            rw [e4] at e
            obtain rfl := Except.ok.inj e
            intro p hp
            rcases List.mem_append.1 hp with hp | hp
            · simpa using h p hp
            · simp only [List.mem_singleton] at hp
              subst hp
              simpa using h p (List.mem_of_getElem? e1)
  | call a k =>
    simp only [PyObjects.step] at e
    cases e1 : w.objs[a]? with
    | none => rw [e1] at e; cases e
    | some q =>
      cases e2 : w.value a with
      | none => rw [e1, e2] at e; cases e
      | some x =>
        rw [e1, e2] at e
        simp only [bind, Except.bind] at e
        cases e4 : run k x with
        | error z => rw [e4] at e; cases e
        | ok r =>
          rw [e4] at e
          obtain rfl := Except.ok.inj e
          intro p hp
          simpa using h p hp

theorem Valid.exec {iadd : O → O → Out O} {run : Call → O → Out O} {w : World O}
    (h : Valid w) (ops : List (Op O Call)) : Valid (exec iadd run w ops) := by
  induction ops generalizing w with
  | nil => exact h
  | cons op ops ih =>
    simp only [PyObjects.exec]
    cases e : PyObjects.step iadd run w op with
    | error x => exact ih h
    | ok w' => exact ih (h.step op e)

/-- C119: after any program `before`, also with `copy.copy` and `+`, `c = a.copy()` holds the value
of `a`; it keeps it whatever is done afterwards (`after`), as long as `c` itself is neither
modified nor given to `copy.copy` or as the left operand of `+`. -/
theorem C119_copy_independent (iadd : O → O → Out O) (run : Call → O → Out O)
    (before after : List (Op O Call)) (a : Nat) (u : O)
    (ha : (exec iadd run ⟨[], []⟩ before).value a = some u) :
    ∃ w c, step iadd run (exec iadd run ⟨[], []⟩ before) (.copyMethod a) = .ok w ∧
      c = (exec iadd run ⟨[], []⟩ before).objs.length ∧ w.value c = some u ∧
      ((∀ op ∈ after, Leaves c op) → (exec iadd run w after).value c = some u) := by
  have hv : Valid (exec iadd run (⟨[], []⟩ : World O) before) :=
    Valid.exec (fun p hp => by cases hp) before
  generalize exec iadd run (⟨[], []⟩ : World O) before = w0 at ha hv ⊢
  have hpriv : Private (⟨w0.objs ++ [w0.heap.length], w0.heap ++ [u]⟩ : World O) w0.objs.length
      w0.heap.length u := by
    refine ⟨by simp, by simp, ?_⟩
    intro b hb
    by_cases hl : b < w0.objs.length
    · rw [List.getElem?_append_left hl]
      intro e
      have := hv _ (List.mem_of_getElem? e)
      omega
    · rw [List.getElem?_eq_none (by simp; omega)]
      simp
  refine ⟨⟨w0.objs ++ [w0.heap.length], w0.heap ++ [u]⟩, w0.objs.length, ?_, rfl, ?_, fun h => ?_⟩
  · simp only [PyObjects.step, ha]
  · unfold World.value; rw [hpriv.obj]; exact hpriv.cell
  · have := hpriv.exec (iadd := iadd) (run := run) after h
    unfold World.value; rw [this.obj]; exact this.cell

example : (exec (fun u v => .ok (u + v)) (fun c u => .ok (u + c)) ⟨[], []⟩
      ([.new 1, .new 2, .copyCopy 0, .add 0 1] : List (Op Nat Nat))).value 2 = some 3 ∧
    (∀ op ∈ ([.iadd 0 4, .add 2 4, .copyMethod 4] : List (Op Nat Nat)), Leaves 4 op) := by
  refine ⟨by decide, ?_⟩
  intro op hop
  simp only [List.mem_cons, List.not_mem_nil, or_false] at hop
  rcases hop with rfl | rfl | rfl <;> simp [Leaves]

/-- C119, what is false: `copy.copy(a)` and `a + b` share the C++ object of `a`: after
`c = copy.copy(a)`, `a += b` changes `c`; after `c = a + b`, `a` is changed and so is `c` by the
next `a += b`. -/
theorem C119_sharing_false (iadd : O → O → Out O) (run : Call → O → Out O) (u v r s : O)
    (h : iadd u v = .ok r) (h' : iadd r v = .ok s) :
    ((exec iadd run ⟨[], []⟩ ([.new u, .new v, .copyCopy 0, .iadd 0 1] : List (Op O Call))).value 2 =
        some r ∧
      (valueExec iadd run [] ([.new u, .new v, .copyCopy 0, .iadd 0 1] : List (Op O Call)))[2]? =
        some u) ∧
    ((exec iadd run ⟨[], []⟩ ([.new u, .new v, .add 0 1, .iadd 0 1] : List (Op O Call))).value 2 =
        some s ∧
      (valueExec iadd run [] ([.new u, .new v, .add 0 1, .iadd 0 1] : List (Op O Call)))[2]? =
        some r) := by
  simp [exec, valueExec, step, valueStep, World.value, h, h', bind, Except.bind]

/-- C119: `+=` of `DescriptiveStatistics` refuses objects of other types or shapes, and then
nothing is changed. -/
theorem C119_refused {K : Type} [Field K] [LinearOrder K] (run : Call → _ → Out _)
    (w : World (Delayed.Typed (List Nat × List (Out (Stats.Acc K))))) (a b : Nat)
    (u v : Delayed.Typed (List Nat × List (Out (Stats.Acc K)))) (ha : w.value a = some u)
    (hb : w.value b = some v) (h : u.dtype ≠ v.dtype ∨ u.instance'.1 ≠ v.instance'.1)
    (ops : List (Op (Delayed.Typed (List Nat × List (Out (Stats.Acc K)))) Call)) :
    step statsIadd run w (.iadd a b) = .error .exn ∧
      exec statsIadd run w (.iadd a b :: ops) = exec statsIadd run w ops := by
  have e : step statsIadd run w (.iadd a b) = .error .exn := by
    have hobj : ∃ p, w.objs[a]? = some p := by
      unfold World.value at ha
      cases e : w.objs[a]? with
      | none => rw [e] at ha; cases ha
      | some p => exact ⟨p, rfl⟩
    obtain ⟨p, hp⟩ := hobj
    simp only [PyObjects.step, hp, ha, hb, statsIadd, Delayed.Typed.iadd]
    by_cases hd : u.dtype ≠ v.dtype
    · rw [if_pos hd]; rfl
    · rw [if_neg hd]
      have hs : u.instance'.1 ≠ v.instance'.1 := h.resolve_left hd
      simp only [Delayed.addCells, if_pos hs, bind, Except.bind]
  refine ⟨e, ?_⟩
  simp only [exec, e]

example : (⟨.float64, ([2], [])⟩ : Delayed.Typed (List Nat × List (Out (Stats.Acc ℚ)))).instance'.1 ≠
    (⟨.float64, ([3], [])⟩ : Delayed.Typed (List Nat × List (Out (Stats.Acc ℚ)))).instance'.1 := by
  decide

end Pyinterp.PyObjects
