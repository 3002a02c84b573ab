import Verif.Model.Base

/-
Model of src/pyinterp/core/include/pyinterp/detail/thread.hpp and of the worker
functions given to `detail::dispatch` (bivariate.hpp:138-154, trivariate.hpp:115-131,
quadrivariate.hpp:159-175, rtree.hpp:551-..., fill.hpp:506, ...): a loop over the
elements of the slice, one independent result per element, the exceptions being
caught in a shared `except` variable.

An execution is any interleaving of the elementary steps of the threads: one
step computes one element. Not modelled: failure of the creation of a thread.
-/
namespace Pyinterp.Thread

/-- The slices [start, end[ given to the workers by `dispatch` (thread.hpp:20-46).
`hw` is `std::thread::hardware_concurrency()`; when it is 0 the code divides by zero. -/
def slices (hw size numThreads : Nat) : Out (List (Nat × Nat)) :=
  if numThreads = 1 then .ok [(0, size)]
  else
    let n := if numThreads = 0 then hw else numThreads
    if n = 0 then .error .ub
    else
      let shift := size / n
      .ok (((List.range (n - 1)).map fun k => (k * shift, k * shift + shift)) ++
        [((n - 1) * shift, size)])

/-- State of a parallel computation: the elements that each thread still has to
compute, the result array (`none`: not written), the shared `except` variable, the
number of assignments to it and the history of the elements computed (most recent
first). -/
structure State (V E : Type) where
  pending : List (List Nat)
  result : Nat → Option V
  except : Option E
  excWrites : Nat
  trace : List Nat

/-- Start of the workers: `for (ix = start; ix < end; ++ix)` (bivariate.hpp:141). -/
def init {V E : Type} (sl : List (Nat × Nat)) : State V E where
  pending := sl.map fun s => List.range' s.1 (s.2 - s.1)
  result := fun _ => none
  except := none
  excWrites := 0
  trace := []

/-- One step of the thread `k` (bivariate.hpp:140-147): it computes its next
element; an exception leaves the loop and is stored in `except`. A thread that has
finished does nothing. -/
def step {V E : Type} (f : Nat → Except E V) (s : State V E) (k : Nat) : State V E :=
  match s.pending[k]? with
  | some (ix :: rest) =>
    match f ix with
    | .ok v =>
      { s with
        pending := s.pending.set k rest
        result := fun i => if i = ix then some v else s.result i
        trace := ix :: s.trace }
    | .error e =>
      { s with
        pending := s.pending.set k []
        except := some e
        excWrites := s.excWrites + 1
        trace := ix :: s.trace }
  | _ => s

/-- The schedule is the sequence of the threads that make a step. -/
def run {V E : Type} (f : Nat → Except E V) (s : State V E) (schedule : List Nat) : State V E :=
  schedule.foldl (step f) s

/-- All the threads have been joined (thread.hpp:43-45). -/
def joined {V E : Type} (s : State V E) : Prop := ∀ l ∈ s.pending, l = []

end Pyinterp.Thread
