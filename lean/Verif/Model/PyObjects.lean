import Verif.Model.Delayed

/-
The Python objects that hold a C++ object in the attribute `_instance` (`DescriptiveStatistics`,
`StreamingHistogram`, `Binning2D`, `Binning1D`, `Histogram2D`), and the operations that create,
share or modify these C++ objects. A Python object is the address of its C++ object.
-/
namespace Pyinterp.PyObjects

/-- The state of a program: the Python objects, in the order of their creation, and the C++
objects. -/
structure World (O : Type) where
  objs : List Nat
  heap : List O

/-- The operations of a program. `Call` are the other methods that modify the instance (`push`,
`clear`). -/
inductive Op (O Call : Type) where
  /-- the constructor, with the C++ object that it builds -/
  | new (o : O)
  /-- `a.copy()` -/
  | copyMethod (a : Nat)
  /-- `copy.copy(a)` -/
  | copyCopy (a : Nat)
  /-- `a += b` -/
  | iadd (a b : Nat)
  /-- `a + b` -/
  | add (a b : Nat)
  /-- `a.push(...)`, `a.clear()` -/
  | call (a : Nat) (c : Call)
  deriving DecidableEq

section
variable {O Call : Type}

/-- The C++ object of a Python object (statistics/descriptive_descriptive.py:101-110). -/
def World.value (w : World O) (a : Nat) : Option O := w.objs[a]?.bind fun p => w.heap[p]?

/-- One operation; `iadd` is the operator `+=` of the C++ objects with the test of the types, and
`run` the effect of the other methods. An object that does not exist is a NameError. Simplification:
`iadd` acts on the values of the two operands also when they are the same object, which Model/SelfMerge.lean
shows for the statistics and the binnings and refutes for the histograms.

* the constructors (statistics/descriptive_descriptive.py:87-110, binning.py:51-63): a new C++
  object;
* `copy()` (statistics/descriptive_descriptive.py:112-121): a new Python object with a copy of
  the C++ object;
* `copy.copy` (Python): no class defines `__copy__`, so the new Python object has the same
  attributes, and so the same C++ object;
* `+=` (statistics/descriptive_descriptive.py:123-136, statistics/streaming_histogram.py:133-149)
  modifies the C++ object of `a`;
* `+` (statistics/descriptive_descriptive.py:138-153, binning.py:93-99, histogram2d.py:104-110):
  `copy.copy(a)`, then `+=` on the result. -/
def step (iadd : O → O → Out O) (run : Call → O → Out O) (w : World O) : Op O Call → Out (World O)
  | .new o => .ok ⟨w.objs ++ [w.heap.length], w.heap ++ [o]⟩
  | .copyMethod a =>
    match w.value a with
    | none => .error .exn
    | some u => .ok ⟨w.objs ++ [w.heap.length], w.heap ++ [u]⟩
  | .copyCopy a =>
    match w.objs[a]? with
    | none => .error .exn
    | some p => .ok ⟨w.objs ++ [p], w.heap⟩
  | .iadd a b =>
    match w.objs[a]?, w.value a, w.value b with
    | some p, some u, some v => do
      let r ← iadd u v
      .ok ⟨w.objs, w.heap.set p r⟩
    | _, _, _ => .error .exn
  | .add a b =>
    match w.objs[a]?, w.value a, w.value b with
    | some p, some u, some v => do
      let r ← iadd u v
      .ok ⟨w.objs ++ [p], w.heap.set p r⟩
    | _, _, _ => .error .exn
  | .call a c =>
    match w.objs[a]?, w.value a with
    | some p, some u => do
      let r ← run c u
      .ok ⟨w.objs, w.heap.set p r⟩
    | _, _ => .error .exn

/-- A program: a sequence of operations (the classes of statistics/ and binning.py); an operation
that raises an exception changes nothing and the program catches it. -/
def exec (iadd : O → O → Out O) (run : Call → O → Out O) (w : World O) : List (Op O Call) → World O
  | [] => w
  | op :: ops =>
    match step iadd run w op with
    | .ok w' => exec iadd run w' ops
    | .error _ => exec iadd run w ops

end

/-- The operator `+=` of `DescriptiveStatistics` on arrays of accumulators
(statistics/descriptive_descriptive.py:123-136, descriptive_statistics.hpp:123-131): the types
and the shapes must be the same. -/
def statsIadd {K : Type} [Field K] [LinearOrder K]
    (a b : Delayed.Typed (List Nat × List (Out (Stats.Acc K)))) :
    Out (Delayed.Typed (List Nat × List (Out (Stats.Acc K)))) :=
  Delayed.Typed.iadd (Delayed.addCells Stats.merge) a b

end Pyinterp.PyObjects
