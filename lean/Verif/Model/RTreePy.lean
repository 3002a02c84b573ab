import Verif.Model.RTree
import Verif.Model.Interface

/-
Model of src/pyinterp/rtree.py (the Python class `pyinterp.RTree`): the construction, the methods that change the
content, the names of the functions, the default arguments and the pickle; and of the copy of the core class
(src/pyinterp/core/module/rtree.cpp:77-80, detail/geometry/rtree.hpp:60-61, 596).
-/
namespace Pyinterp.RTree
open Pyinterp.Interface

/-- A Python object `pyinterp.RTree` (rtree.py:16-48): `self.dtype` and `self._instance`. -/
structure PyTree where
  dtype : DType
  inst : Tree

/-- `RTree.__init__` (rtree.py:35-48); `numpy.dtype` objects are always true, so `dtype or ...` replaces only `None`. -/
noncomputable def PyTree.init (system : Option (ℝ × ℝ)) (dtype : Option DType) (ecef : Bool) : Out PyTree := do
  let dtype := dtype.getD .float64
  if dtype = .float64 ∨ dtype = .float32 then
    return ⟨dtype, ← Tree.make system ecef⟩
  else .error .exn

/-- `RTree.packing` (rtree.py:74-93). -/
noncomputable def PyTree.packing (toEcef : ℝ × ℝ → ℝ → ℝ → ℝ → Point) (t : PyTree) (cols : Nat) (rows : List (List ℝ))
    (values : List ℝ) : Out PyTree := do
  return { t with inst := ← t.inst.packing toEcef cols rows values }

/-- `RTree.insert` (rtree.py:95-113). -/
noncomputable def PyTree.insert (toEcef : ℝ × ℝ → ℝ → ℝ → ℝ → Point) (t : PyTree) (cols : Nat) (rows : List (List ℝ))
    (values : List ℝ) : Out PyTree := do
  return { t with inst := ← t.inst.insert toEcef cols rows values }

/-- `RTree.clear` (rtree.py:62-64). -/
def PyTree.clear (t : PyTree) : PyTree := { t with inst := t.inst.clear }

/-- `len(tree)` (rtree.py:66-68; module/rtree.cpp:81-82; detail/geometry/rtree.hpp:87). -/
def PyTree.len (t : PyTree) : Nat := t.inst.items.length

/-- `bool(tree)` (rtree.py:70-72; module/rtree.cpp:83-86; detail/geometry/rtree.hpp:92). -/
def PyTree.bool (t : PyTree) : Bool := !t.inst.items.isEmpty

/-- `RTree.query` (rtree.py:158-192), for one point; an argument that is not given is `none`. -/
noncomputable def PyTree.query (p : Point) (near : List Item) (k : Option Nat) (within : Option Bool) :
    Out (List (ℝ × ℝ)) :=
  pyQuery p near (k.getD 4) (within.getD true)

/-- `RTree.value` (rtree.py:115-156), for one point. -/
noncomputable def PyTree.value (p : Point) (near : List Item) (radius : Option ℝ) (k : Option Nat) (within : Option Bool) :
    Out (List (Option Item)) :=
  pyValue p near radius (k.getD 4) (within.getD true)

/-- `RTree.inverse_distance_weighting` (rtree.py:194-233), for one point. -/
noncomputable def PyTree.idw (point : Point) (near : List Item) (radius : Option ℝ) (k p : Option Nat)
    (within : Option Bool) : Option ℝ × Nat :=
  RTree.idw point near radius (k.getD 9) (p.getD 2) (within.getD true)

/-- `RTree.window_function` (rtree.py:298-395), for one point: the name is translated, the argument is passed as it was
given. -/
noncomputable def PyTree.windowFunction (point : Point) (near : List Item) (radius : Option ℝ) (wf : Option String)
    (arg : Option ℝ) (within : Option Bool) : Out (Option ℝ × Nat) := do
  let f ← WindowFunctions.coreWindowFunction wf arg
  return RTree.windowFunction point near f (WindowFunctions.coreArg arg) radius (within.getD true)

/-- `RTree.__getstate__` (rtree.py:473-479). -/
def PyTree.getstate (t : PyTree) : DType × State := (t.dtype, t.inst.getstate)

/-- `instance.__setstate__(state)` of a class of the core (module/rtree.cpp:294-297), where `self` is the C++ object that
the Python instance already holds, if any. `py::pickle` declares `__setstate__` as a constructor; the dispatcher of
pybind11 (not part of the repository) calls a constructor only for an instance that holds no C++ object yet: "If this value
is already registered it must mean `__init__` is invoked multiple times; we really can't support that in C++, so just ignore
the second `__init__`" (`cpp_function::dispatcher` of pybind11/pybind11.h). -/
noncomputable def coreSetstate (self : Option Tree) (s : State) : Out Tree :=
  match self with
  | some t => .ok t
  | none => Tree.setstate s

/-- `RTree.__setstate__` (rtree.py:481-492): the attributes of the object. The test on the number of elements of the state is
built in the type. -/
noncomputable def PyTree.setstate (state : DType × State) : Out PyTree := do
  let cls ← PyTree.init none (some state.1) false
  let inst ← coreSetstate (some cls.inst) state.2
  return ⟨cls.dtype, inst⟩

/-- `pickle.loads(pickle.dumps(t))`, `copy.copy(t)` and `copy.deepcopy(t)` (Python: the object is created without a call of
`__init__`, then `__setstate__` receives the result of `__getstate__`), for rtree.py:473-492. -/
noncomputable def PyTree.pickle (t : PyTree) : Out PyTree := PyTree.setstate t.getstate

/-- `pickle.loads(pickle.dumps(core_tree))` for an object of the core classes (module/rtree.cpp:294-297): the new
instance holds no C++ object when `__setstate__` is called. -/
noncomputable def corePickle (t : Tree) : Out Tree := coreSetstate none t.getstate

/-- The heap of the Boost trees: `tree_` is a shared pointer (detail/geometry/rtree.hpp:596). -/
abbrev Heap := Nat → List Item

/-- A core object: the spheroid, `ecef_` and the shared pointer `tree_` (rtree.hpp:406-412; detail/geometry/rtree.hpp:596). -/
structure Obj where
  spheroid : ℝ × ℝ
  ecef : Bool
  ptr : Nat

/-- The object as it is seen with a heap (detail/geometry/rtree.hpp:70-92). -/
def Obj.view (h : Heap) (o : Obj) : Tree := ⟨o.spheroid, o.ecef, h o.ptr⟩

/-- `copy.copy(core_tree)` (module/rtree.cpp:77-80): the default copy constructor copies the shared pointer
(detail/geometry/rtree.hpp:60-61). -/
def Obj.copy (o : Obj) : Obj := o

/-- The operations that change the content. -/
inductive Change where
  | clear
  | packing (cols : Nat) (rows : List (List ℝ)) (values : List ℝ)
  | insert (cols : Nat) (rows : List (List ℝ)) (values : List ℝ)

/-- The change of a core mesh (rtree.hpp:131-188; detail/geometry/rtree.hpp:95, 101-103, 108). -/
noncomputable def Tree.apply (toEcef : ℝ × ℝ → ℝ → ℝ → ℝ → Point) (t : Tree) : Change → Out Tree
  | .clear => .ok t.clear
  | .packing cols rows values => t.packing toEcef cols rows values
  | .insert cols rows values => t.insert toEcef cols rows values

/-- A change of the content through one object (detail/geometry/rtree.hpp:95, 101-103, 108): the Boost tree is changed in
place. -/
noncomputable def Obj.change (toEcef : ℝ × ℝ → ℝ → ℝ → ℝ → Point) (h : Heap) (o : Obj) (c : Change) : Out Heap := do
  let t ← (o.view h).apply toEcef c
  return Function.update h o.ptr t.items

/-- A call of the Python object that changes its content (rtree.py:62-64, 74-113); an exception leaves the object unchanged:
the matrices are tested before anything is stored (rtree.hpp:131-158, 162-188). -/
noncomputable def PyTree.call (toEcef : ℝ × ℝ → ℝ → ℝ → ℝ → Point) (t : PyTree) (c : Change) : PyTree :=
  let r : Out PyTree := match c with
    | .clear => .ok t.clear
    | .packing cols rows values => t.packing toEcef cols rows values
    | .insert cols rows values => t.insert toEcef cols rows values
  match r with
  | .ok t' => t'
  | .error _ => t

/-- The object after a history of calls (rtree.py:62-113); the last call is the head of the list. -/
noncomputable def PyTree.after (toEcef : ℝ × ℝ → ℝ → ℝ → ℝ → Point) (t : PyTree) : List Change → PyTree
  | [] => t
  | c :: l => (PyTree.after toEcef t l).call toEcef c

end Pyinterp.RTree
