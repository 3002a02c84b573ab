import Verif.Model.GeoTree
import Verif.Model.Interface

/-
Model of the Python class `pyinterp.geodetic.RTree` (src/pyinterp/geodetic/__init__.py:163-357): the default arguments, the
names of the functions and the calls of the core class. An argument that is not given is `none`. The numbers `k` and `p` are
natural (pybind11 refuses the others: they are `uint32_t`). `num_threads` is not modelled (C29).
-/
namespace Pyinterp.GeoTree
open Pyinterp

/-- `RTree.__init__` (geodetic/__init__.py:172-173): the class of the core is constructed with the same argument. -/
noncomputable def pyNew (h : Heap) (spheroid : Option (ℝ × ℝ)) : Heap × Tree := new h spheroid

/-- `RTree.inverse_distance_weighting` (geodetic/__init__.py:175-207). The default of `radius` is `None`. -/
noncomputable def pyIdw (b : Boost) (h : Heap) (t : Tree) (lon lat : List ℝ) (radius : Option ℝ) (k p : Option Nat)
    (within : Option Bool) : Out (List (Option ℝ × Nat)) :=
  inverseDistanceWeighting b h t lon lat radius (k.getD 9) (p.getD 2) (within.getD true)

/-- `RTree.radial_basis_function` (geodetic/__init__.py:209-264). The defaults of `radius`, `rbf` and `epsilon` are `None`; the
name is translated before the method of the core is called. -/
noncomputable def pyRbf (b : Boost) (solve : (n : Nat) → Matrix (Fin n) (Fin n) ℝ → (Fin n → ℝ) → Fin n → ℝ) (h : Heap)
    (t : Tree) (lon lat : List ℝ) (radius : Option ℝ) (k : Option Nat) (rbf : Option (List Char)) (epsilon : Option ℝ)
    (smooth : Option ℝ) (within : Option Bool) : Out (List (Option ℝ × Nat)) := do
  let f ← Interface.coreRbf rbf epsilon.isSome
  radialBasisFunction b solve h t lon lat radius (k.getD 9) f epsilon (smooth.getD 0) (within.getD true)

/-- `RTree.window_function` (geodetic/__init__.py:266-357). The radius is required; the defaults of `wf` and `arg` are `None`. The
name is translated, and `arg` is passed as it was given: the defaults of `_core_window_function` (interface.py:148-151) are
local to it. -/
noncomputable def pyWindow (b : Boost) (h : Heap) (t : Tree) (lon lat : List ℝ) (radius : ℝ) (k : Option Nat)
    (wf : Option String) (arg : Option ℝ) (within : Option Bool) : Out (List (Option ℝ × Nat)) := do
  let f ← WindowFunctions.coreWindowFunction wf arg
  windowFunction b h t lon lat radius (k.getD 9) f arg (within.getD true)

/-- `core.geodetic.RTree.window_function` called without the Python class (module/geodetic.cpp:1526-1530): the radius is an
argument of type `double` whose default is `None`, the default function is the Hamming window. pybind11 does not convert
`None` to `double`: `TypeError`. -/
noncomputable def coreCallWindow (b : Boost) (h : Heap) (t : Tree) (lon lat : List ℝ) (radius : Option ℝ) (k : Option Nat)
    (wf : Option WindowFunctions.Fn) (arg : Option ℝ) (within : Option Bool) : Out (List (Option ℝ × Nat)) :=
  match radius with
  | none => .error .exn
  | some r => windowFunction b h t lon lat r (k.getD 9) (wf.getD .hamming) arg (within.getD true)

/-- The class of an object: `pyinterp.geodetic.RTree` or `pyinterp.core.geodetic.RTree` (geodetic/__init__.py:163). -/
inductive Cls where
  | python | core
  deriving DecidableEq

/-- An object and its class (geodetic/__init__.py:163-173). -/
structure Obj where
  cls : Cls
  tree : Tree

/-- `copy.copy(tree)` (module/geodetic.cpp:1398-1401): the Python class does not define `__copy__`; that of the core returns a
C++ object, that pybind11 gives to Python as an object of the class of the core. -/
def Obj.copy (o : Obj) : Obj := { cls := .core, tree := GeoTree.copy o.tree }

/-- `tree.window_function(lon, lat, radius, k, wf, arg, within)` with the name of a function (geodetic/__init__.py:266-357;
module/geodetic.cpp:1526-1530): the class of the core does not take a text for `wf` (`TypeError`). -/
noncomputable def Obj.window (b : Boost) (h : Heap) (o : Obj) (lon lat : List ℝ) (radius : ℝ) (k : Option Nat)
    (wf : Option String) (arg : Option ℝ) (within : Option Bool) : Out (List (Option ℝ × Nat)) :=
  match o.cls with
  | .python => pyWindow b h o.tree lon lat radius k wf arg within
  | .core => match wf with
    | some _ => .error .exn
    | none => coreCallWindow b h o.tree lon lat (some radius) k none arg within

end Pyinterp.GeoTree
