import Verif.Model.Base

/-
Model of the choice of the function of the core for a grid: `_core_function` (src/pyinterp/interface.py:65-93), the call
`getattr(core, name)(instance, …)` of src/pyinterp/interpolator/*.py and fill.py, and the names under which the functions are
registered (module/bivariate.cpp, trivariate.cpp, quadrivariate.cpp, bicubic.cpp, fill.cpp, grid.cpp). The types of the other
arguments are not modelled.
-/
namespace Pyinterp.Dispatch
open Pyinterp

/-- The types of the values of the grids (module/grid.cpp:12-15). -/
inductive Val where
  | float64 | float32 | int8 | uint8
  deriving DecidableEq, Repr

/-- A class of grids of the core: with a time axis or not, number of dimensions, type of the values. -/
structure Cls where
  temporal : Bool
  dims : Nat
  val : Val
  deriving DecidableEq, Repr

/-- The suffixes of the classes (module/grid.cpp:12-15). -/
def suffix : Val → List Char
  | .float64 => "Float64".toList
  | .float32 => "Float32".toList
  | .int8 => "Int8".toList
  | .uint8 => "UInt8".toList

/-- The types, in the order of module/grid.cpp:12-15. -/
def vals : List Val := [.float64, .float32, .int8, .uint8]

/-- The classes that exist (module/grid.cpp:11-16; include/pyinterp/grid.hpp:248-458): for each type, one class of 2
dimensions, and classes of 3 and 4 dimensions with an axis of numbers or a time axis. -/
def classes : List Cls :=
  vals.flatMap fun v => [⟨false, 2, v⟩, ⟨false, 3, v⟩, ⟨false, 4, v⟩, ⟨true, 3, v⟩, ⟨true, 4, v⟩]

/-- The digit of the number of dimensions in the name of a class (include/pyinterp/grid.hpp:248-458). -/
def digit (n : Nat) : Char := if n = 2 then '2' else if n = 3 then '3' else '4'

/-- `instance.__class__.__name__` (include/pyinterp/grid.hpp:248-458). -/
def className (c : Cls) : List Char :=
  (if c.temporal then "Temporal".toList else []) ++ "Grid".toList ++ [digit c.dims, 'D'] ++ suffix c.val

/-- The classes accepted by `_core_function` (interface.py:74-87). -/
def handled : List Cls :=
  [⟨false, 2, .float64⟩, ⟨false, 2, .float32⟩, ⟨false, 2, .int8⟩, ⟨false, 2, .uint8⟩, ⟨false, 3, .float64⟩,
   ⟨false, 3, .float32⟩, ⟨false, 4, .float64⟩, ⟨false, 4, .float32⟩, ⟨true, 3, .float64⟩, ⟨true, 3, .float32⟩,
   ⟨true, 4, .float64⟩, ⟨true, 4, .float32⟩]

/-- `(?:Float|Int|UInt)\d+` at the beginning of a text (interface.py:18): the alternatives in order, then as many digits as
possible, at least one. -/
def matchAt (s : List Char) : Option (List Char) :=
  ["Float".toList, "Int".toList, "UInt".toList].findSome? fun p =>
    if p.isPrefixOf s then
      let d := (s.drop p.length).takeWhile Char.isDigit
      if d.isEmpty then none else some (p ++ d)
    else none

/-- `PATTERN(name)` (interface.py:18, 90): the first place of the text that matches. -/
def search : List Char → Option (List Char)
  | [] => none
  | a :: l => match matchAt (a :: l) with
    | some m => some m
    | none => search l

/-- `_core_function(function, instance)` (interface.py:65-93). -/
def coreFunction (function : List Char) (c : Cls) : Out (List Char) :=
  if c ∉ handled then .error .exn
  else match search (className c) with
    | none => .error .exn
    | some m => .ok (function ++ ['_'] ++ m.map Char.toLower)

/-- `s[0] = std::tolower(s[0])` (module/bicubic.cpp:250; include/pyinterp/trivariate.hpp:147; module/fill.cpp:28). -/
def lowerFirst : List Char → List Char
  | [] => []
  | a :: l => a.toLower :: l

/-- The suffix of the bivariate functions (include/pyinterp/bivariate.hpp:219-223): the second character too if it is `I`. -/
def bivariateSuffix (s : List Char) : List Char :=
  match lowerFirst s with
  | a :: 'I' :: l => a :: Char.toLower 'I' :: l
  | l => l

/-- The types of the functions other than `bivariate` (module/trivariate.cpp:13-20; module/bicubic.cpp:385-433). -/
def floats : List Val := [.float64, .float32]

/-- The functions of the core that take a grid: their name and the class of their first argument. The submodule `fill` is that of
`loess` (module/bivariate.cpp:12-21; trivariate.cpp:12-21; quadrivariate.cpp:12-21; bicubic.cpp:384-434; fill.cpp:26-31, 111-118). -/
def registry : List (List Char × Cls) :=
  vals.map (fun v => ("bivariate_".toList ++ bivariateSuffix (suffix v), ⟨false, 2, v⟩)) ++
  [false, true].flatMap (fun t => floats.map fun v => ("trivariate_".toList ++ lowerFirst (suffix v), ⟨t, 3, v⟩)) ++
  [false, true].flatMap (fun t => floats.map fun v => ("quadrivariate_".toList ++ lowerFirst (suffix v), ⟨t, 4, v⟩)) ++
  ["Bicubic".toList, "Spline".toList].flatMap (fun f => floats.flatMap fun v =>
    [(false, 2), (false, 3), (true, 3), (false, 4), (true, 4)].map fun g =>
      (lowerFirst f ++ ['_'] ++ lowerFirst (suffix v), ⟨g.1, g.2, v⟩)) ++
  floats.flatMap (fun v => [(false, 2), (false, 3), (true, 3), (false, 4), (true, 4)].map fun g =>
    ("loess_".toList ++ lowerFirst (suffix v), ⟨g.1, g.2, v⟩))

/-- `getattr(core, _core_function(function, instance))(instance, …)` (interpolator/bivariate.py:42-48; trivariate.py:48-60;
quadrivariate.py:53-66; bicubic.py:81-104; fill.py:43-54): the overload called, or `AttributeError` if there is no function of that
name, or `TypeError` if none takes this class. -/
def call (function : List Char) (c : Cls) : Out (List Char × Cls) := do
  let name ← coreFunction function c
  match registry.find? fun r => r.1 = name ∧ r.2 = c with
  | some r => .ok r
  | none => .error .exn

/-- The name given to `_core_function` by `bicubic` (interpolator/bicubic.py:82-83). -/
def bicubicFunction (fittingModel : List Char) : List Char :=
  if fittingModel = "bicubic".toList then "bicubic".toList else "spline".toList

end Pyinterp.Dispatch
