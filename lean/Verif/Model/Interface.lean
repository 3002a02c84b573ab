import Verif.Model.Base
import Verif.Model.Rbf

/-
Model of src/pyinterp/interface.py (the choice of the core class and of the core enumerations from the
names given by the user) and of the enumerations of src/pyinterp/core/module/enum.cpp. A text is
the list of its characters; the names are ASCII texts (`capitalize` of other characters is not used).
-/
namespace Pyinterp.Interface
open Pyinterp.RTree

/-- The data types of numpy that the tests of `_core_class_suffix` distinguish, and the others. -/
inductive DType where
  | float64 | float32 | int64 | uint64 | int32 | uint32 | int16 | uint16 | int8 | uint8 | other
  deriving DecidableEq, Repr

/-- The suffixes of the core classes. -/
inductive Suffix where
  | float64 | float32 | int8 | uint8
  deriving DecidableEq, Repr

/-- `_core_class_suffix` (interface.py:29-62). -/
def coreClassSuffix (x : DType) (handleInteger : Bool) : Out Suffix :=
  match x with
  | .float64 => .ok .float64
  | .float32 => .ok .float32
  | .int64 => .ok .float64
  | .uint64 => .ok .float64
  | .int32 => .ok .float32
  | .uint32 => .ok .float32
  | .int16 => .ok .float32
  | .uint16 => .ok .float32
  | .int8 => .ok (if !handleInteger then .float32 else .int8)
  | .uint8 => .ok (if !handleInteger then .float32 else .uint8)
  | .other => .error .exn

/-- `str.split('_')` (Python). -/
def split : List Char → List (List Char)
  | [] => [[]]
  | c :: cs =>
    match c == '_', split cs with
    | true, l => [] :: l
    | false, [] => [[c]]
    | false, w :: l => (c :: w) :: l

/-- `str.capitalize()` (Python), for ASCII texts. -/
def capitalize : List Char → List Char
  | [] => []
  | c :: cs => c.toUpper :: cs.map Char.toLower

/-- `sep.join(items)` (Python). -/
def join (sep : List Char) : List (List Char) → List Char
  | [] => []
  | [w] => w
  | w :: l => w ++ sep ++ join sep l

/-- The enumeration `core.CovarianceFunction` (module/enum.cpp:56-74): the attribute, or `AttributeError`. -/
def covAttr (name : List Char) : Out Cov :=
  if name = "Matern_12".toList then .ok .matern12
  else if name = "Matern_32".toList then .ok .matern32
  else if name = "Matern_52".toList then .ok .matern52
  else if name = "WhittleMatern".toList then .ok .whittleMatern
  else if name = "Cauchy".toList then .ok .cauchy
  else if name = "Exponential".toList then .ok .exponential
  else if name = "Gaussian".toList then .ok .gaussian
  else if name = "Spherical".toList then .ok .spherical
  else if name = "Linear".toList then .ok .linear
  else .error .exn

/-- The enumeration `core.RadialBasisFunction` (module/enum.cpp:26-34): the attribute, or `AttributeError`. -/
def rbfAttr (name : List Char) : Out Rbf :=
  if name = "Cubic".toList then .ok .cubic
  else if name = "Gaussian".toList then .ok .gaussian
  else if name = "InverseMultiquadric".toList then .ok .inverseMultiquadric
  else if name = "Linear".toList then .ok .linear
  else if name = "Multiquadric".toList then .ok .multiquadric
  else if name = "ThinPlate".toList then .ok .thinPlate
  else .error .exn

/-- The accepted names of covariance functions (interface.py:101-110). -/
def covNames : List (List Char) :=
  ["exponential".toList, "gaussian".toList, "linear".toList, "matern_12".toList, "matern_32".toList, "matern_52".toList,
   "spherical".toList, "whittle_matern".toList]

/-- `_core_covariance_function` (interface.py:96-113); `none` and the empty text are the default. -/
def coreCovariance (name : Option (List Char)) : Out Cov :=
  let c := match name with
    | some (a :: l) => a :: l
    | _ => "matern_32".toList
  if c ∉ covNames then .error .exn
  else covAttr (join ['_'] ((split c).map capitalize))

/-- `adjustable` (interface.py:119). -/
def adjustableNames : List (List Char) := ["gaussian".toList, "inverse_multiquadric".toList, "multiquadric".toList]

/-- `non_adjustable` (interface.py:120). -/
def nonAdjustableNames : List (List Char) := ["cubic".toList, "linear".toList, "thin_plate".toList]

/-- `_core_radial_basis_function` (interface.py:116-128); `epsilon` tells whether the argument is given. -/
def coreRbf (name : Option (List Char)) (epsilon : Bool) : Out Rbf :=
  let c := match name with
    | some (a :: l) => a :: l
    | _ => "multiquadric".toList
  if epsilon && decide (c ∈ nonAdjustableNames) then .error .exn
  else if c ∉ adjustableNames ++ nonAdjustableNames then .error .exn
  else rbfAttr (join [] ((split c).map capitalize))

end Pyinterp.Interface
