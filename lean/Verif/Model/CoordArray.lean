import Verif.Model.Geodetic
import Verif.Model.Shapes
import Verif.Model.Thread
import Verif.Model.Math

/-
Model of src/pyinterp/core/include/pyinterp/geodetic/coordinates.hpp:31-170 (the functions of `Coordinates` on arrays,
shared out to threads) and of `normalize_longitudes` (src/pyinterp/core/module/geodetic.cpp:1815-1852 and
src/pyinterp/geodetic/__init__.py:145-160).
-/
namespace Pyinterp.CoordArray
open Pyinterp Pyinterp.Math Pyinterp.Geodetic Pyinterp.RTree

/-- The element `ix` of an array; reading outside is undefined behaviour (Eigen without assertions). -/
def rd {T : Type} (l : List T) (ix : Nat) : Out T :=
  match l[ix]? with
  | some v => .ok v
  | none => .error .ub

/-- One iteration of the workers of `ecef_to_lla` (geodetic/coordinates.hpp:59-65). Simplification: the three stores of
an iteration are one step. -/
noncomputable def ecefAt (co : Coordinates) (x y z : List ℝ) (ix : Nat) : Out LLA := do
  let a ← rd x ix
  let b ← rd y ix
  let c ← rd z ix
  pure (co.ecefToLla ⟨a, b, c⟩)

/-- `ecef_to_lla` (geodetic/coordinates.hpp:34-77): the sizes are checked, then the slices. -/
noncomputable def ecefToLla (hw : Nat) (co : Coordinates) (x y z : List ℝ) (numThreads : Nat) (schedule : List Nat) :
    Out (Thread.State LLA Err) := do
  Shapes.checkEigenAll (x.length, 1) [(y.length, 1), (z.length, 1)]
  let sl ← Thread.slices hw x.length numThreads
  pure (Thread.run (ecefAt co x y z) (Thread.init sl) schedule)

/-- One iteration of the workers of `lla_to_ecef` (geodetic/coordinates.hpp:106-113). -/
noncomputable def llaAt (bits : Nat) (co : Coordinates) (lon lat alt : List ℝ) (ix : Nat) : Out Point := do
  let a ← rd lon ix
  let b ← rd lat ix
  let c ← rd alt ix
  pure (co.llaToEcef bits ⟨a, b, c⟩)

/-- `lla_to_ecef` (geodetic/coordinates.hpp:82-124). -/
noncomputable def llaToEcef (hw bits : Nat) (co : Coordinates) (lon lat alt : List ℝ) (numThreads : Nat) (schedule : List Nat) :
    Out (Thread.State Point Err) := do
  Shapes.checkEigenAll (lon.length, 1) [(lat.length, 1), (alt.length, 1)]
  let sl ← Thread.slices hw lon.length numThreads
  pure (Thread.run (llaAt bits co lon lat alt) (Thread.init sl) schedule)

/-- One iteration of the workers of `transform` (geodetic/coordinates.hpp:153-160). -/
noncomputable def transformAt (bits : Nat) (co target : Coordinates) (lon lat alt : List ℝ) (ix : Nat) : Out LLA := do
  let a ← rd lon ix
  let b ← rd lat ix
  let c ← rd alt ix
  pure (co.transform bits target ⟨a, b, c⟩)

/-- `transform` (geodetic/coordinates.hpp:128-170). -/
noncomputable def transform (hw bits : Nat) (co target : Coordinates) (lon lat alt : List ℝ) (numThreads : Nat)
    (schedule : List Nat) : Out (Thread.State LLA Err) := do
  Shapes.checkEigenAll (lon.length, 1) [(lat.length, 1), (alt.length, 1)]
  let sl ← Thread.slices hw lon.length numThreads
  pure (Thread.run (transformAt bits co target lon lat alt) (Thread.init sl) schedule)

/-! ### normalize_longitudes -/

section
variable {K : Type} [Field K] [LinearOrder K] [IsStrictOrderedRing K] [FloorRing K]

/-- A numpy array of one dimension: is its type float64 (otherwise it is a type that converts to it), are its elements
adjacent in memory, is it writeable, its values. -/
structure NArray (K : Type) where
  float64 : Bool
  contiguous : Bool
  writeable : Bool
  values : List K

/-- A call of the core function `normalize_longitudes`: the array of the caller after it and the result (`none`: the
function of the first overload returns nothing). pybind11 tries the overloads in turn: the first (module/geodetic.cpp:1817-1822)
takes only a reference to a writeable, contiguous array of float64 and changes it in place; the second
(module/geodetic.cpp:1834-1840) takes a reference if it can and otherwise a converted copy, and returns a new array. -/
def core (lon : NArray K) (minLon : K) : NArray K × Option (List K) :=
  if lon.float64 ∧ lon.contiguous ∧ lon.writeable then
    ({ lon with values := lon.values.map fun x => normalizeAngleF x minLon 360 }, none)
  else
    (lon, some (lon.values.map fun x => normalizeAngleF x minLon 360))

/-- What `normalize_longitudes` returns: the array of the caller, or a new one. -/
inductive Result (K : Type) where
  | caller
  | fresh (values : List K)

/-- `normalize_longitudes` (geodetic/__init__.py:145-160): the array of the caller after the call and the result. -/
def normalizeLongitudes (lon : NArray K) (minLon : K := -180) : NArray K × Option (Result K) :=
  if lon.writeable then
    ((core lon minLon).1, some .caller)
  else
    let r := core lon minLon
    (r.1, r.2.map .fresh)

/-- The values of the result of a call. -/
def Result.read (after : NArray K) : Result K → List K
  | .caller => after.values
  | .fresh v => v

end

end Pyinterp.CoordArray
