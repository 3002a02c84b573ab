import Verif.Model.Axis
import Verif.Model.Interp1D
import Verif.Model.CSplinePeriodic

/-
Model of src/pyinterp/core/include/pyinterp/interpolate1d.hpp (`pyinterp.core.interpolate1d`) and
of src/pyinterp/core/include/pyinterp/detail/interpolation/factory_1d.hpp.
-/
namespace Pyinterp.Interp

variable {K : Type} [Field K] [LinearOrder K]

/-- The classes that `factory_1d` instantiates (factory_1d.hpp:16-41). -/
inductive Kind where
  | linear | polynomial | cspline | csplinePeriodic | akima | akimaPeriodic | steffen
  deriving DecidableEq, Repr

/-- `factory_1d(kind)` (factory_1d.hpp:16-41): the class for a name; another name throws. -/
def kindOf (s : String) : Out Kind :=
  if s = "linear" then .ok .linear
  else if s = "polynomial" then .ok .polynomial
  else if s = "c_spline" then .ok .cspline
  else if s = "c_spline_periodic" then .ok .csplinePeriodic
  else if s = "akima" then .ok .akima
  else if s = "akima_periodic" then .ok .akimaPeriodic
  else if s = "steffen" then .ok .steffen
  else .error .exn

/-- An interpolator: its class with the buffers that live between two calls. -/
inductive Obj (K : Type) where
  | linear
  | polynomial (work : Buf K)
  | cspline (x_ : Buf K)
  | csplinePeriodic (st : PeriodicState K)
  | akima (periodic : Bool) (st : AkimaState K)
  | steffen (yPrime : Buf K)

/-- `std::make_unique<…>()` (factory_1d.hpp:18-38): empty buffers. -/
def Obj.new (junk : Nat → K) : Kind → Obj K
  | .linear => .linear
  | .polynomial => .polynomial ⟨0, junk⟩
  | .cspline => .cspline ⟨0, junk⟩
  | .csplinePeriodic => .csplinePeriodic ⟨0, fun _ _ => 0, junk, ⟨0, junk⟩⟩
  | .akima => .akima false ⟨⟨0, junk⟩, ⟨0, junk⟩⟩
  | .akimaPeriodic => .akima true ⟨⟨0, junk⟩, ⟨0, junk⟩⟩
  | .steffen => .steffen ⟨0, junk⟩

/-- The virtual `operator()(xa, ya, x)` (interpolator_1d.hpp:25-28); `same` describes the Eigen
packets of `Polynomial`, `none` is NaN. -/
def Obj.call (same : Nat → Nat → Bool) (junk : Nat → K) (o : Obj K) (xa ya : List K) (x : K) :
    Out (Option K × Obj K) :=
  match o with
  | .linear => do .ok (← Interp.linear xa ya x, .linear)
  | .polynomial w => do
    let r ← Interp.polynomial junk same w xa ya x
    .ok (some r.1, .polynomial r.2)
  | .cspline b => do
    let r ← Interp.cspline b xa ya x
    .ok (r.1, .cspline r.2)
  | .csplinePeriodic st => do
    let r ← Interp.csplinePeriodic junk st xa ya x
    .ok (r.1, .csplinePeriodic r.2)
  | .akima p st => do
    let r ← Interp.akima junk p st xa ya x
    .ok (some r.1, .akima p r.2)
  | .steffen b => do
    let r ← Interp.steffen junk b xa ya x
    .ok (r.1, .steffen r.2)

/-- `calculate_start_end_size` (interpolate1d.hpp:19-25). -/
def startEndSize (index size half : Int) : Int × Int × Int :=
  let start := max (index - half) 0
  let stop := min (index + half) (size - 1)
  (start, stop, stop - start + 1)

/-- `y.segment(start, n)` of Eigen (not part of the repository): no defined behaviour outside of
the vector. -/
def segment (y : List K) (start n : Int) : Out (List K) :=
  if start < 0 ∨ n < 0 ∨ start + n > y.length then .error .ub
  else .ok ((y.drop start.toNat).take n.toNat)

variable [FloorRing K]

/-- The body of the loop (interpolate1d.hpp:54-75) for one coordinate. -/
def interpolateOne (same : Nat → Nat → Bool) (junk : Nat → K) (a : Axis K) (y : List K)
    (half : Int) (boundsError : Bool) (o : Obj K) (x : K) : Out (Option K × Obj K) := do
  let index ← a.findIndex x true
  if index = -1 then
    if boundsError then .error .exn else .ok (none, o)
  else
    let w := startEndSize index a.size half
    let yw ← segment y w.1 w.2.2
    let xw ← a.slice w.1 w.2.2
    o.call same junk xw yw x

/-- The loop (interpolate1d.hpp:53-75): the same interpolator is used for all the coordinates.
`junk k` is the content of the memory allocated at the iteration `k`. -/
def interpolateLoop (same : Nat → Nat → Bool) (junk : Nat → Nat → K) (a : Axis K) (y : List K)
    (half : Int) (boundsError : Bool) : Nat → Obj K → List K → Out (List (Option K))
  | _, _, [] => .ok []
  | k, o, x :: xi => do
    let r ← interpolateOne same (junk k) a y half boundsError o x
    let rest ← interpolateLoop same junk a y half boundsError (k + 1) r.2 xi
    .ok (r.1 :: rest)

/-- `interpolate_1d` (interpolate1d.hpp:39-77). -/
def interpolate1d (same : Nat → Nat → Bool) (junk : Nat → Nat → K) (a : Axis K) (y xi : List K)
    (half : Int) (boundsError : Bool) (kind : String) : Out (List (Option K)) := do
  if a.size ≠ y.length then .error .exn
  else
    let kd ← kindOf kind
    interpolateLoop same junk a y half boundsError 0 (Obj.new (junk 0) kd) xi

end Pyinterp.Interp
