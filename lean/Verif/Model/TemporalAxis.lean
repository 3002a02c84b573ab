import Verif.Model.Axis
import Verif.Model.Dateutils

/-
Model of include/pyinterp/temporal_axis.hpp (and of the class DType of dateutils.hpp), of the methods common to the
axes in module/axis.cpp, and of the pickling of the Z axis of a temporal grid (grid.hpp).

Dates are 64-bit integers (Int here: overflow and NaT are not modelled). `astype` (numpy) is a parameter.
-/
namespace Pyinterp.Temporal
open Pyinterp Dateutils

/-- `DType::DateType` (dateutils.hpp:51-54). -/
inductive DateType where
  | datetime64 | timedelta64
  deriving DecidableEq, Repr

/-- `DType` (dateutils.hpp:229-230). -/
structure DType where
  datetype : DateType
  resolution : Resolution
  deriving DecidableEq, Repr

/-- `datetype_name()` (dateutils.hpp:165-173). -/
def DateType.name : DateType → String
  | .datetime64 => "datetime64"
  | .timedelta64 => "timedelta64"

/-- `operator std::string` (dateutils.hpp:177-181). -/
def DType.name (d : DType) : String := d.datetype.name ++ "[" ++ d.resolution.unit ++ "]"

/-- All the values of `DType`. -/
def allDTypes : List DType :=
  [DateType.datetime64, .timedelta64].flatMap fun t =>
    [Resolution.year, .month, .week, .day, .hour, .minute, .second, .millisecond, .microsecond, .nanosecond,
      .picosecond, .femtosecond, .attosecond].map fun r => ⟨t, r⟩

/-- `DType(const std::string&)` with the regular expression of module/dateutils.cpp:20-22 (dateutils.hpp:74-82).
Simplified: the expression is searched in the text by the C++ code; here the text must be the name (this is the case of
the names written by numpy and by `operator std::string`). -/
def parseDType (s : String) : Out DType :=
  match allDTypes.find? fun d => decide (d.name = s) with
  | some d => .ok d
  | none => .error .exn

/-- `operator<`: comparison of the resolutions (dateutils.hpp:207-209, 234-236). -/
def DType.lt (a b : DType) : Bool := decide (a.resolution.rank < b.resolution.rank)

/-- `as_timedelta64()` (dateutils.hpp:223-225). -/
def DType.asTimedelta (d : DType) : DType := { d with datetype := .timedelta64 }

/-- A numpy array: the name of its type, its number of dimensions, C-style contiguity, and the integers stored if its
elements are dates. -/
structure NArray where
  dtype : String
  ndim : Nat
  contiguous : Bool
  values : List Int

/-- `detail::dtype` (temporal_axis.hpp:23-32). -/
def dtypeOf (a : NArray) : Out DType :=
  if a.ndim ≠ 1 then .error .exn
  else if a.contiguous = false then .error .exn
  else parseDType a.dtype

/-- `TemporalAxis` (temporal_axis.hpp:50-51, 246-247). -/
structure TAxis where
  axis : Axis Int
  dtype : DType
  deriving DecidableEq

/-- `TemporalAxis(points)` (temporal_axis.hpp:57-59). The two arguments of the delegated constructor are evaluated in an
order that C++ does not specify: an array that is refused may be read first as if it contained 64-bit integers. -/
def TAxis.make (points : NArray) : Out TAxis := do
  let d ← dtypeOf points
  let a ← mkAxis true points.values 0 false
  pure { axis := a, dtype := d }

/-- `coordinate_value` (temporal_axis.hpp:67-72): the integer and the type of the result. -/
def TAxis.item (t : TAxis) (i : Int) : Out (Int × DType) := do
  let v ← t.axis.coordinateValue i
  pure (v, t.dtype)

/-- `front` (temporal_axis.hpp:75-78). -/
def TAxis.front (t : TAxis) : Out (Int × DType) := do
  let v ← t.axis.cont.front
  pure (v, t.dtype)

/-- `back` (temporal_axis.hpp:81-84). -/
def TAxis.back (t : TAxis) : Out (Int × DType) := do
  let v ← t.axis.cont.back
  pure (v, t.dtype)

/-- `min_value` (temporal_axis.hpp:99-102). -/
def TAxis.minValue (t : TAxis) : Out (Int × DType) := do
  let v ← t.axis.cont.minValue
  pure (v, t.dtype)

/-- `max_value` (temporal_axis.hpp:93-96). -/
def TAxis.maxValue (t : TAxis) : Out (Int × DType) := do
  let v ← t.axis.cont.maxValue
  pure (v, t.dtype)

/-- `increment` (temporal_axis.hpp:87-90, detail/axis.hpp:217-223): an exception if the axis is not regular. -/
def TAxis.increment (t : TAxis) : Out (Int × DType) :=
  match t.axis.cont with
  | .regular r => .ok (r.step, t.dtype.asTimedelta)
  | _ => .error .exn

/-- `safe_cast` (temporal_axis.hpp:176-200): whether a warning is issued, and the integers. `strict`: the filters of
Python turn the warning into an exception. `astype a b` is the conversion of numpy from the type `a` to the type `b`. -/
def TAxis.safeCast (astype : DType → DType → Int → Int) (strict : Bool) (t : TAxis) (coordinates : NArray) :
    Out (Bool × List Int) := do
  let d ← dtypeOf coordinates
  if d.datetype ≠ t.dtype.datetype then throw .exn
  if t.dtype.lt d && strict then throw .exn
  if t.dtype = d then return (t.dtype.lt d, coordinates.values)
  return (t.dtype.lt d, coordinates.values.map (astype d t.dtype))

/-- A loop over the dates, stopped by an exception. -/
def each {α : Type} (f : Int → Out α) : List Int → Out (List α)
  | [] => .ok []
  | v :: l => do
    let r ← f v
    let rest ← each f l
    pure (r :: rest)

/-- `find_index` (temporal_axis.hpp:132-148). -/
def TAxis.findIndex (astype : DType → DType → Int → Int) (strict : Bool) (t : TAxis) (coordinates : NArray)
    (bounded : Bool) : Out (Bool × List Int) := do
  let p ← t.safeCast astype strict coordinates
  let r ← each (fun v => t.axis.findNearestIndex v bounded) p.2
  pure (p.1, r)

/-- The row of the result of `find_indexes` (temporal_axis.hpp:160-168). -/
def pairOf : Option (Int × Int) → Int × Int
  | some q => q
  | none => (-1, -1)

/-- `find_indexes` (temporal_axis.hpp:151-172). -/
def TAxis.findIndexes (astype : DType → DType → Int → Int) (strict : Bool) (t : TAxis) (coordinates : NArray) :
    Out (Bool × List (Int × Int)) := do
  let p ← t.safeCast astype strict coordinates
  let r ← each (fun v => do
    let o ← t.axis.findIndexes v
    pure (pairOf o)) p.2
  pure (p.1, r)

/-- `getstate` (temporal_axis.hpp:203-206). -/
def TAxis.getstate (t : TAxis) : Out (AxisState Int × String) := do
  let s ← t.axis.getstate
  pure (s, t.dtype.name)

/-- `setstate` (temporal_axis.hpp:209-215). -/
def TAxis.setstate (s : AxisState Int × String) : Out TAxis := do
  let a ← Axis.setstate s.1
  let d ← parseDType s.2
  pure { axis := a, dtype := d }

/-- `flip` (module/axis.cpp:50-63): in place, or on a copy made through the state. -/
def TAxis.flip (t : TAxis) (inplace : Bool) : Out TAxis :=
  if inplace then .ok { t with axis := t.axis.flip }
  else do
    let s ← t.getstate
    let c ← TAxis.setstate s
    pure { c with axis := c.axis.flip }

/-- `operator==` of the containers (detail/axis/container.hpp:211-215, 325-332, 473-481). -/
def containerEq : Container Int → Container Int → Bool
  | .undefined, .undefined => true
  | .irregular p _, .irregular q _ => decide (p = q)
  | .regular r, .regular s => decide (r.step = s.step ∧ r.start = s.start ∧ r.size = s.size)
  | _, _ => false

/-- `__eq__` (module/axis.cpp:123-127): `operator==` of the base class `detail::Axis` (detail/axis.hpp:229-231); the type
of the dates is not compared. -/
def TAxis.beq (t u : TAxis) : Bool := containerEq t.axis.cont u.axis.cont && decide (t.axis.isCircle = u.axis.isCircle)

/-- The state of the Z axis in the state of a temporal grid (grid.hpp:167-170, 217-221): `getstate` of the base class,
which is not virtual. -/
def TAxis.gridState (t : TAxis) : Out (AxisState Int) := t.axis.getstate

end Pyinterp.Temporal
