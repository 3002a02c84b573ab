import Verif.Model.TemporalAxis

/-
Model of src/pyinterp/core/module/dateutils.cpp: the functions of `pyinterp.core.dateutils` on numpy arrays, with the
machine integers of the C++ code (Model/Dateutils.lean has the same functions of one date on mathematical integers).

A signed operation that overflows is undefined behaviour; conversions to narrower types and unsigned operations wrap.
-/
namespace Pyinterp.DateArray
open Pyinterp Dateutils Temporal

/-- The result of an operation on `int` (32 bits): undefined behaviour when it overflows. -/
def s32 (x : Int) : Out Int := if -2 ^ 31 ≤ x ∧ x < 2 ^ 31 then .ok x else .error .ub

/-- The result of an operation on `int64_t`: undefined behaviour when it overflows. -/
def s64 (x : Int) : Out Int := if -2 ^ 63 ≤ x ∧ x < 2 ^ 63 then .ok x else .error .ub

/-- The result of an operation on `unsigned`, or the conversion to `unsigned` (modulo 2^32). -/
def u32 (x : Int) : Int := x % 2 ^ 32

/-- The conversion `static_cast<int>` of a 64-bit integer (modulo 2^32). -/
def toInt32 (x : Int) : Int := (x + 2 ^ 31) % 2 ^ 32 - 2 ^ 31

/-- `date_from_days` (dateutils.hpp:415-435) with its machine types: `days` is an `int64_t`, `era` an `int`, the other
variables are `unsigned`. -/
def dateFromDays (days : Int) : Out Date := do
  let days ← s64 (days + 719468)
  let num ← s64 (if days ≥ 0 then days else days - 146096)
  let era := toInt32 (num.tdiv 146097)
  let doe := u32 (days - era * 146097)
  let yoe := u32 (u32 (doe - doe.tdiv 1460) + doe.tdiv 36524 - doe.tdiv 146096) |>.tdiv 365
  let doy := u32 (doe - u32 (365 * yoe + yoe.tdiv 4 - yoe.tdiv 100))
  let mon := (u32 (5 * doy + 2)).tdiv 153
  let day := u32 (doy - (u32 (153 * mon + 2)).tdiv 5 + 1)
  let month := if mon < 10 then u32 (mon + 3) else u32 (mon - 9)
  let year ← s32 (era * 400)
  let year ← s32 (toInt32 yoe + year)
  let year ← s32 (year + (if month ≤ 2 then 1 else 0))
  pure ⟨year, month, day⟩

/-- `days_since_epoch` (dateutils.hpp:292-300): one division and one subtraction of `int64_t`, which never overflow
when `order_of_magnitude_` is at least 1 (theorem `epoch_in_range`). -/
def daysSinceEpoch (oom v : Int) : Out (Int × Int × Int) := do
  let p := Dateutils.daysSinceEpoch oom v
  let days ← s64 p.1
  let seconds ← s64 p.2.1
  let frac ← s64 p.2.2
  pure (days, seconds, frac)

/-- `isocalendar` (dateutils.hpp:596-624): only `date.year--` and `date.year++` may overflow. -/
def isocalendar (days : Int) : Out ISOCalendar := do
  let date ← dateFromDays days
  let yday := daysSinceJanuary date
  let wday := weekday days
  let n := isoWeekDays yday wday
  let wd := (wday - 1 + 7).tmod 7 + 1
  if n < 0 then
    let year ← s32 (date.year - 1)
    let n := isoWeekDays (yday + (365 + isLeapYear year)) wday
    pure ⟨year, n.tdiv 7 + 1, wd⟩
  else
    let weekDays := isoWeekDays (yday - (365 + isLeapYear date.year)) wday
    if 0 ≤ weekDays then
      let year ← s32 (date.year + 1)
      pure ⟨year, weekDays.tdiv 7 + 1, wd⟩
    else pure ⟨date.year, n.tdiv 7 + 1, wd⟩

/-- `fractional_seconds_from_dtype` (module/dateutils.cpp:28-38) and `FractionalSeconds(const std::string&)`
(dateutils.hpp:286-288): the number of units per second. The type number 21 (NPY_DATETIME) is that of the types named
datetime64. -/
def fractionalSeconds (dtype : String) : Out Int := do
  let d ← parseDType dtype
  if d.datetype ≠ .datetime64 then throw .exn
  match d.resolution.orderOfMagnitude with
  | some oom => pure oom
  | none => throw .exn

/-- `array.unchecked<int64_t, 1>()`: pybind11 raises when the number of dimensions is not 1 (module/dateutils.cpp:44). -/
def elements (a : NArray) : Out (List Int) :=
  if a.ndim ≠ 1 then .error .exn else .ok a.values

/-- `date` (module/dateutils.cpp:40-56). -/
def date (a : NArray) : Out (List Date) := do
  let oom ← fractionalSeconds a.dtype
  let values ← elements a
  values.mapM fun v => do
    let (days, _, _) ← daysSinceEpoch oom v
    dateFromDays days

/-- `time` (module/dateutils.cpp:58-74). -/
def time (a : NArray) : Out (List Time) := do
  let oom ← fractionalSeconds a.dtype
  let values ← elements a
  values.mapM fun v => do
    let (_, seconds, _) ← daysSinceEpoch oom v
    pure (timeFromSeconds seconds)

/-- `isocalendar` (module/dateutils.cpp:76-93). -/
def isocalendars (a : NArray) : Out (List ISOCalendar) := do
  let oom ← fractionalSeconds a.dtype
  let values ← elements a
  values.mapM fun v => do
    let (days, _, _) ← daysSinceEpoch oom v
    isocalendar days

/-- `weekday` (module/dateutils.cpp:95-111). -/
def weekdays (a : NArray) : Out (List Int) := do
  let oom ← fractionalSeconds a.dtype
  let values ← elements a
  values.mapM fun v => do
    let (days, _, _) ← daysSinceEpoch oom v
    pure (weekday days)

/-- `timedelta_since_january` (module/dateutils.cpp:113-139): the type of the result and its elements. -/
def timedeltaSinceJanuary (a : NArray) : Out (String × List Int) := do
  let oom ← fractionalSeconds a.dtype
  let values ← elements a
  let r ← values.mapM fun v => do
    let (days, seconds, frac) ← daysSinceEpoch oom v
    let d ← dateFromDays days
    let hms := timeFromSeconds seconds
    let s ← s64 (daysSinceJanuary d * 86400 + hms.hour * 3600 + hms.minute * 60 + hms.second)
    let s ← s64 (s * oom)
    s64 (s + frac)
  pure ((⟨.timedelta64, resolutionOf oom⟩ : DType).name, r)

/-- `PyDateTime_FromDateAndTime` (CPython): years from 1 to 9999 only. -/
def pyDatetime (d : Date) (t : Time) (us : Int) : Out (Date × Time × Int) :=
  if 1 ≤ d.year ∧ d.year ≤ 9999 then .ok (d, t, us) else .error .exn

/-- `datetime` (module/dateutils.cpp:141-167): date, time and microseconds of the Python objects. Simplified: the
exception of CPython is raised at once (the code goes on and returns with the exception set). -/
def datetime (a : NArray) : Out (List (Date × Time × Int)) := do
  let oom ← fractionalSeconds a.dtype
  let values ← elements a
  values.mapM fun v => do
    let (days, seconds, frac) ← daysSinceEpoch oom v
    let d ← dateFromDays days
    pyDatetime d (timeFromSeconds seconds) (toInt32 (cast oom frac 1000000))

end Pyinterp.DateArray
