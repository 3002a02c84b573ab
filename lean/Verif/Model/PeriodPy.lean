import Verif.Model.Period
import Verif.Spec.Calendar

/-
Model of the Python layer of the periods (src/pyinterp/period.py): dates with a unit, periods
with a resolution, lists of periods with a unit.

Simplifications. numpy is not part of the repository: its conversions between units (`astype`,
`numpy.datetime64(date, unit)`) are modelled by what they compute, the unit of time that
contains the beginning of the given one, on unbounded integers (no overflow of `int64`) and
without NaT.
-/
namespace Pyinterp.PeriodPy

open Dateutils Spec.Calendar

/-- Attoseconds of a day. -/
def day : Int := 86400000000000000000000

/-- Attoseconds of one unit, for the units of constant length (period.py:20-23). -/
def scale : Resolution → Int
  | .week => 604800000000000000000000
  | .day => 86400000000000000000000
  | .hour => 3600000000000000000000
  | .minute => 60000000000000000000
  | .second => 1000000000000000000
  | .millisecond => 1000000000000000
  | .microsecond => 1000000000000
  | .nanosecond => 1000000000
  | .picosecond => 1000000
  | .femtosecond => 1000
  | _ => 1

/-- numpy: the instant, in attoseconds since 1970-01-01, at which the unit number `n` begins
(used by period.py:42, 62-63, 80-91, 102-106). -/
def start : Resolution → Int → Int
  | .year, n => dayNumber ⟨1970 + n, 1, 1⟩ * day
  | .month, n => dayNumber ⟨1970 + n / 12, n % 12 + 1, 1⟩ * day
  | r, n => n * scale r

/-- numpy: the number of the unit that contains an instant. -/
def tick : Resolution → Int → Int
  | .year, t => (dateFromDays (t / day)).year - 1970
  | .month, t =>
    ((dateFromDays (t / day)).year - 1970) * 12 + ((dateFromDays (t / day)).month - 1)
  | r, t => t / scale r

/-- numpy: a scalar `datetime64`. -/
structure Date64 where
  unit : Resolution
  value : Int
  deriving DecidableEq, Repr

/-- numpy: `numpy.datetime64(date, unit)` and `date.astype('M8[unit]')` (period.py:42, 62-63). -/
def Date64.convert (d : Date64) (u : Resolution) : Date64 :=
  if d.unit = u then d else ⟨u, tick u (start d.unit d.value)⟩

/-- numpy: conversion of a duration between units of constant length
(period.py:365-368, 415-417, 514-517); the months and the years are not modelled. -/
def convertDelta (u v : Resolution) (n : Int) : Int := n * scale u / scale v

/-- `RESOLUTION` (period.py:20-23): the units from the finest one. -/
def resolutions : List Resolution :=
  [.attosecond, .femtosecond, .picosecond, .nanosecond, .microsecond, .millisecond, .second,
   .minute, .hour, .day, .week, .month, .year]

/-- `_min_time64_unit` (period.py:34-37) for two units. -/
def minUnit (u v : Resolution) : Resolution :=
  resolutions.getD (min (resolutions.idxOf u) (resolutions.idxOf v)) .second

/-- A Python `Period`: the slot `resolution` and the C++ object (period.py:45-66). -/
structure PyPeriod where
  resolution : Resolution
  base : Period
  deriving DecidableEq

namespace PyPeriod

/-- `Period.__init__` (period.py:57-66). -/
def init (b e : Date64) (within : Bool) : PyPeriod :=
  let r := minUnit b.unit e.unit
  let b := b.convert r
  let e := e.convert r
  let e := if within then e.value else e.value - 1
  ⟨r, .mk' b.value e true⟩

/-- The property `begin` (period.py:79-82). -/
def begin_ (p : PyPeriod) : Date64 := ⟨p.resolution, p.base.begin_⟩

/-- The property `last` (period.py:84-87). -/
def last (p : PyPeriod) : Date64 := ⟨p.resolution, p.base.last⟩

/-- `end` (period.py:89-91). -/
def end_ (p : PyPeriod) : Date64 := ⟨p.resolution, p.base.end_⟩

/-- `__reduce__` (period.py:68-69) and the call made by `pickle.loads`. -/
def reduce (p : PyPeriod) : PyPeriod := init p.begin_ p.last true

/-- `as_base_class` (period.py:71-77). -/
def asBaseClass (p : PyPeriod) : Period := .mk' p.base.begin_ p.base.last true

/-- `as_resolution` (period.py:93-106). -/
def asResolution (p : PyPeriod) (u : Resolution) : PyPeriod :=
  init (p.begin_.convert u) (p.last.convert u) true

/-- `duration` (period.py:114-116): the number of units. -/
def duration (p : PyPeriod) : Int := p.base.duration

/-- `is_null` (period.py:118-120). -/
def isNull (p : PyPeriod) : Bool := p.base.isNull

/-- `__eq__` (period.py:122-127, module/period.cpp:39-44). -/
def eq (p q : PyPeriod) : Bool :=
  if p.resolution ≠ q.resolution then false
  else p.base.begin_ == q.base.begin_ && p.base.last == q.base.last

/-- `__lt__` (period.py:132-137, module/period.cpp:51-56). -/
def lt (p q : PyPeriod) : Bool :=
  if p.resolution ≠ q.resolution then false else decide (p.base.begin_ < q.base.begin_)

/-- The conversion of the other period (period.py:155-156, 179-180, 244-245, 258-259, 277-278). -/
def adapt (p q : PyPeriod) : PyPeriod :=
  if p.resolution ≠ q.resolution then q.asResolution p.resolution else q

/-- `contains` of a period (period.py:154-157). -/
def contains (p q : PyPeriod) : Bool := p.base.containsPeriod (p.adapt q).base

/-- `contains` of a date (period.py:158). -/
def containsDate (p : PyPeriod) (d : Date64) : Bool :=
  p.base.containsPoint (d.convert p.resolution).value

/-- `is_adjacent` (period.py:160-181). -/
def isAdjacent (p q : PyPeriod) : Bool := p.base.isAdjacent (p.adapt q).base

/-- `is_before` (period.py:183-202). -/
def isBefore (p : PyPeriod) (d : Date64) : Bool :=
  p.base.isBefore (d.convert p.resolution).value

/-- `is_after` (period.py:204-222). -/
def isAfter (p : PyPeriod) (d : Date64) : Bool :=
  p.base.isAfter (d.convert p.resolution).value

/-- `intersects` (period.py:224-246). -/
def intersects (p q : PyPeriod) : Bool := p.base.intersects (p.adapt q).base

/-- `intersection` (period.py:248-265). -/
def intersection (p q : PyPeriod) : PyPeriod :=
  let r := p.base.intersection (p.adapt q).base
  init ⟨p.resolution, r.begin_⟩ ⟨p.resolution, r.last⟩ true

/-- `merge` (period.py:267-284). -/
def merge (p q : PyPeriod) : PyPeriod :=
  let r := p.base.merge (p.adapt q).base
  init ⟨p.resolution, r.begin_⟩ ⟨p.resolution, r.last⟩ true

end PyPeriod

/-- A Python `PeriodList`: the unit of `_datetime64` and the C++ object
(period.py:286-318). -/
structure PyList where
  unit : Resolution
  base : List Period
  deriving DecidableEq

namespace PyList

/-- `PeriodList.__init__` from an array of dates of shape (2, n) (period.py:307-318). -/
def init (u : Resolution) (begins lasts : List Int) : Out PyList :=
  if begins.length ≠ lasts.length then .error .exn
  else .ok ⟨u, List.zipWith (fun b e => ⟨b, e⟩) begins lasts⟩

/-- `PeriodList.empty` (period.py:320-325): in nanoseconds. -/
def empty : PyList := ⟨.nanosecond, []⟩

/-- `periods` (period.py:338-341): the dates. -/
def periods (l : PyList) : List (Date64 × Date64) :=
  l.base.map fun p => (⟨l.unit, p.begin_⟩, ⟨l.unit, p.last⟩)

/-- `__getstate__`, `__setstate__` (period.py:330-336, module/period.cpp:82-91). -/
def pickle (l : PyList) : PyList := ⟨l.unit, PeriodList.setstate (PeriodList.getstate l.base)⟩

/-- `join_adjacent_periods` (period.py:350-371): the object returned, and the instance
afterwards. -/
def join (l : PyList) (epsilon : Option (Resolution × Int)) (inplace : Bool) : PyList × PyList :=
  let e := match epsilon with
    | some (u, n) => if n ≠ 0 then convertDelta u l.unit n else 0
    | none => 0
  let r : PyList := ⟨l.unit, PeriodList.joinAdjacentPeriods l.base e⟩
  if inplace then (r, r) else (r, l)

/-- `within` (period.py:373-384): the unit of the period is not used. -/
def within (l : PyList) (p : PyPeriod) : PyList := ⟨l.unit, PeriodList.within l.base p.asBaseClass⟩

/-- `intersection` (period.py:386-398): the unit of the period is not used. -/
def intersection (l : PyList) (p : PyPeriod) : PyList :=
  ⟨l.unit, PeriodList.intersection l.base p.asBaseClass⟩

/-- `filter` (period.py:405-417). -/
def filter (l : PyList) (u : Resolution) (n : Int) : PyList :=
  ⟨l.unit, PeriodList.filter l.base (convertDelta u l.unit n)⟩

/-- `merge` (period.py:424-437). When the units differ, `other.periods.astype(…)` converts an
array with two fields to dates, which numpy refuses (TypeError). -/
def merge (l other : PyList) : Out PyList :=
  if l.unit ≠ other.unit then .error .exn
  else .ok ⟨l.unit, PeriodList.merge l.base other.base⟩

/-- `belong_to_a_period` (period.py:469-498). -/
def belong (atEnd : Out Period) (l : PyList) (dates : List Date64) : Out (List Bool) :=
  PeriodList.belongToAPeriod atEnd l.base (dates.map fun d => (d.convert l.unit).value)

/-- `cross_a_period` (period.py:439-467). -/
def cross (l : PyList) (dates : List Date64) : Out (List Bool) :=
  PeriodList.crossAPeriod l.base (dates.map fun d => (d.convert l.unit).value)

/-- `is_it_close` (period.py:500-518). -/
def isItClose (l : PyList) (d : Date64) (epsilon : Option (Resolution × Int)) : Bool :=
  let e := match epsilon with
    | some (u, n) => convertDelta u l.unit n
    | none => 0
  PeriodList.isClose l.base (d.convert l.unit).value e

end PyList

end Pyinterp.PeriodPy
