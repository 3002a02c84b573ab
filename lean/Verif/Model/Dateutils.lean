import Mathlib.Data.Int.Basic

/-
Model of src/pyinterp/core/include/pyinterp/dateutils.hpp and of the per-element
computations of src/pyinterp/core/module/dateutils.cpp.

`int64_t`, `int` and `unsigned` are `Int`; the 32-bit casts are treated by the theorem
`C11_no_int32_overflow`, which gives the range of days for which no cast changes a value.
C++ `/` and `%` on signed integers are `Int.tdiv` / `Int.tmod`.
-/
namespace Pyinterp.Dateutils

/-- `DType::Resolution` (dateutils.hpp:57-71). -/
inductive Resolution where
  | year | month | week | day | hour | minute
  | second | millisecond | microsecond | nanosecond | picosecond | femtosecond | attosecond
  deriving DecidableEq, Repr

/-- Numerical value of the enumeration (dateutils.hpp:57-71). -/
def Resolution.rank : Resolution → Nat
  | .year => 0 | .month => 1 | .week => 2 | .day => 3 | .hour => 4 | .minute => 5
  | .second => 6 | .millisecond => 7 | .microsecond => 8 | .nanosecond => 9
  | .picosecond => 10 | .femtosecond => 11 | .attosecond => 12

/-- `DType::unit()` (dateutils.hpp:122-151). -/
def Resolution.unit : Resolution → String
  | .year => "Y" | .month => "M" | .week => "W" | .day => "D" | .hour => "h" | .minute => "m"
  | .second => "s" | .millisecond => "ms" | .microsecond => "us" | .nanosecond => "ns"
  | .picosecond => "ps" | .femtosecond => "fs" | .attosecond => "as"

/-- `DType::parse_unit` (dateutils.hpp:239-281); `none` is the exception. -/
def parseUnit (s : String) : Option Resolution :=
  if s = "Y" then some .year
  else if s = "M" then some .month
  else if s = "W" then some .week
  else if s = "D" then some .day
  else if s = "h" then some .hour
  else if s = "m" then some .minute
  else if s = "s" then some .second
  else if s = "ms" then some .millisecond
  else if s = "us" then some .microsecond
  else if s = "ns" then some .nanosecond
  else if s = "ps" then some .picosecond
  else if s = "fs" then some .femtosecond
  else if s = "as" then some .attosecond
  else none

/-- `DType::order_of_magnitude` (dateutils.hpp:185-204); `none` is the exception. -/
def Resolution.orderOfMagnitude : Resolution → Option Int
  | .second => some 1
  | .millisecond => some 1000
  | .microsecond => some 1000000
  | .nanosecond => some 1000000000
  | .picosecond => some 1000000000000
  | .femtosecond => some 1000000000000000
  | .attosecond => some 1000000000000000000
  | _ => none

/-- `FractionalSeconds::resolution` (dateutils.hpp:325-342). -/
def resolutionOf (oom : Int) : Resolution :=
  if oom = 1000000000000000000 then .attosecond
  else if oom = 1000000000000000 then .femtosecond
  else if oom = 1000000000000 then .picosecond
  else if oom = 1000000000 then .nanosecond
  else if oom = 1000000 then .microsecond
  else if oom = 1000 then .millisecond
  else .second

/-- `FractionalSeconds::epoch` with `seconds` and `fractional` (dateutils.hpp:348-369). -/
def epoch (oom datetime64 : Int) : Int × Int :=
  let sec := datetime64.tdiv oom
  let frac := datetime64.tmod oom
  if frac < 0 then (sec - 1, frac + oom) else (sec, frac)

/-- `FractionalSeconds::days_since_epoch` (dateutils.hpp:298-306). -/
def daysSinceEpoch (oom datetime64 : Int) : Int × Int × Int :=
  let (seconds, fractional) := epoch oom datetime64
  let days := seconds.tdiv 86400
  let days := if seconds.tmod 86400 < 0 then days - 1 else days
  (days, seconds, fractional)

/-- `FractionalSeconds::cast` (dateutils.hpp:313-318). -/
def cast (oom frac scale : Int) : Int :=
  if oom ≤ scale then (scale.tdiv oom) * frac else frac.tdiv (oom.tdiv scale)

/-- dateutils.hpp:373-377 -/
structure Date where
  year : Int
  month : Int
  day : Int
  deriving DecidableEq, Repr

/-- dateutils.hpp:380-384 -/
structure Time where
  hour : Int
  minute : Int
  second : Int
  deriving DecidableEq, Repr

/-- dateutils.hpp:387-391 -/
structure ISOCalendar where
  year : Int
  week : Int
  weekday : Int
  deriving DecidableEq, Repr

/-- `time_from_seconds` (dateutils.hpp:394-404). -/
def timeFromSeconds (seconds : Int) : Time :=
  let s := seconds.tmod 86400
  let s := if s < 0 then s + 86400 else s
  let h := s.tmod 3600
  ⟨s.tdiv 3600, h.tdiv 60, h.tmod 60⟩

/-- `date_from_years` (dateutils.hpp:407-409). -/
def dateFromYears (years : Int) : Date := ⟨1970 + years, 1, 1⟩

/-- `date_from_months` (dateutils.hpp:412-420). -/
def dateFromMonths (months : Int) : Date :=
  let year := months.tdiv 12
  let month := months.tmod 12
  if month ≠ 0 ∧ months < 0 then ⟨1970 + (year - 1), month + 12 + 1, 1⟩
  else ⟨1970 + year, month + 1, 1⟩

/-- The variable `era` of `date_from_days` (dateutils.hpp:424-427), before the cast. -/
def eraOf (days : Int) : Int :=
  let days := days + 719468
  (if days ≥ 0 then days else days - 146096).tdiv 146097

/-- `date_from_days` (dateutils.hpp:423-442). -/
def dateFromDays (days : Int) : Date :=
  let era := eraOf days
  let doe := days + 719468 - era * 146097
  let yoe := (doe - doe.tdiv 1460 + doe.tdiv 36524 - doe.tdiv 146096).tdiv 365
  let doy := doe - (365 * yoe + yoe.tdiv 4 - yoe.tdiv 100)
  let mon := (5 * doy + 2).tdiv 153
  let day := doy - (153 * mon + 2).tdiv 5 + 1
  let month := if mon < 10 then mon + 3 else mon - 9
  ⟨(yoe + era * 400) + (if month ≤ 2 then 1 else 0), month, day⟩

/-- `date_from_weeks` (dateutils.hpp:445-447). -/
def dateFromWeeks (weeks : Int) : Date := dateFromDays (weeks * 7)

/-- `datetime_from_hours` (dateutils.hpp:450-460). -/
def datetimeFromHours (hours : Int) : Date × Time :=
  let days := hours.tdiv 24
  let hour := hours.tmod 24
  if hour ≠ 0 ∧ hours < 0 then (dateFromDays (days - 1), ⟨hour + 24, 0, 0⟩)
  else (dateFromDays days, ⟨hour, 0, 0⟩)

/-- `datetime_from_minutes` (dateutils.hpp:463-473). -/
def datetimeFromMinutes (minutes : Int) : Date × Time :=
  let days := minutes.tdiv 1440
  let minute := minutes.tmod 1440
  if minute ≠ 0 ∧ minutes < 0 then
    (dateFromDays (days - 1), timeFromSeconds ((minute + 1440) * 60))
  else (dateFromDays days, timeFromSeconds (minute * 60))

/-- `is_leap_year` (dateutils.hpp:560-562). On two's complement integers `year & 3` and
`year & 15` are the residues modulo 4 and 16; the result is used as an integer. -/
def isLeapYear (year : Int) : Int :=
  if year % 4 = 0 ∧ (year.tmod 25 ≠ 0 ∨ year % 16 = 0) then 1 else 0

/-- `kDaysInMonth` (dateutils.hpp:44-45). -/
def kDaysInMonth : List Int := [-1, 31, 28, 31, 30, 31, 30, 31, 31, 30, 31, 30, 31]

/-- The loop `for (ix = 1; ix < month; ++ix) result += kDaysInMonth[ix]`
(dateutils.hpp:572-574); months go up to 12 so that the table is never left. -/
def sumMonths (month : Int) : Int := ((kDaysInMonth.take month.toNat).drop 1).sum

/-- `days_since_january` (dateutils.hpp:565-577). -/
def daysSinceJanuary (d : Date) : Int :=
  (d.day - 1) + (if d.month > 2 then isLeapYear d.year else 0) + sumMonths d.month

/-- `weekday` (dateutils.hpp:580-583). -/
def weekday (days : Int) : Int :=
  if days ≥ -4 then (days + 4).tmod 7 else (days + 5).tmod 7 + 6

/-- `iso_week_days` (dateutils.hpp:589-594): `big_enough_multiple_of_7 = 378`,
`kIsoWeekFirstWDay = 4`, `kIsoWeekStartWDay = 1`. -/
def isoWeekDays (yday wday : Int) : Int :=
  yday - (yday - wday + 4 + (366 / 7 + 2) * 7).tmod 7 + 4 - 1

/-- `isocalendar` (dateutils.hpp:603-628). -/
def isocalendar (daysSinceEpoch : Int) : ISOCalendar :=
  let date := dateFromDays daysSinceEpoch
  let yday := daysSinceJanuary date
  let wday := weekday daysSinceEpoch
  let days := isoWeekDays yday wday
  let wd := (wday - 1 + 7).tmod 7 + 1
  if days < 0 then
    let year := date.year - 1
    let days := isoWeekDays (yday + (365 + isLeapYear year)) wday
    ⟨year, days.tdiv 7 + 1, wd⟩
  else
    let weekDays := isoWeekDays (yday - (365 + isLeapYear date.year)) wday
    if 0 ≤ weekDays then ⟨date.year + 1, weekDays.tdiv 7 + 1, wd⟩
    else ⟨date.year, days.tdiv 7 + 1, wd⟩

/-- One element of `timedelta_since_january` (module/dateutils.cpp:113-139). -/
def timedeltaSinceJanuary (oom datetime64 : Int) : Int :=
  let (days, seconds, frac) := daysSinceEpoch oom datetime64
  let dsj := daysSinceJanuary (dateFromDays days)
  let hms := timeFromSeconds seconds
  (dsj * 86400 + hms.hour * 3600 + hms.minute * 60 + hms.second) * oom + frac

/-- One element of `datetime` (module/dateutils.cpp:141-167): date, time and microseconds. -/
def datetime (oom datetime64 : Int) : Date × Time × Int :=
  let (days, seconds, frac) := daysSinceEpoch oom datetime64
  (dateFromDays days, timeFromSeconds seconds, cast oom frac 1000000)

end Pyinterp.Dateutils
