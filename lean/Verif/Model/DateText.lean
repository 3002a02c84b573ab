import Verif.Model.Axis
import Verif.Model.Dateutils
import Mathlib.Data.Nat.Log

/-
Model of `datetime64_to_string` (include/pyinterp/dateutils.hpp:473-557), the text of a date in the messages and in
`core.dateutils.datetime64_to_str`. Texts are lists of characters.
-/
namespace Pyinterp.Dateutils
open Pyinterp

/-- `std::stringstream << int` and `std::to_string`: the decimal digits, with a minus sign (dateutils.hpp:486, 493). -/
def dec (n : Int) : List Char :=
  if n < 0 then '-' :: Nat.toDigits 10 n.natAbs else Nat.toDigits 10 n.natAbs

/-- `std::setfill('0') << std::setw(w)` (dateutils.hpp:492, 553): zeros on the left. -/
def setw (w : Nat) (s : List Char) : List Char := List.replicate (w - s.length) '0' ++ s

/-- Year, month and day (dateutils.hpp:499-500, 506-507, 513-514, 521-522, 544-545). -/
def dateText (d : Date) : List Char :=
  dec d.year ++ '-' :: (setw 2 (dec d.month) ++ '-' :: setw 2 (dec d.day))

/-- `FractionalSeconds::ndigits` (dateutils.hpp:309-311): `log10` of a power of ten, assumed exact. -/
def ndigits (oom : Int) : Nat := Nat.log 10 oom.toNat

/-- `datetime64_to_string` (dateutils.hpp:476-557). -/
def datetime64ToString (value : Int) : Resolution → Out (List Char)
  | .year => .ok (dec (dateFromYears value).year)
  | .month =>
    let date := dateFromMonths value
    .ok (dec date.year ++ '-' :: setw 2 (dec date.month))
  | .week => .ok (dateText (dateFromWeeks value))
  | .day => .ok (dateText (dateFromDays value))
  | .hour =>
    let (date, time) := datetimeFromHours value
    .ok (dateText date ++ 'T' :: setw 2 (dec time.hour))
  | .minute =>
    let (date, time) := datetimeFromMinutes value
    .ok (dateText date ++ 'T' :: (setw 2 (dec time.hour) ++ ':' :: setw 2 (dec time.minute)))
  | r =>
    match r.orderOfMagnitude with
    | none => .error .exn
    | some oom =>
      let (days, seconds, fractional) := daysSinceEpoch oom value
      let date := dateFromDays days
      let time := timeFromSeconds seconds
      let s := dateText date ++ 'T' :: (setw 2 (dec time.hour) ++ ':' :: (setw 2 (dec time.minute) ++
        ':' :: setw 2 (dec time.second)))
      if 0 < ndigits oom then .ok (s ++ '.' :: setw (ndigits oom) (dec fractional)) else .ok s

end Pyinterp.Dateutils
