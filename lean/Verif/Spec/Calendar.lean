import Verif.Model.Dateutils

/-
The proleptic Gregorian calendar, independently of the algorithms of the library
(only the record types `Date` and `Time` are shared).
-/
namespace Pyinterp.Spec.Calendar
open Pyinterp.Dateutils

/-- Leap years of the Gregorian calendar. -/
def Leap (y : Int) : Prop := 4 ∣ y ∧ (¬ 100 ∣ y ∨ 400 ∣ y)

instance (y : Int) : Decidable (Leap y) := inferInstanceAs (Decidable (_ ∧ _))

/-- Length of the months. -/
def monthLength (y m : Int) : Int :=
  if m = 2 then (if Leap y then 29 else 28)
  else if m = 4 ∨ m = 6 ∨ m = 9 ∨ m = 11 then 30
  else 31

/-- Dates of the calendar. -/
def Valid (d : Date) : Prop :=
  1 ≤ d.month ∧ d.month ≤ 12 ∧ 1 ≤ d.day ∧ d.day ≤ monthLength d.year d.month

/-- The day after. -/
def next (d : Date) : Date :=
  if d.day < monthLength d.year d.month then ⟨d.year, d.month, d.day + 1⟩
  else if d.month < 12 then ⟨d.year, d.month + 1, 1⟩
  else ⟨d.year + 1, 1, 1⟩

/-- Lexicographic order of dates. -/
def Before (d e : Date) : Prop :=
  d.year < e.year ∨ (d.year = e.year ∧ (d.month < e.month ∨ (d.month = e.month ∧ d.day < e.day)))

/-- Length of a year. -/
def yearLength (y : Int) : Int := if Leap y then 366 else 365

/-- Number of days between 1 January of year 1 and 1 January of year `y`. -/
def beforeYear (y : Int) : Int :=
  365 * (y - 1) + (y - 1) / 4 - (y - 1) / 100 + (y - 1) / 400

/-- Number of days of the year before the month `m`. -/
def beforeMonth (y m : Int) : Int :=
  ((List.range (m.toNat - 1)).map (fun i : Nat => monthLength y ((i : Int) + 1))).sum

/-- Number of days between 1970-01-01 and the date. -/
def dayNumber (d : Date) : Int :=
  beforeYear d.year - beforeYear 1970 + beforeMonth d.year d.month + (d.day - 1)

end Pyinterp.Spec.Calendar
