import Verif.Spec.DateText

/-
Vocabulary of C113: arrays of dates counted in a unit since 1970-01-01T00:00:00, without reference to the code.
-/
namespace Pyinterp.Spec.DateArray
open Pyinterp.Dateutils Pyinterp.Spec.Calendar Pyinterp.Spec.DateText

/-- `m` is the moment that the integer `v` stands for, in the unit `r`. -/
def IsMoment (r : Resolution) (v : Int) (m : Moment) : Prop := ValidMoment r m ∧ Stands r m v

/-- The 64-bit integers; in seconds, those of the years from -1.9 to 1.9 thousand millions. -/
def InRange (r : Resolution) (v : Int) : Prop :=
  -2 ^ 63 ≤ v ∧ v < 2 ^ 63 ∧ (r = .second → -(6 * 10 ^ 16) ≤ v ∧ v ≤ 6 * 10 ^ 16)

/-- Day of the week, Sunday is 0: 1970-01-01 was a Thursday. -/
def sundayBased (d : Date) : Int := (dayNumber d + 4) % 7

/-- ISO 8601 weeks: Monday is 1 ... Sunday is 7; the week has the number of its Thursday, in the year of this
Thursday. -/
def IsoDate (d : Date) (c : ISOCalendar) : Prop :=
  1 ≤ c.weekday ∧ c.weekday ≤ 7 ∧ c.weekday % 7 = sundayBased d ∧
    ∃ t : Date, Valid t ∧ dayNumber t = dayNumber d - c.weekday + 4 ∧ t.year = c.year ∧
      c.week = (dayNumber t - dayNumber ⟨c.year, 1, 1⟩) / 7 + 1

/-- Units elapsed since 1 January 00:00 of the year of the moment `m` of the integer `v`. -/
def sinceJanuary (r : Resolution) (v : Int) (m : Moment) : Int :=
  v - dayNumber ⟨m.date.year, 1, 1⟩ * 86400 * 10 ^ decimals r

/-- Microseconds of a moment, rounded down. -/
def microseconds (r : Resolution) (m : Moment) : Int := m.frac * 10 ^ 6 / 10 ^ decimals r

end Pyinterp.Spec.DateArray
