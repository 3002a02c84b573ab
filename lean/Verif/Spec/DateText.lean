import Verif.Spec.Calendar

/-
ISO 8601 texts of dates: numbers written in decimal, without reference to the code (C99).
-/
namespace Pyinterp.Spec.DateText
open Pyinterp.Dateutils Pyinterp.Spec.Calendar

/-- The value of a list of decimal digits. -/
def value (s : List Char) : Nat := s.foldl (fun n c => 10 * n + (c.toNat - '0'.toNat)) 0

/-- `s` is `n` written with exactly `w` decimal digits. -/
def Field (w : Nat) (n : Int) (s : List Char) : Prop :=
  s.length = w ∧ (∀ c ∈ s, c.isDigit = true) ∧ (value s : Int) = n

/-- `s` is the year `n`: its digits, after a minus sign for the years before the year 0. -/
def Year (n : Int) (s : List Char) : Prop :=
  (0 ≤ n ∧ s ≠ [] ∧ (∀ c ∈ s, c.isDigit = true) ∧ (value s : Int) = n) ∨
    (n < 0 ∧ ∃ t, s = '-' :: t ∧ t ≠ [] ∧ (∀ c ∈ t, c.isDigit = true) ∧ (value t : Int) = -n)

/-- A date, a time of day, and a fraction of second. -/
structure Moment where
  date : Date
  time : Time
  frac : Int

/-- The number of decimals of a unit of fractions of seconds. -/
def decimals : Resolution → Nat
  | .millisecond => 3
  | .microsecond => 6
  | .nanosecond => 9
  | .picosecond => 12
  | .femtosecond => 15
  | .attosecond => 18
  | _ => 0

/-- The date and the time are those of the calendar and of the clock. -/
def ValidMoment (r : Resolution) (m : Moment) : Prop :=
  Valid m.date ∧ (0 ≤ m.time.hour ∧ m.time.hour < 24) ∧ (0 ≤ m.time.minute ∧ m.time.minute < 60) ∧
    (0 ≤ m.time.second ∧ m.time.second < 60) ∧ 0 ≤ m.frac ∧ m.frac < 10 ^ decimals r

/-- The moment is `v` units after 1970-01-01T00:00:00. -/
def Stands (r : Resolution) (m : Moment) (v : Int) : Prop :=
  match r with
  | .year => v = m.date.year - 1970
  | .month => v = 12 * (m.date.year - 1970) + (m.date.month - 1)
  | .week => 7 * v = dayNumber m.date
  | .day => v = dayNumber m.date
  | .hour => v = dayNumber m.date * 24 + m.time.hour
  | .minute => v = (dayNumber m.date * 24 + m.time.hour) * 60 + m.time.minute
  | r => v = (((dayNumber m.date * 24 + m.time.hour) * 60 + m.time.minute) * 60 + m.time.second) * 10 ^ decimals r
      + m.frac

/-- YYYY-MM-DD -/
def DateIs (d : Date) (s : List Char) : Prop :=
  ∃ a b c, Year d.year a ∧ Field 2 d.month b ∧ Field 2 d.day c ∧ s = a ++ '-' :: (b ++ '-' :: c)

/-- YYYY-MM-DDThh:mm:ss -/
def SecondIs (m : Moment) (s : List Char) : Prop :=
  ∃ d h n e, DateIs m.date d ∧ Field 2 m.time.hour h ∧ Field 2 m.time.minute n ∧ Field 2 m.time.second e ∧
    s = d ++ 'T' :: (h ++ ':' :: (n ++ ':' :: e))

/-- The ISO 8601 text of a moment, down to the unit. -/
def TextIs (r : Resolution) (m : Moment) (s : List Char) : Prop :=
  match r with
  | .year => Year m.date.year s
  | .month => ∃ a b, Year m.date.year a ∧ Field 2 m.date.month b ∧ s = a ++ '-' :: b
  | .week => DateIs m.date s
  | .day => DateIs m.date s
  | .hour => ∃ d h, DateIs m.date d ∧ Field 2 m.time.hour h ∧ s = d ++ 'T' :: h
  | .minute => ∃ d h n, DateIs m.date d ∧ Field 2 m.time.hour h ∧ Field 2 m.time.minute n ∧
      s = d ++ 'T' :: (h ++ ':' :: n)
  | .second => SecondIs m s
  | r => ∃ t f, SecondIs m t ∧ Field (decimals r) m.frac f ∧ s = t ++ '.' :: f

end Pyinterp.Spec.DateText
