import Verif.Model.TemporalAxis
import Verif.Spec.Axis
import Verif.Spec.Coordinates

/-
Vocabulary of the statements about temporal axes (C98): durations of the units, instants, what numpy's `astype` does.
-/
namespace Pyinterp.Spec.Temporal
open Pyinterp Dateutils Pyinterp.Temporal

/-- The duration of a unit in attoseconds; none for years and months, which have no fixed duration. -/
def duration : Resolution → Option Int
  | .year => none
  | .month => none
  | .week => some (7 * 86400 * 10 ^ 18)
  | .day => some (86400 * 10 ^ 18)
  | .hour => some (3600 * 10 ^ 18)
  | .minute => some (60 * 10 ^ 18)
  | .second => some (10 ^ 18)
  | .millisecond => some (10 ^ 15)
  | .microsecond => some (10 ^ 12)
  | .nanosecond => some (10 ^ 9)
  | .picosecond => some (10 ^ 6)
  | .femtosecond => some (10 ^ 3)
  | .attosecond => some 1

/-- What is assumed of numpy: the conversion of a date between units of fixed durations gives the last date of the new
unit that is not after it. -/
def FloorCast (astype : DType → DType → Int → Int) : Prop :=
  ∀ a b u w v, a.datetype = b.datetype → duration a.resolution = some u → duration b.resolution = some w →
    astype a b v * w ≤ v * u ∧ v * u < (astype a b v + 1) * w

/-- Among the instants `dates` (in attoseconds), number `i` is the nearest of the instant `c`. -/
def NearestInstant (dates : List Int) (c : Int) (i : Int) : Prop := Nearest dates c i

end Pyinterp.Spec.Temporal
