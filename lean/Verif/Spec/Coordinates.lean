import Verif.Model.Axis
import Verif.Spec.Axis

/-
The observable content of an axis: what `len(axis)` and `axis[i]` return.
-/
namespace Pyinterp.Spec

variable {T : Type} [LinearOrder T] [AddCommGroup T] [AxisNum T]

/-- `l` is the list `[axis[0], ..., axis[len(axis) - 1]]`. -/
def Coordinates (a : Axis T) (l : List T) : Prop :=
  a.size = l.length ∧ ∀ i (h : i < l.length), a.coordinateValue (i : Int) = .ok l[i]

end Pyinterp.Spec

namespace Pyinterp.Spec
variable {T : Type} [CommRing T] [LinearOrder T] [AxisNum T]

/-- `c` is the coordinate `x` brought back, when the axis is an angle, to the turn
of 360 degrees that starts at the smallest coordinate of the axis. -/
def OnTurn (a : Axis T) (l : List T) (x c : T) : Prop :=
  (a.isAngle = false → c = x) ∧
  (a.isAngle = true → (∀ v ∈ l, (∀ w ∈ l, v ≤ w) → v ≤ c ∧ c < v + 360) ∧
    ∃ k : ℤ, c = x + (k : T) * 360)

/-- Some pair of turns brings `v` at least as close to `x` as `w` on the circle of
360 degrees. -/
def AngularCloser (x v w : T) : Prop :=
  ∀ k : ℤ, ∃ k' : ℤ, |x - v + (k' : T) * 360| ≤ |x - w + (k : T) * 360|

end Pyinterp.Spec
