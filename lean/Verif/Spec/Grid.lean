import Mathlib.Algebra.Order.Field.Basic
import Verif.Spec.Coordinates

/-
Specification vocabulary for samples on a grid.
-/
namespace Pyinterp.Spec

/-- The defined values of the samples that the functions `cx` and `cy` send to the cell
`(i, j)`, in the order of the samples. -/
def cellValues {K : Type} (cx cy : K → Nat) (i j : Nat) (samples : List (K × K × Option K)) :
    List K :=
  (samples.filter fun s => cx s.1 = i ∧ cy s.2.1 = j).filterMap fun s => s.2.2

/-- The values of all the samples with a defined value. -/
def definedValues {K : Type} (samples : List (K × K × Option K)) : List K :=
  samples.filterMap fun s => s.2.2

/-- The functions `cx`, from coordinates to indexes, send each coordinate (brought to the
turn of the axis if it is an angle) to a nearest coordinate of the axis. -/
def NearestIndex {K : Type} [CommRing K] [LinearOrder K] [AxisNum K] (a : Axis K) (l : List K)
    (cx : K → Nat) : Prop :=
  ∀ v, ∃ c, OnTurn a l v c ∧ Nearest l c (cx v)

end Pyinterp.Spec
