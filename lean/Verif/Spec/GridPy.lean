import Verif.Model.GridPy
import Verif.Spec.Coordinates

/-
Vocabulary of the statements about the Python grids (C95-C97).
-/
namespace Pyinterp.Spec.GridPy
open Pyinterp Variate Pyinterp.GridPy

/-- The temporal axes that a program can hold: built from dates, then flipped and pickled. -/
inductive TimeReach : Axis Int → Prop where
  | values (v : List Int) (a : Axis Int) : mkAxis true v 0 false = .ok a → TimeReach a
  | flip (a : Axis Int) : TimeReach a → TimeReach a.flip
  | pickle (a b : Axis Int) (s : AxisState Int) :
      TimeReach a → a.getstate = .ok s → Axis.setstate s = .ok b → TimeReach b

section
variable {K : Type} [Field K] [LinearOrder K] [FloorRing K]

/-- The axis objects that a program can hold. -/
def Held : AxisObj K → Prop
  | .float a => Reach false a
  | .time a => TimeReach a

/-- The coordinates of the axis, read one by one, increase strictly. -/
def Increasing : AxisObj K → Prop
  | .float a => ∃ l, Coordinates a l ∧ l.Pairwise (· < ·)
  | .time a => ∃ l, Coordinates a l ∧ l.Pairwise (· < ·)

/-- `i` is a multi-index of an array of this shape. -/
def ValidIndex (shape i : List Nat) : Prop :=
  i.length = shape.length ∧ ∀ k (_ : k < i.length) (_ : k < shape.length), i[k] < shape[k]

/-- The coordinates, one per axis, of the node `i` of the grid. -/
def labels (axes : List (AxisObj K)) (i : List Nat) : List (Out (K ⊕ Int)) := List.zipWith AxisObj.item axes i

/-- The multi-index counted from the end along the decreasing axes. -/
def mirror (axes : List (AxisObj K)) (shape i : List Nat) : List Nat :=
  i.mapIdx fun k j =>
    match axes[k]? with
    | some a => if a.isAscending then j else shape.getD k 0 - 1 - j
    | none => j

variable {N : Type} [DecidableEq N]

/-- The dimensions of a `DataArray` have distinct names, and the array has as many dimensions. -/
def WellFormed (da : DataArray N K) : Prop := da.dims.Nodup ∧ da.arr.shape.length = da.dims.length

/-- `o` is the axis built from the coordinate called `d` (a circle if `circle`). -/
def Built (da : DataArray N K) (d : N) (circle : Bool) (o : AxisObj K) : Prop :=
  ∃ c, c ∈ da.coords ∧ c.name = d ∧ c.ndim = 1 ∧
    match c.values with
    | .num l => ∃ a, mkAxis false l (1 / 1000000) circle = .ok a ∧ o = .float a
    | .datetime l => ∃ a, mkAxis true l 0 false = .ok a ∧ o = .time a
    | .timedelta l => ∃ a, mkAxis true l 0 false = .ok a ∧ o = .time a

/-- `pos` gives a position along each dimension of the `DataArray`. -/
def Node (da : DataArray N K) (pos : N → Nat) : Prop :=
  ∀ (k : Nat) d n, da.dims[k]? = some d → da.arr.shape[k]? = some n → pos d < n

/-- The value of the `DataArray` at this position (`data_array.isel(...)`). -/
def isel (da : DataArray N K) (pos : N → Nat) : Option K := da.arr.at' (da.dims.map pos)

/-- The node `j` of the grid whose axes are `axes` and whose array is `arr` has the coordinates and the value of the
node `pos` of the `DataArray`; `axes0` are the axes of the `DataArray` in the order `dims`. -/
def SameNode (da : DataArray N K) (dims : List N) (axes0 axes : List (AxisObj K)) (arr : Arr K) (pos : N → Nat)
    (j : List Nat) : Prop :=
  labels axes j = labels axes0 (dims.map pos) ∧ arr.at' j = isel da pos

/-- The first coordinate of the `DataArray` that has one of these units is called `d`. -/
def FirstUnit (da : DataArray N K) (units : List String) (d : N) : Prop :=
  ∃ pre c post, da.coords = pre ++ c :: post ∧ c.name = d ∧ (∃ u ∈ units, c.units = some u) ∧
    ∀ c' ∈ pre, ¬ ∃ u ∈ units, c'.units = some u

end
end Pyinterp.Spec.GridPy
