import Verif.Model.GeohashArray
import Verif.Model.Axis
import Mathlib.Data.List.Sort
import Mathlib.Data.List.Dedup

/-
Model of src/pyinterp/geohash/converter.py: `to_xarray`.
-/
namespace Pyinterp.Geohash
open Pyinterp

variable {K : Type} [Field K] [LinearOrder K] [IsStrictOrderedRing K] [FloorRing K]

/-- `numpy.unique`: the values, sorted, without repetition. -/
def unique (l : List K) : List K := l.dedup.insertionSort (· ≤ ·)

/-- An index of numpy in a dimension of `n` elements: a negative one counts from the end. -/
def numpyIndex (n : Nat) (i : Int) : Out Nat :=
  if 0 ≤ i ∧ i < n then .ok i.toNat
  else if -(n : Int) ≤ i ∧ i < 0 then .ok (i + n).toNat
  else .error .exn

/-- The result of `to_xarray`: the grid, its axes, the units of the coordinates. -/
structure DataGrid (K V : Type) where
  values : List (List V)
  lon : Axis K
  lat : Axis K
  lonUnits : String
  latUnits : String

/-- `grid[i, j] = v` for one cell. -/
def setCell {V : Type} (g : List (List V)) (i j : Nat) (v : V) : List (List V) := g.modify i fun r => r.set j v

/-- `grid[y_axis.find_index(lat), x_axis.find_index(lon)] = data` (converter.py:42): the indexes are computed and checked before the
first assignment; the values are assigned in the order, the last one wins. -/
def cellOf (xAxis yAxis : Axis K) (p : Point K) : Out (Nat × Nat) := do
  let i ← yAxis.findNearestIndex p.lat false
  let j ← xAxis.findNearestIndex p.lon false
  let i ← numpyIndex yAxis.size.toNat i
  let j ← numpyIndex xAxis.size.toNat j
  return (i, j)

/-- The assignments of converter.py:42. -/
def assign {V : Type} (g : List (List V)) (cells : List (Nat × Nat)) (data : List V) : List (List V) :=
  (cells.zip data).foldl (fun g e => setCell g e.1.1 e.1.2 e.2) g

/-- The axes of `to_xarray` (converter.py:29-32): `epsilon` is 1e-6 (module/axis.cpp:161). -/
def converterAxes (cpu : Cpu) (precision : Nat) : Out (Axis K × Axis K) := do
  let codes ← checkedBoxes (K := K) cpu none precision
  let points : List (Point K) ← decodeArray cpu (arrayOf precision codes) false
  let xAxis ← mkAxis false (unique (points.map Point.lon)) (1 / 1000000) true
  let yAxis ← mkAxis false (unique (points.map Point.lat)) (1 / 1000000) false
  return (xAxis, yAxis)

/-- `to_xarray` after the checks (converter.py:29-56). -/
def fillGrid {V : Type} (cpu : Cpu) (zero : V) (hashes : CodeArray) (data : List V) : Out (DataGrid K V) := do
  let axes ← converterAxes (K := K) cpu hashes.itemsize
  let points : List (Point K) ← decodeArray cpu hashes false
  let cells ← points.mapM (cellOf axes.1 axes.2)
  let grid := List.replicate axes.2.size.toNat (List.replicate axes.1.size.toNat zero)
  return { values := assign grid cells data, lon := axes.1, lat := axes.2,
           lonUnits := "degrees_north", latUnits := "degrees_east" }

/-- `to_xarray` (converter.py:13-56) of data of one dimension. `zero` is 0 of the type of the data, or `None` for objects
(converter.py:34-38). -/
def toXarray {V : Type} (cpu : Cpu) (zero : V) (hashes : CodeArray) (data : List V) : Out (DataGrid K V) :=
  if hashes.ndim ≠ 1 ∨ hashes.shape.1 ≠ data.length then .error .exn
  else if hashes.bytes = false then .error .exn
  else fillGrid cpu zero hashes data

end Pyinterp.Geohash
