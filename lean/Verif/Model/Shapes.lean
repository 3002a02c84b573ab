import Verif.Model.Binning

/-
Model of src/pyinterp/core/include/pyinterp/detail/broadcast.hpp and of the loop of
`Binning1D::push` (src/pyinterp/core/include/pyinterp/binning.hpp:388-418) on arrays.
An array is represented by its shape; the names, only used in the messages, are dropped.
-/
namespace Pyinterp.Shapes

/-- `check_eigen_shape(name1, m1, name2, m2)` (detail/broadcast.hpp:45-53); a shape is (rows, cols). -/
def checkEigen (a b : Nat × Nat) : Out Unit :=
  if a.2 ≠ b.2 ∨ a.1 ≠ b.1 then .error .exn else .ok ()

/-- `check_eigen_shape(name1, v1, name2, v2, args...)` (detail/broadcast.hpp:63-72): the head is compared with each other one. -/
def checkEigenAll (a : Nat × Nat) : List (Nat × Nat) → Out Unit
  | [] => .ok ()
  | b :: args => do
    checkEigen a b
    checkEigenAll a args

/-- `check_container_size(name1, v1, name2, v2)` (detail/broadcast.hpp:82-91). -/
def checkSize (a b : Nat) : Out Unit := if a ≠ b then .error .exn else .ok ()

/-- `check_container_size(name1, v1, name2, v2, args...)` (detail/broadcast.hpp:101-110). -/
def checkSizeAll (a : Nat) : List Nat → Out Unit
  | [] => .ok ()
  | b :: args => do
    checkSize a b
    checkSizeAll a args

/-- `check_array_ndim(name, ndim, a)` (detail/broadcast.hpp:119-126); `shape.length` is `a.ndim()`. -/
def checkNdim (ndim : Nat) (shape : List Nat) : Out Unit := if shape.length ≠ ndim then .error .exn else .ok ()

/-- `check_array_ndim(name, ndim, a, args...)` (detail/broadcast.hpp:135-143). -/
def checkNdimAll : List (Nat × List Nat) → Out Unit
  | [] => .ok ()
  | (ndim, shape) :: args => do
    checkNdim ndim shape
    checkNdimAll args

/-- The loop `for (auto ix = 0; ix < a1.ndim(); ++ix)` (detail/broadcast.hpp:158-163): `k` turns are left; a dimension is read
without check. -/
def sameDims (a b : List Nat) : Nat → Nat → Out Bool
  | _, 0 => .ok true
  | ix, k + 1 => do
    let u ← rd a ix
    let v ← rd b ix
    if u ≠ v then return false
    else sameDims a b (ix + 1) k

/-- `check_ndarray_shape(name1, a1, name2, a2)` (detail/broadcast.hpp:154-171). -/
def checkNdarray (a b : List Nat) : Out Unit := do
  let m ← if a.length = b.length then sameDims a b 0 a.length else .ok false
  if !m then .error .exn else .ok ()

/-- `check_ndarray_shape(name1, a1, name2, a2, args...)` (detail/broadcast.hpp:180-189). -/
def checkNdarrayAll (a : List Nat) : List (List Nat) → Out Unit
  | [] => .ok ()
  | b :: args => do
    checkNdarray a b
    checkNdarrayAll a args

/-- The checks made before the loops by `bivariate` (bivariate.hpp:117-118), `trivariate` (trivariate.hpp:90-91), `quadrivariate`
(quadrivariate.hpp:128-130), `bicubic` (module/bicubic.cpp:46-47, 105-106, 171-172), `Binning2D::push` (binning.hpp:77-78) and
`Histogram2D::push` (histogram2d.hpp:79-80): `first` is `x`, `others` are `y`, `z`, `u`. -/
def checkVectors (first : List Nat) (others : List (List Nat)) : Out Unit := do
  checkNdimAll ((first :: others).map fun s => (1, s))
  checkNdarrayAll first others

/-- The checks of `RTree::packing` and `RTree::insert` (rtree.hpp:133-158, 164-188) for a tree of points with three dimensions. -/
def checkPacking (coordinates values : List Nat) : Out Unit := do
  checkNdim 2 coordinates
  checkNdim 1 values
  let rows ← rd coordinates 0
  if rows ≠ values.prod then .error .exn
  else
    let cols ← rd coordinates 1
    if cols = 2 ∨ cols = 3 then .ok () else .error .exn

section
variable {K : Type} [Field K] [LinearOrder K] [FloorRing K]

/-- A value that is not NaN in the loop of `Binning1D::push` (binning.hpp:406-414); `weight` reads the weight. -/
def pushOne (x : Axis K) (lo hi : K) (acc : List (Stats.Acc K)) (xi value : K) (weight : Out K) : Out (List (Stats.Acc K)) :=
  if lo ≤ xi ∧ xi ≤ hi then do
    let ix ← x.findIndex xi true
    if ix ≠ -1 then do
      let weight ← weight
      Bin2D.updateCell x.size 1 acc ix 0 (fun s => Stats.pushW s value weight)
    else .ok acc
  else .ok acc

/-- The weight (binning.hpp:411): read without check. -/
def readWeight (ws : Option (List K)) (idx : Nat) : Out K :=
  match ws with
  | some w => rd w idx
  | none => .ok 1

/-- The loop of `Binning1D::push` (binning.hpp:402-416) on the arrays: `k` turns are left; `_z(idx)`, `_x(idx)` and
`_weights(idx)` are read without check. `none` is NaN. -/
def push1DLoop (x : Axis K) (lo hi : K) (xs : List K) (zs : List (Option K)) (ws : Option (List K)) :
    Nat → Nat → List (Stats.Acc K) → Out (List (Stats.Acc K))
  | _, 0, acc => .ok acc
  | idx, k + 1, acc => do
    let value ← rd zs idx
    match value with
    | none => push1DLoop x lo hi xs zs ws (idx + 1) k acc
    | some value => do
      let xi ← rd xs idx
      let acc' ← pushOne x lo hi acc xi value (readWeight ws idx)
      push1DLoop x lo hi xs zs ws (idx + 1) k acc'

/-- `Binning1D::push` (binning.hpp:388-418): the shapes of the vectors are not compared. -/
def push1DArrays (x : Axis K) (lo hi : K) (acc : List (Stats.Acc K)) (xs : List K) (zs : List (Option K)) (ws : Option (List K)) :
    Out (List (Stats.Acc K)) :=
  push1DLoop x lo hi xs zs ws 0 xs.length acc

end
end Pyinterp.Shapes
