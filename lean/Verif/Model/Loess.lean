import Verif.Model.Variate
import Verif.Model.Thread

/-
Model of `fill::loess` (src/pyinterp/core/include/pyinterp/fill.hpp:344-682) for grids of 2, 3 and
4 dimensions. `Type` is an ordered field, `none` is NaN; `std::sqrt` is a parameter (an ordered
field need not have square roots). Rounding is not modelled.
-/
namespace Pyinterp.Loess
open Pyinterp Pyinterp.Variate

variable {K : Type} [Field K] [LinearOrder K] [FloorRing K]

/-- One index of `frame_index` (fill.hpp:352-369): `idx` is `index - center + ix`. A remainder
modulo 0 has no defined value. -/
def frameOne (size : Int) (isAngle : Bool) (idx : Int) : Out Int :=
  if isAngle then
    (if size = 0 then .error .ub else .ok (Math.remainderI idx size))
  else if idx < 0 ∨ idx ≥ size then
    if (size - 1) * 2 = 0 then .error .ub
    else
      let w := Math.remainderI idx ((size - 1) * 2)
      if w ≥ size then .ok (size - 2 - Math.remainderI w size)
      else .ok (Math.remainderI w size)
  else .ok idx

/-- `frame_index(index, size, is_angle, frame)` (fill.hpp:344-371); `n` is `frame.size()`. -/
def frameIndex (index size : Int) (isAngle : Bool) (n : Nat) : Out (List Int) :=
  (List.range n).mapM fun (ix : Nat) => frameOne size isAngle (index - ((n / 2 : Nat) : Int) + (ix : Int))

/-- `nx * 2 + 1` with `uint32_t nx` (fill.hpp:428-429): computed modulo 2^32. -/
def frameSize (nx : Nat) : Nat := (nx * 2 + 1) % 2 ^ 32

/-- fill.hpp:389-394 -/
inductive ValueType where
  | undefined | defined | all
  deriving DecidableEq, Repr

/-- `check_windows_size("nx", nx, "ny", ny)` (fill.hpp:373-387). -/
def checkWindowsSize (nx ny : Nat) : Out Unit :=
  if nx < 1 then .error .exn else if ny < 1 then .error .exn else .ok ()

/-- The condition of fill.hpp:450-452 (and 520-522). -/
def selected (vt : ValueType) (undefined : Bool) : Bool :=
  vt == .all || (vt == .defined && !undefined) || (vt == .undefined && undefined)

/-- `wi` (fill.hpp:477-483): the tri-cube weight of a cell at `dx`, `dy` of the current cell. -/
def weight (sqrt : K → K) (nx ny : Nat) (dx dy : K) : K :=
  let d := sqrt ((dx / (nx : K)) * (dx / (nx : K)) + (dy / (ny : K)) * (dy / (ny : K)))
  if d ≤ 1 then (1 - d ^ 3) ^ 3 else 0

/-- What the code does with the x axis before the loop over y (fill.hpp:432-444, 589-601): the
frame, `x0` and the normalised `x`. -/
def xPart (xAxis : Axis K) (nx : Nat) (ix : Int) : Out (List Int × K × K) := do
  let x ← xAxis.cont.coord ix
  let xFrame ← frameIndex ix xAxis.size xAxis.isAngle (frameSize nx)
  let f0 ← rd xFrame 0
  let x0 ← xAxis.cont.coord f0
  let x := if xAxis.isAngle then Math.normalizeAngleF x x0 360 else x
  return (xFrame, x0, x)

/-- The body of the loops over the window (fill.hpp:464-488): `acc` is `(value, weight)`. -/
def accumulate (sqrt : K → K) (nx ny : Nat) (xAxis yAxis : Axis K)
    (val : Int → Int → Out (Option K)) (x0 x y : K) (acc : K × K) (c : Int × Int) : Out (K × K) := do
  let xi ← xAxis.cont.coord c.1
  let xi := if xAxis.isAngle then Math.normalizeAngleF xi x0 360 else xi
  match ← val c.1 c.2 with
  | some zi =>
    let yi ← yAxis.cont.coord c.2
    let wi := weight sqrt nx ny (xi - x) (yi - y)
    return (acc.1 + wi * zi, acc.2 + wi)
  | none => return acc

/-- `loess_` (fill.hpp:511-564), and the same code in the 2-D function (447-496): the new value of
the cell `(ix, iy)`; `val` reads the values of the grid in the current layer. -/
def cell (sqrt : K → K) (nx ny : Nat) (vt : ValueType) (xAxis yAxis : Axis K)
    (val : Int → Int → Out (Option K)) (xFrame : List Int) (x0 x : K) (ix iy : Int) :
    Out (Option K) := do
  let z ← val ix iy
  if selected vt z.isNone then
    let y ← yAxis.cont.coord iy
    let yFrame ← frameIndex iy yAxis.size false (frameSize ny)
    let acc ← (xFrame.product yFrame).foldlM
      (accumulate sqrt nx ny xAxis yAxis val x0 x y) (0, 0)
    return (if acc.2 ≠ 0 then some (acc.1 / acc.2) else z)
  else return z

/-- The row `ix` of the 2-D result (fill.hpp:431-497). -/
def row2D (sqrt : K → K) (nx ny : Nat) (vt : ValueType) (g : Grid2D K) (ix : Nat) :
    Out (List (Option K)) := do
  let (xFrame, x0, x) ← xPart g.x nx ix
  (List.range g.y.size.toNat).mapM fun (iy : Nat) =>
    cell sqrt nx ny vt g.x g.y (fun i j => g.arr.value [i, j]) xFrame x0 x ix iy

/-- The worker of the 2-D function (fill.hpp:410-509) run by `dispatch` over the rows with the
schedule `sched`; the exceptions captured in `except` are never thrown again. The result: each row
of the array, `none` if it was not written. -/
def loess2D (sqrt : K → K) (hw : Nat) (sched : List Nat) (g : Grid2D K) (nx ny : Nat) (vt : ValueType)
    (numThreads : Nat) : Out (Thread.State (List (Option K)) Err) := do
  checkWindowsSize nx ny
  let sl ← Thread.slices hw g.x.size.toNat numThreads
  return Thread.run (row2D sqrt nx ny vt g) (Thread.init sl) sched

variable {T : Type} [LinearOrder T] [AddCommGroup T] [AxisNum T]

/-- One layer of the 3-D (fill.hpp:588-608) or 4-D (645-667) function: `rest` are the indexes of the layer. The
3-D function works on `[iz]`; the 4-D function on `[iz, iu]` for all the `iz` of its `iu`. -/
def layer (sqrt : K → K) (nx ny : Nat) (vt : ValueType) (g : Grid2D K) (rest : List Int) :
    Out (List (List (Option K))) :=
  (List.range g.x.size.toNat).mapM fun (ix : Nat) => do
    let (xFrame, x0, x) ← xPart g.x nx ix
    (List.range g.y.size.toNat).mapM fun (iy : Nat) =>
      cell sqrt nx ny vt g.x g.y (fun i j => g.arr.value (i :: j :: rest)) xFrame x0 x ix iy

/-- 3-D `loess` (fill.hpp:566-620): one step of a thread is a layer `iz`. -/
def loess3D (sqrt : K → K) (hw : Nat) (sched : List Nat) (g : Grid3D T K) (nx ny : Nat) (vt : ValueType)
    (numThreads : Nat) : Out (Thread.State (List (List (Option K))) Err) := do
  checkWindowsSize nx ny
  let sl ← Thread.slices hw g.z.size.toNat numThreads
  return Thread.run (fun iz => layer sqrt nx ny vt g.toGrid2D [(iz : Int)]) (Thread.init sl) sched

/-- 4-D `loess` (fill.hpp:622-680): one step of a thread is a value `iu` of the last axis, with all
its layers `iz`. Simplification: the code computes the cells of the layers in another order
(`iz` is the innermost loop); a cell does not depend on the others. -/
def loess4D (sqrt : K → K) (hw : Nat) (sched : List Nat) (g : Grid4D T K) (nx ny : Nat) (vt : ValueType)
    (numThreads : Nat) : Out (Thread.State (List (List (List (Option K)))) Err) := do
  checkWindowsSize nx ny
  let sl ← Thread.slices hw g.u.size.toNat numThreads
  return Thread.run (fun iu => (List.range g.z.size.toNat).mapM fun (iz : Nat) =>
    layer sqrt nx ny vt g.toGrid3D.toGrid2D [(iz : Int), (iu : Int)]) (Thread.init sl) sched

end Pyinterp.Loess
