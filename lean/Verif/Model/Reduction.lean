import Verif.Model.Base
import Verif.Model.Statistics

/-
Model of the reduction of an array along some of its axes:
src/pyinterp/core/include/pyinterp/detail/numpy.hpp and the loops of
pyinterp/descriptive_statistics.hpp and pyinterp/streaming_histogram.hpp.
Shapes are lists of dimensions, strides are counted in elements. The `int` loop
counter is not bounded.
-/
namespace Pyinterp.Reduce

/-- `check_axis_bounds` (detail/numpy.hpp:17-34): with an empty list,
`std::minmax_element` returns `end()`, whose dereference is undefined. -/
def checkAxisBounds (ndim : Nat) (axes : List Int) : Out Unit :=
  match axes with
  | [] => .error .ub
  | a :: l =>
    let mn := l.foldl min a
    let mx := l.foldl max a
    if mn < 0 then .error .exn
    else if mx > (ndim : Int) - 1 then .error .exn
    else .ok ()

/-- `unravel` (detail/numpy.hpp:38-45); the integer division by a null stride is
undefined. -/
def unravel (index : Int) : List Int → Out (List Int)
  | [] => .ok []
  | s :: strides =>
    if s = 0 then .error .ub
    else do
      let i := Int.tdiv index s
      let rest ← unravel (index - i * s) strides
      .ok (i :: rest)

/-- `adjusted_dims` without its last element (detail/numpy.hpp:69-80), from the
dimension `ix`. -/
def adjustedDims (axes : List Int) (ix : Nat) : List Nat → List Int
  | [] => []
  | d :: shape => (if (ix : Int) ∈ axes then -1 else (d : Int)) :: adjustedDims axes (ix + 1) shape

/-- `reduced_shape` (detail/numpy.hpp:69-80), from the dimension `ix`. -/
def reducedShape (axes : List Int) (ix : Nat) : List Nat → List Nat
  | [] => []
  | d :: shape =>
    if (ix : Int) ∈ axes then reducedShape axes (ix + 1) shape
    else d :: reducedShape axes (ix + 1) shape

/-- `adjusted_strides` (detail/numpy.hpp:82-92), given `adjusted_dims` without its last
element, which is 1. -/
def adjustedStrides : List Int → List Int
  | [] => []
  | d :: dims =>
    (if d = -1 then 0 else ((dims.prod * 1).natAbs : Int)) :: adjustedStrides dims

/-- `(indexes.array() * adjusted_strides.array()).sum()`
(descriptive_statistics.hpp:227, streaming_histogram.hpp:273). -/
def dot (indexes strides : List Int) : Int := (List.zipWith (· * ·) indexes strides).sum

/-- Update of `result[jx]`; undefined when `jx` is outside the vector. -/
def update {σ : Type} (arr : List σ) (jx : Int) (f : σ → σ) : Out (List σ) :=
  if jx < 0 then .error .ub
  else match arr[jx.toNat]? with
    | none => .error .ub
    | some s => .ok (arr.set jx.toNat (f s))

/-- The loop of `push` on a reduced array (descriptive_statistics.hpp:210-233,
streaming_histogram.hpp:259-278), from the flat index `ix`: a sample is skipped when its
value is NaN (`none`); `V` holds the value and its weight. -/
def pushLoop {σ V : Type} (step : σ → V → σ) (strides adjusted : List Int) (ix : Nat)
    (arr : List σ) : List (Option V) → Out (List σ)
  | [] => .ok arr
  | none :: data => pushLoop step strides adjusted (ix + 1) arr data
  | some v :: data => do
    let indexes ← unravel ix strides
    let arr' ← update arr (dot indexes adjusted) (fun s => step s v)
    pushLoop step strides adjusted (ix + 1) arr' data

/-- The constructor with axes (descriptive_statistics.hpp:40-71,
streaming_histogram.hpp:39-76): shape of the result and its cells. -/
def reduce {σ V : Type} (init : σ) (step : σ → V → σ) (shape : List Nat) (strides : List Int)
    (axes : List Int) (data : List (Option V)) : Out (List Nat × List σ) := do
  checkAxisBounds shape.length axes
  let rs := reducedShape axes 0 shape
  let cells ← pushLoop step strides (adjustedStrides (adjustedDims axes 0 shape)) 0
    (List.replicate rs.prod init) data
  .ok (rs, cells)

/-- The descriptive statistics along axes: a cell is an accumulator, or the error met
when updating it. Samples are pairs (value, weight). -/
def statistics {K : Type} [Field K] [LinearOrder K] (shape : List Nat) (strides : List Int)
    (axes : List Int) (data : List (Option (K × K))) : Out (List Nat × List (Out (Stats.Acc K))) :=
  reduce (.ok Stats.empty) (fun a x => a >>= fun a => Stats.pushW a x.1 x.2) shape strides axes data

end Pyinterp.Reduce
