import Verif.Model.Binning
import Verif.Model.Reduction

/-
Model of the Python methods that share the work with dask:
`Binning2D.push_delayed` and `Binning1D.push_delayed` (src/pyinterp/binning.py),
`Histogram2D.push_delayed` (src/pyinterp/histogram2d.py), and the functions `_delayed` of
src/pyinterp/statistics/descriptive_descriptive.py and
src/pyinterp/statistics/streaming_histogram.py.

Simplifications. `map_blocks` (dask, not part of the repository) calls a function once for
each block of the arrays; the blocks of the arrays agree. `.sum()` (dask) adds the objects
of the blocks, in their order, with some tree of additions: the model takes any tree.
-/
namespace Pyinterp.Delayed

/-- The additions made by `.sum()` (dask; binning.py:198-206, 342-347): a tree whose leaves
are the blocks, from left to right. -/
inductive Sum (B : Type) where
  | block (b : B)
  | add (l r : Sum B)

/-- The blocks, in order. -/
def Sum.blocks {B : Type} : Sum B → List B
  | .block b => [b]
  | .add l r => l.blocks ++ r.blocks

/-- The graph of `push_delayed` (binning.py:191-206): each block makes a new object,
`a + b` is `Bin2D.pyAdd`, which modifies the object of `a`. The result is the address of the
object returned, and the objects afterwards. -/
def runSum {B O : Type} (build : B → Out O) (iadd : O → O → Out O) :
    Sum B → Bin2D.Heap O → Out (Nat × Bin2D.Heap O)
  | .block b, heap => do
    let o ← build b
    .ok (heap.length, heap ++ [o])
  | .add l r, heap => do
    let (a, heap) ← runSum build iadd l heap
    let (b, heap) ← runSum build iadd r heap
    Bin2D.pyAdd iadd heap a b

/-- The graph of `_delayed` (statistics/descriptive_descriptive.py:38-55,
statistics/streaming_histogram.py:38-57): `a + b` is the operator of the C++ object, which
makes a new object (module/descriptive_statistics.cpp:123-133,
module/streaming_histogram.cpp:137-147). -/
def evalSum {B O : Type} (build : B → Out O) (add : O → O → Out O) : Sum B → Out O
  | .block b => build b
  | .add l r => do
    let a ← evalSum build add l
    let b ← evalSum build add r
    add a b

/-- `dtype` (binning.py:54-61): the type of the C++ object. -/
inductive Dtype where
  | float64
  | float32
  deriving DecidableEq

/-- A Python object: its type and the C++ object `_instance` (binning.py:54-61,
237-247, histogram2d.py:69-78). -/
structure Typed (O : Type) where
  dtype : Dtype
  instance' : O

/-- `__add__` after `copy.copy` (binning.py:96-98, 287-289, histogram2d.py:106-109): different
types are refused. -/
def Typed.iadd {O : Type} (iadd : O → O → Out O) (a b : Typed O) : Out (Typed O) :=
  if a.dtype ≠ b.dtype then .error .exn
  else do
    let r ← iadd a.instance' b.instance'
    .ok ⟨a.dtype, r⟩

section
variable {K : Type} [Field K] [LinearOrder K] [FloorRing K]

/-- The strategy of the areas (binning.hpp:83-97): Cartesian without spheroid, otherwise the area
of Boost.Geometry on the spheroid, `geo` (not part of the repository). -/
def strategy (geo : K × K → List (K × K) → K) : Option (K × K) → List (K × K) → K
  | none => Bin2D.ringArea
  | some wgs => geo wgs

/-- `Binning2D.push` (binning.py:101-153, binning.hpp:75-98), for blocks of equal sizes. -/
def push2D (geo : K × K → List (K × K) → K) (tiny eps : K) (b : Bin2D.Binning K) (samples : List (K × K × Option K))
    (simple : Bool) : Out (Bin2D.Binning K) :=
  if simple then b.pushSimple samples
  else do
    let acc ← Bin2D.pushLinear (strategy geo b.wgs) tiny eps b.x b.y b.acc samples
    .ok { b with acc := acc }

/-- `_process_block` of `Binning2D.push_delayed` (binning.py:191-194): the type is not
given, hence `float64`. -/
def block2D (geo : K × K → List (K × K) → K) (tiny eps : K) (x y : Axis K) (wgs : Option (K × K)) (simple : Bool)
    (samples : List (K × K × Option K)) : Out (Typed (Bin2D.Binning K)) := do
  let b ← push2D geo tiny eps (Bin2D.make x y wgs) samples simple
  .ok ⟨.float64, b⟩

/-- `Binning2D.push_delayed` (binning.py:155-206), called on `self`. -/
def pushDelayed2D (geo : K × K → List (K × K) → K) (tiny eps : K) (self : Typed (Bin2D.Binning K)) (simple : Bool)
    (graph : Sum (List (K × K × Option K))) (heap : Bin2D.Heap (Typed (Bin2D.Binning K))) :
    Out (Nat × Bin2D.Heap (Typed (Bin2D.Binning K))) :=
  runSum (block2D geo tiny eps self.instance'.x self.instance'.y self.instance'.wgs simple)
    (Typed.iadd Bin2D.Binning.merge) graph heap

/-- `Binning1D` (binning.hpp:368-382, 459-462): a binning with one row and a range. -/
structure Binning1 (K : Type) where
  bins : Bin2D.Binning K
  lo : K
  hi : K

/-- The Y axis of a `Binning1D`: `Axis(0, 1, 1, 0, false)` (binning.hpp:373-374,
axis.hpp:123-133). -/
def unitAxis : Out (Axis K) := mkAxisRegular false 0 1 1 0 false

/-- Constructor (binning.hpp:371-383); `lo, hi` is the range given, or the smallest and the
largest coordinates of the axis. -/
def make1D (x : Axis K) (range : Option (K × K)) : Out (Binning1 K) := do
  let y ← unitAxis
  match range with
  | some (lo, hi) => .ok ⟨Bin2D.make x y none, lo, hi⟩
  | none => do
    let lo ← x.cont.minValue
    let hi ← x.cont.maxValue
    .ok ⟨Bin2D.make x y none, lo, hi⟩

/-- `Binning1D.push` (binning.py:292-309, binning.hpp:388-418), for arrays of equal sizes. -/
def push1D (b : Binning1 K) (samples : List (K × Option K × K)) : Out (Binning1 K) := do
  let acc ← Bin2D.push1D b.bins.x b.lo b.hi b.bins.acc samples
  .ok { b with bins := { b.bins with acc := acc } }

/-- `operator+=` of `Binning2D`, which `Binning1D` inherits (binning.hpp:213-240): the ranges
are not compared. -/
def merge1D (b o : Binning1 K) : Out (Binning1 K) := do
  let r ← b.bins.merge o.bins
  .ok { b with bins := r }

/-- `_process_block` of `Binning1D.push_delayed` (binning.py:337-340): neither the range nor
the type are given. -/
def block1D (x : Axis K) (samples : List (K × Option K × K)) : Out (Typed (Binning1 K)) := do
  let b ← make1D x none
  let b ← push1D b samples
  .ok ⟨.float64, b⟩

/-- `Binning1D.push_delayed` (binning.py:311-347), called on `self`. -/
def pushDelayed1D (self : Typed (Binning1 K)) (graph : Sum (List (K × Option K × K)))
    (heap : Bin2D.Heap (Typed (Binning1 K))) : Out (Nat × Bin2D.Heap (Typed (Binning1 K))) :=
  runSum (block1D self.instance'.bins.x) (Typed.iadd merge1D) graph heap

/-- Constructor of `Histogram2D` (histogram2d.py:64-78, histogram2d.hpp:33-46): 100 bins by
default in each histogram. -/
def makeHistogram (num : Streaming.Numeric K) (x y : Axis K) (binCounts : Option Nat) :
    Bin2D.Histogram K :=
  ⟨x, y, List.replicate (x.size * y.size).toNat (Streaming.make num (binCounts.getD 100) false)⟩

/-- `_process_block` of `Histogram2D.push_delayed` (histogram2d.py:148-151): the number of
bins is not given. -/
def blockHistogram (num : Streaming.Numeric K) (x y : Axis K) (dtype : Dtype)
    (samples : List (K × K × Option K)) : Out (Typed (Bin2D.Histogram K)) := do
  let h ← (makeHistogram num x y none).push num samples
  .ok ⟨dtype, h⟩

/-- `Histogram2D.push_delayed` (histogram2d.py:125-160), called on `self`. -/
def pushDelayedHistogram (num : Streaming.Numeric K) (self : Typed (Bin2D.Histogram K))
    (graph : Sum (List (K × K × Option K))) (heap : Bin2D.Heap (Typed (Bin2D.Histogram K))) :
    Out (Nat × Bin2D.Heap (Typed (Bin2D.Histogram K))) :=
  runSum (blockHistogram num self.instance'.x self.instance'.y self.dtype)
    (Typed.iadd (Bin2D.Histogram.merge num)) graph heap

end

/-! ### statistics of dask arrays -/

/-- The constructor of the C++ objects (descriptive_statistics.hpp:40-71,
streaming_histogram.hpp:39-76): `axis` is `none` when it is not given, then the shape is
`{1}` and there is one cell. A cell is an accumulator, or the error met when updating it. -/
def construct {σ V : Type} (init : σ) (step : σ → V → Out σ) (shape : List Nat)
    (strides : List Int) (axis : Option (List Int)) (data : List (Option V)) :
    Out (List Nat × List (Out σ)) :=
  match axis with
  | none => .ok ([1], [(data.filterMap id).foldlM step init])
  | some axes => Reduce.reduce (.ok init) (fun a x => a >>= fun a => step a x) shape strides axes data

/-- `operator+=` (descriptive_statistics.hpp:123-131, streaming_histogram.hpp:138-144). -/
def addCells {σ : Type} (merge : σ → σ → Out σ) (a b : List Nat × List (Out σ)) :
    Out (List Nat × List (Out σ)) :=
  if a.1 ≠ b.1 then .error .exn
  else .ok (a.1, List.zipWith (fun a b => a >>= fun a => b >>= fun b => merge a b) a.2 b.2)

/-- `_delayed` (statistics/descriptive_descriptive.py:31-55,
statistics/streaming_histogram.py:28-57) on an array of `rest.length + 1` dimensions:
`drop_axis` makes dask split the first dimension only. A block is its number of rows and its
elements; `strides` gives the strides of the blocks. -/
def delayedStatistics {σ V : Type} (init : σ) (step : σ → V → Out σ) (merge : σ → σ → Out σ)
    (strides : List Nat → List Int) (rest : List Nat) (axis : Option (List Int))
    (graph : Sum (Nat × List (Option V))) : Out (List Nat × List (Out σ)) :=
  evalSum (fun b => construct init step (b.1 :: rest) (strides (b.1 :: rest)) axis b.2)
    (addCells merge) graph

end Pyinterp.Delayed
