import Verif.Model.StreamingHistogram

/-
The arrays of bins returned to Python: `StreamingHistogram::bins` and `Histogram2D::histograms`.
`none` is the NaN of the values of the bins.
-/
namespace Pyinterp.BinArrays

open Streaming

variable {K : Type}

/-- The memory of a `pybind11::array_t<Bin>` (pybind11, not part of the repository; used by
include/pyinterp/streaming_histogram.hpp:156-158): its elements are not initialised (`none`). -/
abbrev Memory (K : Type) := List (Option (Option K × K))

/-- A store at the flat index `i`; outside the array it is undefined (C++, not part of the
repository; used by include/pyinterp/streaming_histogram.hpp:168-173). -/
def store (mem : Memory K) (i : Nat) (b : Option K × K) : Out (Memory K) :=
  if i < mem.length then .ok (mem.set i (some b)) else .error .ub

/-- The largest size of the histograms (include/pyinterp/streaming_histogram.hpp:148-153,
histogram2d.hpp:226-231): `max_size` starts at 0. -/
def maxSize (cells : List (List (Bin K))) : Nat := cells.foldl (fun s c => max s c.length) 0

/-- The loop that copies the bins of a histogram (include/pyinterp/streaming_histogram.hpp:168-170):
`bins` are those that remain and `jx` the index of the first. -/
def copyBins (shift : Nat) : List (Bin K) → Nat → Memory K → Out (Memory K)
  | [], _, mem => .ok mem
  | b :: bins, jx, mem => do
    let mem ← store mem (shift + jx) (some b.value, b.weight)
    copyBins shift bins (jx + 1) mem

/-- The loop that fills the rest of the row (include/pyinterp/streaming_histogram.hpp:171-173):
`left` elements remain and `jx` is the index of the first. -/
def padRow [Zero K] (shift : Nat) : Nat → Nat → Memory K → Out (Memory K)
  | 0, _, mem => .ok mem
  | left + 1, jx, mem => do
    let mem ← store mem (shift + jx) (none, 0)
    padRow shift left (jx + 1) mem

/-- The loop on the histograms (include/pyinterp/streaming_histogram.hpp:162-174): `ix` is the
index of the first of the histograms that remain. -/
def rowsLoop [Zero K] (width : Nat) : List (List (Bin K)) → Nat → Memory K → Out (Memory K)
  | [], _, mem => .ok mem
  | bins :: cells, ix, mem => do
    let shift := ix * width
    let mem ← copyBins shift bins 0 mem
    let mem ← padRow shift (width - bins.length) bins.length mem
    rowsLoop width cells (ix + 1) mem

/-- `StreamingHistogram::bins` (include/pyinterp/streaming_histogram.hpp:147-177): the shape and
the elements of the array, for the shape `shape` of the instance and its histograms `cells`. -/
def bins [Zero K] (shape : List Nat) (cells : List (List (Bin K))) : Out (List Nat × Memory K) := do
  let width := maxSize cells
  let result := List.replicate (shape.prod * width) none
  let mem ← rowsLoop width cells 0 result
  .ok (shape ++ [width], mem)

/-- The element `(ix, iy, iz)` of an array of shape `(nx, ny, nz)`, by `mutable_unchecked`, which
does not check the indexes: the address is computed with the strides (pybind11; histogram2d.hpp:236,
245, 248). -/
def flat (ny nz ix iy iz : Nat) : Nat := (ix * ny + iy) * nz + iz

/-- The first loop on the bins of a cell (histogram2d.hpp:244-246). -/
def copyBins3 (ny nz ix iy : Nat) : List (Bin K) → Nat → Memory K → Out (Memory K)
  | [], _, mem => .ok mem
  | b :: bins, iz, mem => do
    let mem ← store mem (flat ny nz ix iy iz) (some b.value, b.weight)
    copyBins3 ny nz ix iy bins (iz + 1) mem

/-- The second loop on the bins of a cell (histogram2d.hpp:247-250). -/
def padRow3 [Zero K] (ny nz ix iy : Nat) : Nat → Nat → Memory K → Out (Memory K)
  | 0, _, mem => .ok mem
  | left + 1, iz, mem => do
    let mem ← store mem (flat ny nz ix iy iz) (none, 0)
    padRow3 ny nz ix iy left (iz + 1) mem

/-- The loop on `iy` (histogram2d.hpp:241-251): `left` columns remain from `iy`. -/
def columns3 [Zero K] (cell : Nat → Nat → List (Bin K)) (ny nz ix : Nat) :
    Nat → Nat → Memory K → Out (Memory K)
  | 0, _, mem => .ok mem
  | left + 1, iy, mem => do
    let mem ← copyBins3 ny nz ix iy (cell ix iy) 0 mem
    let mem ← padRow3 ny nz ix iy (nz - (cell ix iy).length) (cell ix iy).length mem
    columns3 cell ny nz ix left (iy + 1) mem

/-- The loop on `ix` (histogram2d.hpp:240-252): `left` rows remain from `ix`. -/
def rows3 [Zero K] (cell : Nat → Nat → List (Bin K)) (ny nz : Nat) :
    Nat → Nat → Memory K → Out (Memory K)
  | 0, _, mem => .ok mem
  | left + 1, ix, mem => do
    let mem ← columns3 cell ny nz ix ny 0 mem
    rows3 cell ny nz left (ix + 1) mem

/-- `Histogram2D::histograms` (histogram2d.hpp:225-255) for a grid of `nx × ny` cells. -/
def histograms [Zero K] (nx ny : Nat) (cell : Nat → Nat → List (Bin K)) :
    Out (List Nat × Memory K) := do
  let nz := maxSize ((List.range nx).flatMap fun ix => (List.range ny).map fun iy => cell ix iy)
  let result := List.replicate (nx * ny * nz) none
  let mem ← rows3 cell ny nz nx 0 result
  .ok ([nx, ny, nz], mem)

end Pyinterp.BinArrays
