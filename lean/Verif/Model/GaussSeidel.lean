import Mathlib.Algebra.Order.Field.Basic
import Verif.Model.Base
import Verif.Model.Thread

/-
Model of `fill::gauss_seidel`, `detail::gauss_seidel` and `detail::set_zonal_average`
(src/pyinterp/core/include/pyinterp/fill.hpp:28-199, 276-342). `Type` is an ordered field,
`none` is NaN.

The threads: a worker makes a sequence of elementary operations (the update of a cell, the
filling of a column). An execution is any interleaving of these sequences; it is chosen by a
schedule (the list of the threads that make the next operation), and the operations that remain
at the end of the schedule are done thread by thread, so that every schedule gives a complete
execution and every complete execution is given by a schedule. An operation is atomic here (the
theorem `C50_race_free` shows that the operations of two threads never touch the same value).
-/
namespace Pyinterp.GaussSeidel

variable {K : Type} [Field K] [LinearOrder K]

/-- The execution chosen by a schedule: the operations with the thread that makes them
(fill.hpp:183-192: creation of the threads and `join`). -/
def interleave {α : Type} : List (List α) → List Nat → List (Nat × α)
  | p, [] => (p.mapIdx fun k l => l.map fun a => (k, a)).flatten
  | p, k :: s =>
    match p[k]? with
    | some (a :: rest) => (k, a) :: interleave (p.set k rest) s
    | _ => interleave p s

/-- The values of the grid: `grid(ix, iy)`. -/
abbrev Val (K : Type) := Nat → Nat → Option K

/-- `grid(ix, iy)` with an index that may be outside of the grid. -/
def rd2 (rows cols : Nat) (g : Val K) (ix iy : Int) : Out (Option K) :=
  if 0 ≤ ix ∧ ix < rows ∧ 0 ≤ iy ∧ iy < cols then .ok (g ix.toNat iy.toNat) else .error .ub

/-- `grid(ix, iy) = v` -/
def put (g : Val K) (ix iy : Nat) (v : Option K) : Val K :=
  fun i j => if i = ix ∧ j = iy then v else g i j

/-- `ix0` and `ix1` (fill.hpp:136-137). -/
def xNeighbours (circle : Bool) (rows ix : Nat) : Int × Int :=
  (if ix = 0 then (if circle then (rows : Int) - 1 else 1) else (ix : Int) - 1,
   if (ix : Int) = (rows : Int) - 1 then (if circle then 0 else (rows : Int) - 2) else (ix : Int) + 1)

/-- `iy0` and `iy1` (fill.hpp:141-142). -/
def yNeighbours (cols iy : Nat) : Int × Int :=
  (if iy = 0 then 1 else (iy : Int) - 1,
   if (iy : Int) = (cols : Int) - 1 then (cols : Int) - 2 else (iy : Int) + 1)

/-- `residual` of `cell_fill` (fill.hpp:122-125); NaN when one of the five values is. -/
def residual (relaxation : K) (w e s n cell : Option K) : Option K := do
  let w ← w
  let e ← e
  let s ← s
  let n ← n
  let c ← cell
  some ((1 / 4 * (w + e + s + n) - c) * relaxation)

/-- `cell_fill` (fill.hpp:117-128): the new grid and the residual. -/
def cellFill (rows cols : Nat) (circle : Bool) (relaxation : K) (g : Val K) (c : Nat × Nat) :
    Out (Val K × Option K) := do
  let x := xNeighbours circle rows c.1
  let y := yNeighbours cols c.2
  let cell ← rd2 rows cols g c.1 c.2
  let w ← rd2 rows cols g x.1 c.2
  let e ← rd2 rows cols g x.2 c.2
  let s ← rd2 rows cols g c.1 y.1
  let n ← rd2 rows cols g c.1 y.2
  let r := residual relaxation w e s n cell
  .ok (put g c.1 c.2 (do some ((← cell) + (← r))), r)

/-- `std::max(*max_residual, std::fabs(residual))` (fill.hpp:127): the comparison with NaN is
false. -/
def maxRes (m : K) (r : Option K) : K :=
  match r with
  | some r => if m < |r| then |r| else m
  | none => m

/-- The cells that a worker updates, in its order (fill.hpp:135-147). -/
def cells (rows : Nat) (mask : Nat → Nat → Bool) (redBlack : Nat) (s : Nat × Nat) :
    List (Nat × Nat) :=
  (List.range rows).flatMap fun ix =>
    ((List.range' s.1 (s.2 - s.1)).filter fun iy =>
      mask ix iy && decide ((ix + iy) % 2 = redBlack)).map fun iy => (ix, iy)

/-- One operation of the thread `op.1` on the grid and on the residuals of the threads. -/
def apply (rows cols : Nat) (circle : Bool) (relaxation : K) (s : Val K × List K)
    (op : Nat × (Nat × Nat)) : Out (Val K × List K) := do
  let r ← cellFill rows cols circle relaxation s.1 op.2
  .ok (r.1, s.2.modify op.1 fun m => maxRes m r.2)

/-- `calculate(red_black)` (fill.hpp:158-165 and 173-197); the bands of the threads are those of
`Thread.slices` (177-192). The last one of several equal maxima has the same value, so
`std::max_element` is the maximum. -/
def calculate (rows cols : Nat) (circle : Bool) (relaxation : K) (mask : Nat → Nat → Bool)
    (numThreads : Nat) (schedule : List Nat) (redBlack : Nat) (g : Val K) : Out (Val K × K) := do
  let sl ← Thread.slices 0 cols numThreads
  let ops := interleave (sl.map (cells rows mask redBlack)) schedule
  let s ← ops.foldlM (apply rows cols circle relaxation) (g, List.replicate sl.length 0)
  .ok (s.1, s.2.foldl max 0)

/-- `detail::gauss_seidel` (fill.hpp:89-199). The order of evaluation of the two arguments of
`std::max(calculate(0), calculate(1))` (163, 206) is not specified by C++: `first` is the colour
evaluated first. `sched` gives the schedule of each of the two passes. -/
def iterate (rows cols : Nat) (circle : Bool) (relaxation : K) (mask : Nat → Nat → Bool)
    (numThreads : Nat) (first : Nat) (sched : Nat → List Nat) (g : Val K) : Out (Val K × K) := do
  let a ← calculate rows cols circle relaxation mask numThreads (sched 0) first g
  let b ← calculate rows cols circle relaxation mask numThreads (sched 1) (1 - first) a.1
  .ok (b.1, max a.2 b.2)

/-- The defined values of the column `iy`, in the order of the loop (fill.hpp:54-58). -/
def columnValues (rows : Nat) (mask : Nat → Nat → Bool) (g : Val K) (iy : Nat) : List K :=
  (List.range rows).filterMap fun ix => if mask ix iy then none else g ix iy

/-- `first_guess` (fill.hpp:62-64). The accumulator of Boost computes the mean incrementally; its
value is the sum divided by the number of values in exact arithmetic. -/
def firstGuess (rows : Nat) (mask : Nat → Nat → Bool) (g : Val K) (iy : Nat) : K :=
  let l := columnValues rows mask g iy
  if l.length = 0 then 0 else l.sum / (l.length : K)

/-- The body of the loop over `iy` (fill.hpp:50-69). -/
def zonalColumn (rows : Nat) (mask : Nat → Nat → Bool) (g : Val K) (iy : Nat) : Val K :=
  fun i j => if j = iy ∧ i < rows ∧ mask i j = true then some (firstGuess rows mask g iy) else g i j

/-- `set_zonal_average` (fill.hpp:37-80): the columns are shared out by `dispatch`. -/
def setZonalAverage (rows cols : Nat) (mask : Nat → Nat → Bool) (numThreads : Nat)
    (schedule : List Nat) (g : Val K) : Out (Val K) := do
  let sl ← Thread.slices 0 cols numThreads
  let ops := interleave (sl.map fun s => List.range' s.1 (s.2 - s.1)) schedule
  .ok (ops.foldl (fun g op => zonalColumn rows mask g op.2) g)

/-- `FirstGuess` (fill.hpp:276-280). -/
inductive Guess where
  | zero | zonalAverage
  deriving DecidableEq, Repr

/-- The loop (fill.hpp:333-340): `n` iterations remain, `it` have been done. -/
def relaxLoop (rows cols : Nat) (circle : Bool) (relaxation epsilon : K) (mask : Nat → Nat → Bool)
    (numThreads first : Nat) (sched : Nat → Nat → List Nat) :
    Nat → Nat → Val K → K → Out (Val K × Nat × K)
  | 0, it, g, res => .ok (g, it, res)
  | n + 1, it, g, _ => do
    let r ← iterate rows cols circle relaxation mask numThreads first (sched it) g
    if r.2 < epsilon then .ok (r.1, it + 1, r.2)
    else relaxLoop rows cols circle relaxation epsilon mask numThreads first sched n (it + 1) r.1 r.2

/-- The mask: the positions of NaN (fill.hpp:314). -/
def undefinedMask (g : Val K) : Nat → Nat → Bool := fun i j => (g i j).isNone

/-- `grid.hasNaN()` (fill.hpp:304). -/
def hasNaN (rows cols : Nat) (g : Val K) : Bool :=
  (List.range rows).any fun i => (List.range cols).any fun j => (g i j).isNone

/-- `fill::gauss_seidel` (fill.hpp:296-342). `hw` is `std::thread::hardware_concurrency()`; the
schedules of the passes are `zsched` and `sched`. -/
def gaussSeidel (hw : Nat) (zsched : List Nat) (sched : Nat → Nat → List Nat) (first : Nat)
    (rows cols : Nat) (g : Val K) (guess : Guess) (circle : Bool) (maxIterations : Nat)
    (epsilon relaxation : K) (numThreads : Nat) : Out (Val K × Nat × K) := do
  if hasNaN rows cols g = false then .ok (g, 0, 0)
  else
    let n := if numThreads = 0 then hw else numThreads
    let mask := undefinedMask g
    let g0 ← match guess with
      | .zero => (.ok (fun i j => if mask i j then some 0 else g i j) : Out (Val K))
      | .zonalAverage => setZonalAverage rows cols mask n zsched g
    relaxLoop rows cols circle relaxation epsilon mask n first sched maxIterations 0 g0 0

end Pyinterp.GaussSeidel
