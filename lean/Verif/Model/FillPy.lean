import Verif.Model.GaussSeidel
import Verif.Model.FillLine

/-
Model of the Python functions `gauss_seidel`, `matrix` and `vector` of src/pyinterp/fill.py:56-205.

`gauss_seidel` of a grid of 3 dimensions runs one task for each layer in a pool of threads
(fill.py:127-139); the C++ function releases the GIL (module/fill.cpp:79), so the tasks work at
the same time on the same array. A task is a sequence of steps: the first guess, then the
iterations of the relaxation, each of which is a step here; `sched` is the list of the tasks that
make the next step, and the tasks that are not finished at the end of `sched` are then completed one after
the other, so that every `sched` gives a complete execution. Simplification: the two passes of an
iteration are one step.
-/
namespace Pyinterp.FillPy
open Pyinterp Pyinterp.GaussSeidel

variable {K : Type} [Field K] [LinearOrder K]

/-- The values of a grid of 3 dimensions: `array[ix, iy, iz]`. -/
abbrev Val3 (K : Type) := Nat → Nat → Nat → Option K

/-- The arguments of the C++ function that all the tasks share (fill.py:131-134). -/
structure Cfg (K : Type) where
  rows : Nat
  cols : Nat
  circle : Bool
  guess : Guess
  maxIterations : Nat
  epsilon : K
  relaxation : K
  /-- The colour evaluated first in `std::max(calculate(0), calculate(1))` (fill.hpp:163). -/
  first : Nat
  /-- The schedules of the threads inside a call (irrelevant with one thread). -/
  zsched : Nat → List Nat
  isched : Nat → Nat → Nat → List Nat

/-- The local state of a task: not started, `k` iterations remain, finished. -/
inductive Task (K : Type) where
  | pending
  | running (mask : Nat → Nat → Bool) (k it : Nat) (res : K)
  | done (it : Nat) (res : K)

/-- A step of the task `iz` on its layer: `fill::gauss_seidel` with `num_threads = 1` (fill.hpp:296-342),
step by step. -/
def stepLocal (c : Cfg K) (iz : Nat) (s : Task K × Val K) : Out (Task K × Val K) :=
  match s.1 with
  | .pending =>
    if hasNaN c.rows c.cols s.2 = false then .ok (.done 0 0, s.2)
    else do
      let mask := undefinedMask s.2
      let g0 ← match c.guess with
        | .zero => (.ok (fun i j => if mask i j then some 0 else s.2 i j) : Out (Val K))
        | .zonalAverage => setZonalAverage c.rows c.cols mask 1 (c.zsched iz) s.2
      .ok (.running mask c.maxIterations 0 0, g0)
  | .running _ 0 it res => .ok (.done it res, s.2)
  | .running mask (k + 1) it _ => do
    let r ← iterate c.rows c.cols c.circle c.relaxation mask 1 c.first (c.isched iz it) s.2
    if r.2 < c.epsilon then .ok (.done (it + 1) r.2, r.1)
    else .ok (.running mask k (it + 1) r.2, r.1)
  | .done it res => .ok (.done it res, s.2)

/-- The tasks and the array `filled` that they share. -/
structure Pool (K : Type) where
  tasks : Nat → Task K
  filled : Val3 K

/-- A step of the task `iz` on the shared array (fill.py:131: it works on `filled[:, :, iz]`, a view). -/
def step (c : Cfg K) (p : Pool K) (iz : Nat) : Out (Pool K) := do
  let r ← stepLocal c iz (p.tasks iz, fun i j => p.filled i j iz)
  .ok { tasks := fun k => if k = iz then r.1 else p.tasks k
        filled := fun i j k => if k = iz then r.2 i j else p.filled i j k }

/-- The steps of the execution: those of the schedule, then what remains of each task. -/
def steps (c : Cfg K) (nz : Nat) (sched : List Nat) : List Nat :=
  sched ++ (List.range nz).flatMap fun iz => List.replicate (c.maxIterations + 2) iz

/-- `future.result()[1]` (fill.py:137): the residual of a task. -/
def residualOf : Task K → K
  | .done _ res => res
  | _ => 0

/-- `max(residuals)` of Python (fill.py:139). -/
def pyMax : List K → Out K
  | [] => .error .exn
  | a :: l => .ok (l.foldl (fun m v => if m < v then v else m) a)

/-- The names of `first_guess` (fill.py:97-98, 115-117, module/enum.cpp:47-52). -/
def guessOf (s : String) : Out Guess :=
  if s = "zero" then .ok .zero else if s = "zonal_average" then .ok .zonalAverage else .error .exn

/-- The default relaxation constant (fill.py:104-109); `sqrt` and `pi` are those of numpy. -/
def defaultRelaxation (sqrt : K → K) (pi : K) (nx ny : Nat) : K :=
  let n : K := if nx = ny then (nx : K)
    else (nx : K) * (ny : K) * sqrt (2 / ((nx : K) ^ 2 + (ny : K) ^ 2))
  2 / (1 + pi / n)

/-- A parameter `size_t` of the C++ function: pybind11 refuses a negative integer. -/
def sizeT (v : Int) : Out Nat := if v < 0 then .error .exn else .ok v.toNat

/-- The environment of a call: the number of processors, the order of the evaluation of the two
colours and the schedules. -/
structure Env where
  hw : Nat
  first : Nat
  zsched : Nat → List Nat
  isched : Nat → Nat → Nat → List Nat
  /-- Schedule of the tasks. -/
  sched : List Nat
  /-- The order in which `as_completed` gives the tasks (fill.py:136). -/
  order : List Nat

/-- The arguments of `gauss_seidel` (fill.py:56-61). -/
structure Args (K : Type) where
  firstGuess : String
  maxIteration : Option Int
  epsilon : K
  relaxation : Option K
  numThreads : Int

/-- `gauss_seidel` of a grid of 2 dimensions (fill.py:56-127, 140): `nx`, `ny` are the sizes of the axes. The
array of the grid is copied (123), so the grid itself is not modified. -/
def gaussSeidel2D (env : Env) (sqrt : K → K) (pi : K) (nx ny : Nat) (circle : Bool) (array : Val K)
    (a : Args K) : Out (Bool × Val K) := do
  let guess ← guessOf a.firstGuess
  let relaxation := a.relaxation.getD (defaultRelaxation sqrt pi nx ny)
  let maxIterations ← sizeT (a.maxIteration.getD ((nx * ny : Nat) : Int))
  let n ← sizeT a.numThreads
  let r ← gaussSeidel env.hw (env.zsched 0) (env.isched 0) env.first nx ny array guess circle maxIterations
    a.epsilon relaxation n
  .ok (decide (r.2.2 ≤ a.epsilon), r.1)

/-- `gauss_seidel` of a grid of 3 dimensions (fill.py:56-121, 128-140); `nz` is not 0. -/
def gaussSeidel3D (env : Env) (sqrt : K → K) (pi : K) (nx ny nz : Nat) (circle : Bool) (array : Val3 K)
    (a : Args K) : Out (Bool × Val3 K) := do
  let guess ← guessOf a.firstGuess
  let relaxation := a.relaxation.getD (defaultRelaxation sqrt pi nx ny)
  let maxIterations ← sizeT (a.maxIteration.getD ((nx * ny : Nat) : Int))
  let _ ← sizeT a.numThreads
  let c : Cfg K := { rows := nx, cols := ny, circle := circle, guess := guess, maxIterations := maxIterations,
                     epsilon := a.epsilon, relaxation := relaxation, first := env.first,
                     zsched := env.zsched, isched := env.isched }
  let p ← (steps c nz env.sched).foldlM (step c) { tasks := fun _ => .pending, filled := array }
  let residual ← pyMax (env.order.map fun iz => residualOf (p.tasks iz))
  .ok (decide (residual ≤ a.epsilon), p.filled)

/-! ### `matrix` and `vector` -/

/-- The types of the elements that the functions distinguish (fill.py:167, 193-202). -/
inductive DType where
  | float32 | float64 | int64 | datetime64 | timedelta64 | other
  deriving DecidableEq, Repr

/-- `fill_value`: a number of Python, or a scalar `numpy.datetime64` / `numpy.timedelta64` given by its count. -/
inductive FillArg (K : Type) where
  | flt (v : Option K)
  | int (n : Int)
  | time (n : Int)

/-- The default of `fill_value`: `numpy.nan` (fill.py:149, 174). -/
def defaultFill : FillArg K := .flt none

/-- A numpy array of 1 dimension: floating point numbers (`none` is NaN), or integers (the counts of the dates). -/
inductive Data (K : Type) where
  | flt (x : Nat → Option K)
  | int (x : Nat → Int)

structure Vec (K : Type) where
  dtype : DType
  ndim : Nat
  size : Nat
  /-- The elements follow one another in memory. -/
  contiguous : Bool
  data : Data K

/-- What a call leaves: the array of the caller and the result (an exception, or the array returned). -/
structure Call (α : Type) where
  caller : α
  result : Out α

/-- The conversion of `fill_value` to a floating point number by pybind11. -/
def asFloat : FillArg K → Out (Option K)
  | .flt v => .ok v
  | .int n => .ok (some (n : K))
  | .time _ => .error .exn

/-- The conversion of `fill_value` to `int64_t` by pybind11: a `float` is refused. `none`: the value that
`Fill<int64_t>::is` (detail/math.hpp:317-330) recognises. -/
def asInt64 : FillArg K → Out (Option Int)
  | .int n => if n < -(2 ^ 63) ∨ 2 ^ 63 ≤ n then .error .exn else .ok (if n = 2 ^ 63 - 1 then none else some n)
  | _ => .error .exn

/-- `fill_value.view(numpy.int64)` (fill.py:199): the numbers of Python have no attribute `view`. -/
def viewInt64 : FillArg K → Out (FillArg K)
  | .time n => .ok (.int n)
  | _ => .error .exn

variable [AxisNum K]

/-- `core.fill.vector_float32/64` (module/fill.cpp:93-104): the parameter `Eigen::Ref<Vector<T>>`
(fill.hpp:714) refuses elements that do not follow one another. -/
def coreVectorFloat (size : Nat) (contiguous : Bool) (x : Nat → Option K) (fill : FillArg K) :
    Out (Nat → Option K) := do
  if contiguous = false then .error .exn
  else
    let v ← asFloat fill
    .ok (FillLine.vector size x v)

/-- `core.fill.vector_int64` (module/fill.cpp:155-164). -/
def coreVectorInt (size : Nat) (contiguous : Bool) (x : Nat → Int) (fill : FillArg K) : Out (Nat → Int) := do
  if contiguous = false then .error .exn
  else
    let v ← asInt64 fill
    .ok (fun i => (FillLine.vector size (fun j => some (x j)) v i).getD 0)

/-- The core function of the branch selected by the type of the elements (fill.py:193-202). -/
def vectorCore (dtype : DType) (size : Nat) (contiguous : Bool) (data : Data K) (fill : FillArg K) :
    Out (Data K) :=
  match dtype, data with
  | .float32, .flt x => do .ok (.flt (← coreVectorFloat size contiguous x fill))
  | .float64, .flt x => do .ok (.flt (← coreVectorFloat size contiguous x fill))
  | .int64, .int x => do .ok (.int (← coreVectorInt size contiguous x fill))
  | .datetime64, .int x => do .ok (.int (← coreVectorInt size contiguous x (← viewInt64 fill)))
  | .timedelta64, .int x => do .ok (.int (← coreVectorInt size contiguous x (← viewInt64 fill)))
  | _, _ => .error .exn

/-- `vector` (fill.py:173-205). `numpy.copy` of an array of one dimension is contiguous. -/
def vector (x : Vec K) (fill : FillArg K) (inPlace : Bool) : Call (Data K) :=
  if x.ndim ≠ 1 then { caller := x.data, result := .error .exn }
  else
    match vectorCore x.dtype x.size (if inPlace then x.contiguous else true) x.data fill with
    | .error e => { caller := x.data, result := .error e }
    | .ok d => { caller := if inPlace then d else x.data, result := .ok d }

/-- A numpy array of 2 dimensions. -/
structure Mat (K : Type) where
  dtype : DType
  ndim : Nat
  rows : Nat
  cols : Nat
  data : Nat → Nat → Option K

/-- `core.fill.matrix_float32` or `matrix_float64` (module/fill.cpp:80-91): pybind11 refuses an array whose elements
have another type than `t`, because the function must modify the array itself. -/
def coreMatrix (t dtype : DType) (rows cols : Nat) (x : Nat → Nat → Option K) (fill : FillArg K) :
    Out (Nat → Nat → Option K) := do
  if dtype ≠ t then .error .exn
  else
    let v ← asFloat fill
    .ok (FillLine.matrix rows cols x v)

/-- `matrix` (fill.py:148-170): there is no `else` between the two calls (167-169). -/
def matrix (x : Mat K) (fill : FillArg K) (inPlace : Bool) : Call (Nat → Nat → Option K) :=
  if x.ndim ≠ 2 then { caller := x.data, result := .error .exn }
  else
    let first : Out (Nat → Nat → Option K) :=
      if x.dtype = .float32 then coreMatrix .float32 x.dtype x.rows x.cols x.data fill else .ok x.data
    match first with
    | .error e => { caller := x.data, result := .error e }
    | .ok d =>
      match coreMatrix .float64 x.dtype x.rows x.cols d fill with
      | .error e => { caller := if inPlace then d else x.data, result := .error e }
      | .ok d => { caller := if inPlace then d else x.data, result := .ok d }

end Pyinterp.FillPy
