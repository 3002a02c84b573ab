import Verif.Model.Bicubic
import Verif.Model.Thread

/-
Model of src/pyinterp/core/include/pyinterp/frame.hpp, detail/math/frame.hpp,
src/pyinterp/core/module/bicubic.cpp and src/pyinterp/interpolator/bicubic.py (`pyinterp.bicubic`).
-/
namespace Pyinterp.Interp
open Variate

section
variable {K : Type} [Field K] [LinearOrder K] [FloorRing K]
variable {T : Type} [LinearOrder T] [AddCommGroup T] [AxisNum T] [ZNum T K]

/-- `parse_axis_boundary` (module/bicubic.cpp:22-37). -/
def boundaryOf (s : String) : Out Boundary :=
  if s = "expand" then .ok .expand
  else if s = "wrap" then .ok .wrap
  else if s = "sym" then .ok .sym
  else if s = "undef" then .ok .undef
  else .error .exn

/-- A coordinate of `frame.x` (frame.hpp:54-56, 108-110, 163-165). -/
def frameX (a : Axis K) (x0 : K) (i : Int) : Out K := do
  let v ← a.cont.coord i
  .ok (if a.isAngle then Math.normalizeAngleF v x0 360 else v)

/-- The coordinates of the frame (frame.hpp:45-56, 94-110, 145-165). The vectors of the frame have
as many elements as the windows of indexes, which are not empty here. -/
def frameXY (g : Grid2D K) (xi yi : List Int) : Out (List K × List K) := do
  let x0 ← g.x.cont.coord (xi.getD 0 0)
  let ys ← yi.mapM g.y.cont.coord
  let xs ← xi.mapM (frameX g.x x0)
  .ok (xs, ys)

/-- One matrix of `frame.q` (frame.hpp:58-60, 112-119, 167-178); `rest` are the indexes of the
other dimensions. -/
def frameQ (arr : Arr K) (xi yi rest : List Int) : Out (List (List (Option K))) :=
  xi.mapM fun i => yi.mapM fun j => arr.value (i :: j :: rest)

/-- `is_valid()` for one matrix (detail/math/frame.hpp:187, 282-289): without NaN it is a matrix of
numbers. -/
def frameMat (xi yi : List Int) (q : List (List (Option K))) : Option (Mat K) :=
  if q.all fun r => r.all Option.isSome then
    some ⟨xi.length, yi.length, fun i j => ((q.getD i []).getD j none).getD 0⟩
  else none

/-- The abscissa given to the interpolator: `frame.normalize_angle(xi)`
(detail/math/frame.hpp:105-107, module/bicubic.cpp:79, 134, 203). -/
def frameQuery (a : Axis K) (xs : List K) (x : K) : K :=
  if a.isAngle then Math.normalizeAngleF x (xs.getD 0 0) 360 else x

/-- The body of the loop of `bicubic` (module/bicubic.cpp:69-82) with `load_frame`
(frame.hpp:26-62). The half sizes are not negative. `none` is NaN. -/
def bicubicPoint (same : Nat → Nat → Bool) (nx ny : Nat) (b : Boundary) (boundsError : Bool)
    (g : Grid2D K) (junk : Nat → K) (o : Obj2D K) (p : K × K) : Out (Option K × Obj2D K) := do
  let yi ← g.y.findIndexesWindow p.2 ny b
  let xi ← g.x.findIndexesWindow p.1 nx b
  if xi = [] ∨ yi = [] then
    if boundsError then .error .exn else .ok (none, o)
  else do
    let f ← frameXY g xi yi
    let q ← frameQ g.arr xi yi []
    match frameMat xi yi q with
    | none => .ok (none, o)
    | some za => o.call same junk f.1 f.2 za (frameQuery g.x f.1 p.1) p.2

/-- The body of the loop of `bicubic_3d` (module/bicubic.cpp:127-143) with `load_frame`
(frame.hpp:65-122). A NaN result of the interpolator stays NaN through `linear`. -/
def bicubicPoint3 (same : Nat → Nat → Bool) (nx ny : Nat) (b : Boundary) (boundsError : Bool)
    (g : Grid3D T K) (junk : Nat → K) (o : Obj2D K) (p : K × K × T) : Out (Option K × Obj2D K) := do
  let zi ← g.z.findIndexesWindow p.2.2 1 b
  let yi ← g.y.findIndexesWindow p.2.1 ny b
  let xi ← g.x.findIndexesWindow p.1 nx b
  if xi = [] ∨ yi = [] ∨ zi = [] then
    if boundsError then .error .exn else .ok (none, o)
  else do
    let f ← frameXY g.toGrid2D xi yi
    let z0 ← g.z.cont.coord (zi.getD 0 0)
    let z1 ← g.z.cont.coord (zi.getD 1 0)
    let q0 ← frameQ g.arr xi yi [zi.getD 0 0]
    let q1 ← frameQ g.arr xi yi [zi.getD 1 0]
    match frameMat xi yi q0, frameMat xi yi q1 with
    | some m0, some m1 =>
      let x := frameQuery g.x f.1 p.1
      let r0 ← o.call same junk f.1 f.2 m0 x p.2.1
      let r1 ← r0.2.call same junk f.1 f.2 m1 x p.2.1
      .ok (zLinear p.2.2 z0 z1 r0.1 r1.1, r1.2)
    | _, _ => .ok (none, o)

/-- The body of the loop of `bicubic_4d` (module/bicubic.cpp:194-220) with `load_frame`
(frame.hpp:125-181). -/
def bicubicPoint4 (same : Nat → Nat → Bool) (nx ny : Nat) (b : Boundary) (boundsError : Bool)
    (g : Grid4D T K) (junk : Nat → K) (o : Obj2D K) (p : K × K × T × K) :
    Out (Option K × Obj2D K) := do
  let ui ← g.u.findIndexesWindow p.2.2.2 1 b
  let zi ← g.z.findIndexesWindow p.2.2.1 1 b
  let yi ← g.y.findIndexesWindow p.2.1 ny b
  let xi ← g.x.findIndexesWindow p.1 nx b
  if xi = [] ∨ yi = [] ∨ zi = [] ∨ ui = [] then
    if boundsError then .error .exn else .ok (none, o)
  else do
    let f ← frameXY g.toGrid2D xi yi
    let z0 ← g.z.cont.coord (zi.getD 0 0)
    let z1 ← g.z.cont.coord (zi.getD 1 0)
    let u0 ← g.u.cont.coord (ui.getD 0 0)
    let u1 ← g.u.cont.coord (ui.getD 1 0)
    let q00 ← frameQ g.arr xi yi [zi.getD 0 0, ui.getD 0 0]
    let q01 ← frameQ g.arr xi yi [zi.getD 0 0, ui.getD 1 0]
    let q10 ← frameQ g.arr xi yi [zi.getD 1 0, ui.getD 0 0]
    let q11 ← frameQ g.arr xi yi [zi.getD 1 0, ui.getD 1 0]
    match frameMat xi yi q00, frameMat xi yi q01, frameMat xi yi q10, frameMat xi yi q11 with
    | some m00, some m01, some m10, some m11 =>
      let x := frameQuery g.x f.1 p.1
      let r00 ← o.call same junk f.1 f.2 m00 x p.2.1
      let r10 ← r00.2.call same junk f.1 f.2 m10 x p.2.1
      let r01 ← r10.2.call same junk f.1 f.2 m01 x p.2.1
      let r11 ← r01.2.call same junk f.1 f.2 m11 x p.2.1
      .ok (zLinear p.2.2.2 u0 u1 (zLinear p.2.2.1 z0 z1 r00.1 r10.1) (zLinear p.2.2.1 z0 z1 r01.1 r11.1),
        r11.2)
    | _, _, _, _ => .ok (none, o)

/-- The loop of a worker on its slice (module/bicubic.cpp:69-82, 124-147, 190-224): the same
interpolator is used for all the points. `junk n` is the content of the memory allocated at the
iteration `n`. -/
def bicubicLoop {P : Type} (point : (Nat → K) → Obj2D K → P → Out (Option K × Obj2D K))
    (junk : Nat → Nat → K) : Nat → Obj2D K → List P → Out (List (Option K))
  | _, _, [] => .ok []
  | n, o, p :: ps => do
    let r ← point (junk n) o p
    let rest ← bicubicLoop point junk (n + 1) r.2 ps
    .ok (r.1 :: rest)

/-- `detail::dispatch` of the workers (module/bicubic.cpp:61-92, 118-157, 184-234): each slice of the
points is given to a new interpolator, and fills its part of the result. The workers share no
other variable than the exception that is thrown in the end, if a worker raises one (here: the one of
the first such slice; in the code the last one that was caught). -/
def bicubicDispatch {P : Type} (point : (Nat → K) → Obj2D K → P → Out (Option K × Obj2D K))
    (kind : Out Kind2D) (junk : Nat × Nat → Nat → Nat → K) (hw numThreads : Nat) (ps : List P) :
    Out (List (Option K)) := do
  let sl ← Thread.slices hw ps.length numThreads
  let rs ← sl.mapM fun s => do
    let k ← kind
    bicubicLoop point (junk s) 0 (Obj2D.new (junk s 0) k) ((ps.drop s.1).take (s.2 - s.1))
  .ok rs.flatten

/-- `bicubic` (bicubic.py:70-97): the checks done before the call of the core, and the class of
interpolators of the core function called. -/
def pyBicubicCheck (xAsc yAsc : Bool) (fittingModel boundary : String) : Out (Out Kind2D × Boundary) := do
  if !xAsc then .error .exn
  else if !yAsc then .error .exn
  else if ¬ fittingModel ∈ ["akima_periodic", "akima", "bicubic", "c_spline_periodic", "c_spline",
      "linear", "polynomial", "steffen"] then .error .exn
  else if ¬ boundary ∈ ["expand", "wrap", "sym", "undef"] then .error .exn
  else
    let b ← boundaryOf boundary
    .ok (if fittingModel = "bicubic" then kind2DOf fittingModel else kindSplineOf fittingModel, b)

/-- `bicubic(mesh, x, y, …)` on a `Grid2D` (bicubic.py:70-97, module/bicubic.cpp:40-93). The vectors
are given as lists. -/
def pyBicubic2D (same : Nat → Nat → Bool) (junk : Nat × Nat → Nat → Nat → K) (hw : Nat)
    (g : Grid2D K) (x y : List K) (nx ny : Nat) (fittingModel boundary : String)
    (boundsError : Bool) (numThreads : Nat) : Out (List (Option K)) := do
  let c ← pyBicubicCheck g.x.cont.isAscending g.y.cont.isAscending fittingModel boundary
  if x.length ≠ y.length then .error .exn
  else
    bicubicDispatch (bicubicPoint same nx ny c.2 boundsError g) c.1 junk hw numThreads (x.zip y)

/-- `bicubic(mesh, x, y, z, …)` on a `Grid3D` (bicubic.py:70-97, module/bicubic.cpp:96-158). -/
def pyBicubic3D (same : Nat → Nat → Bool) (junk : Nat × Nat → Nat → Nat → K) (hw : Nat)
    (g : Grid3D T K) (x y : List K) (z : Option (List T)) (nx ny : Nat) (fittingModel boundary : String)
    (boundsError : Bool) (numThreads : Nat) : Out (List (Option K)) := do
  let c ← pyBicubicCheck g.x.cont.isAscending g.y.cont.isAscending fittingModel boundary
  match z with
  | none => .error .exn
  | some z =>
    if x.length ≠ y.length ∨ x.length ≠ z.length then .error .exn
    else
      bicubicDispatch (bicubicPoint3 same nx ny c.2 boundsError g) c.1 junk hw numThreads
        (x.zip (y.zip z))

/-- `bicubic(mesh, x, y, z, u, …)` on a `Grid4D` (bicubic.py:70-97, module/bicubic.cpp:161-235). -/
def pyBicubic4D (same : Nat → Nat → Bool) (junk : Nat × Nat → Nat → Nat → K) (hw : Nat)
    (g : Grid4D T K) (x y : List K) (z : Option (List T)) (u : Option (List K)) (nx ny : Nat)
    (fittingModel boundary : String) (boundsError : Bool) (numThreads : Nat) :
    Out (List (Option K)) := do
  let c ← pyBicubicCheck g.x.cont.isAscending g.y.cont.isAscending fittingModel boundary
  match z, u with
  | some z, some u =>
    if x.length ≠ y.length ∨ x.length ≠ z.length ∨ x.length ≠ u.length then .error .exn
    else
      bicubicDispatch (bicubicPoint4 same nx ny c.2 boundsError g) c.1 junk hw numThreads
        (x.zip (y.zip (z.zip u)))
  | _, _ => .error .exn

end
end Pyinterp.Interp
