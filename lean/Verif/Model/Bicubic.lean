import Verif.Model.Interpolate1D
import Verif.Model.Variate

/-
Model of src/pyinterp/core/include/pyinterp/detail/interpolation/{interpolator_2d, bilinear, bicubic,
factory_2d}.hpp, detail/math/{spline2d, bicubic, frame}.hpp, frame.hpp and of
src/pyinterp/core/module/bicubic.cpp (`pyinterp.bicubic`, with src/pyinterp/interpolator/bicubic.py).
-/
namespace Pyinterp.Interp

section
variable {K : Type} [Field K] [LinearOrder K]

/-- An Eigen matrix: its shape and its elements. -/
structure Mat (K : Type) where
  rows : Nat
  cols : Nat
  val : Nat → Nat → K

/-- `za.col(j)` -/
def Mat.col (m : Mat K) (j : Nat) : List K := (List.range m.rows).map fun (i : Nat) => m.val i j

/-- `za.row(i)` -/
def Mat.row (m : Mat K) (i : Nat) : List K := (List.range m.cols).map fun (j : Nat) => m.val i j

/-- `za(i, j)`: no defined behaviour outside of the matrix. -/
def Mat.rd (m : Mat K) (i j : Nat) : Out K :=
  if i < m.rows ∧ j < m.cols then .ok (m.val i j) else .error .ub

/-- `Interpolator2D::compute_coefficients` (interpolator_2d.hpp:57-74), with `min_size() = 2`
(bilinear.hpp:19, bicubic.hpp:21). -/
def checkSizes2D (xa ya : List K) (za : Mat K) : Out Unit :=
  if xa.length ≠ za.rows then .error .exn
  else if ya.length ≠ za.cols then .error .exn
  else if xa.length < 2 then .error .exn
  else if ya.length < 2 then .error .exn
  else .ok ()

/-- `Bilinear::interpolate_` (bilinear.hpp:35-55). Outside a `double` is thrown. -/
def bilinearEval (xa ya : List K) (za : Mat K) (x y : K) : Out K :=
  match search xa x, search ya y with
  | some (i0, i1), some (j0, j1) => do
    let x0 ← rd xa i0
    let x1 ← rd xa i1
    let y0 ← rd ya j0
    let y1 ← rd ya j1
    let z00 ← za.rd i0 j0
    let z10 ← za.rd i1 j0
    let z01 ← za.rd i0 j1
    let z11 ← za.rd i1 j1
    let dx := x1 - x0
    let dy := y1 - y0
    let t := (x - x0) / dx
    let u := (y - y0) / dy
    .ok ((1 - t) * (1 - u) * z00 + t * (1 - u) * z10 + (1 - t) * u * z01 + t * u * z11)
  | _, _ => .error .exn

/-- A NaN that enters a later computation is reported apart (see `Err.nan`). -/
def noNan : Option K → Out K
  | some v => .ok v
  | none => .error .nan

/-- `spline_.derivative(xa, ya, xa)` (interpolator_1d.hpp:59-67): the derivatives at the abscissas.
A NaN (a node that is not found, impossible on increasing abscissas) is reported apart. -/
def nodeDerivatives (x_ : Buf K) (xa ya : List K) : Out (List K × Buf K) := do
  let b ← csplineCompute x_ xa ya
  let r ← xa.mapM fun x => csplineDerivEval b xa ya x >>= noNan
  .ok (r, b)

/-- A loop of `Bicubic::compute_coefficients` (bicubic.hpp:60-68): the same spline object computes
the derivatives of each series. -/
def derivativeLoop (xs : List K) : Buf K → List (List K) → Out (List (List K) × Buf K)
  | x_, [] => .ok ([], x_)
  | x_, c :: cs => do
    let r ← nodeDerivatives x_ xs c
    let t ← derivativeLoop xs r.2 cs
    .ok (r.1 :: t.1, t.2)

/-- `zx_`, `zy_` and `zxy_` (bicubic.hpp:43-45). They are entirely rewritten by each call, so the
contents left by the previous calls are not modelled. -/
structure Derivatives (K : Type) where
  zx : Nat → Nat → K
  zy : Nat → Nat → K
  zxy : Nat → Nat → K

/-- element `(i, j)` of a list of lists -/
def at2 (l : List (List K)) (i j : Nat) : K := at' (l.getD i []) j

/-- `Bicubic::compute_coefficients` (bicubic.hpp:49-69). -/
def bicubicCompute (x_ : Buf K) (xa ya : List K) (za : Mat K) : Out (Derivatives K × Buf K) := do
  checkSizes2D xa ya za
  let zx ← derivativeLoop xa x_ ((List.range ya.length).map za.col)
  let zy ← derivativeLoop ya zx.2 ((List.range xa.length).map za.row)
  let zxy ← derivativeLoop xa zy.2 ((List.range ya.length).map fun (j : Nat) =>
    (List.range xa.length).map fun (i : Nat) => at2 zy.1 i j)
  .ok (⟨fun i j => at2 zx.1 j i, fun i j => at2 zy.1 i j, fun i j => at2 zxy.1 j i⟩, zxy.2)

/-- The polynomial of `Bicubic::interpolate_` (bicubic.hpp:113-137). -/
def bicubicForm (t u z00 z01 z10 z11 zx00 zx01 zx10 zx11 zy00 zy01 zy10 zy11
    zxy00 zxy01 zxy10 zxy11 : K) : K :=
  let t2 := t * t
  let t3 := t * t2
  let u2 := u * u
  let u3 := u * u2
  (z00 + u * zy00 + u2 * (3 * (z01 - z00) - 2 * zy00 - zy01) +
      u3 * (2 * (z00 - z01) + zy00 + zy01)) +
    t * (zx00 + u * zxy00 + u2 * (3 * (zx01 - zx00) - 2 * zxy00 - zxy01) +
      u3 * (2 * (zx00 - zx01) + zxy00 + zxy01)) +
    t2 * ((3 * (z10 - z00) - 2 * zx00 - zx10) +
      u * (3 * (zy10 - zy00) - 2 * zxy00 - zxy10) +
      u2 * (9 * (z00 - z01 - z10 + z11) +
        6 * (zx00 - zx01 + zy00 - zy10) +
        3 * (zx10 - zx11 + zy01 - zy11) + 4 * zxy00 +
        2 * (zxy01 + zxy10) + zxy11) +
      u3 * (6 * (z01 - z00 + z10 - z11) + 4 * (zx01 - zx00) +
        3 * (zy10 - zy00 - zy01 + zy11) +
        2 * (zx11 - zx10 - zxy00 - zxy01) - zxy10 - zxy11)) +
    t3 * ((2 * (z00 - z10) + zx00 + zx10) +
      u * (zxy00 + zxy10 + 2 * (zy00 - zy10)) +
      u2 * (6 * (z01 - z00 + z10 - z11) + 4 * (-zy00 + zy10) +
        3 * (zx01 - zx00 - zx10 + zx11) +
        2 * (zy11 - zy01 - zxy00 - zxy10) - zxy01 - zxy11) +
      u3 * (4 * (z00 - z01 - z10 + z11) +
        2 * (zx00 - zx01 + zx10 - zx11 + zy00 + zy01 - zy10 - zy11) +
        zxy00 + zxy01 + zxy10 + zxy11))

/-- `Bicubic::interpolate_` (bicubic.hpp:71-137). Outside a `double` is thrown. -/
def bicubicEval (d : Derivatives K) (xa ya : List K) (za : Mat K) (x y : K) : Out K :=
  match search xa x, search ya y with
  | some (i0, i1), some (j0, j1) => do
    let x0 ← rd xa i0
    let x1 ← rd xa i1
    let y0 ← rd ya j0
    let y1 ← rd ya j1
    let z00 ← za.rd i0 j0
    let z01 ← za.rd i0 j1
    let z10 ← za.rd i1 j0
    let z11 ← za.rd i1 j1
    let dx := x1 - x0
    let dy := y1 - y0
    let dxdy := dx * dy
    let t := (x - x0) / dx
    let u := (y - y0) / dy
    .ok (bicubicForm t u z00 z01 z10 z11
      (d.zx i0 j0 * dx) (d.zx i0 j1 * dx) (d.zx i1 j0 * dx) (d.zx i1 j1 * dx)
      (d.zy i0 j0 * dy) (d.zy i0 j1 * dy) (d.zy i1 j0 * dy) (d.zy i1 j1 * dy)
      (d.zxy i0 j0 * dxdy) (d.zxy i0 j1 * dxdy) (d.zxy i1 j0 * dxdy) (d.zxy i1 j1 * dxdy))
  | _, _ => .error .exn

/-- The interpolators of a window: `math::Bicubic` with the classes of `factory_2d`
(detail/math/bicubic.hpp:15-32) and `Spline2D` (detail/math/spline2d.hpp:14-44), with the members
that live between two calls. -/
inductive Obj2D (K : Type) where
  | bilinear
  | bicubic (spline : Buf K)
  | spline (x y : Obj K)

/-- The classes of 2D interpolators -/
inductive Kind2D where
  | bilinear | bicubic | spline (k : Kind)
  deriving DecidableEq, Repr

/-- `factory_2d` (factory_2d.hpp:10-20), for the functions `bicubic_*` of the core. -/
def kind2DOf (s : String) : Out Kind2D :=
  if s = "bilinear" then .ok .bilinear
  else if s = "bicubic" then .ok .bicubic
  else .error .exn

/-- The functions `spline_*` of the core: `factory_1d` (spline2d.hpp:21-24). -/
def kindSplineOf (s : String) : Out Kind2D := do .ok (.spline (← kindOf s))

/-- A new interpolator (detail/math/bicubic.hpp:21-22, spline2d.hpp:21-24). -/
def Obj2D.new (junk : Nat → K) : Kind2D → Obj2D K
  | .bilinear => .bilinear
  | .bicubic => .bicubic ⟨0, junk⟩
  | .spline k => .spline (Obj.new junk k) (Obj.new junk k)

/-- The loop of `Spline2D::interpolate` (spline2d.hpp:30-32): the interpolation of each column as a
function of `x`. A NaN, which would enter the second interpolation, is reported apart. -/
def columnLoop (same : Nat → Nat → Bool) (junk : Nat → K) (xa : List K) (x : K) :
    Obj K → List (List K) → Out (List K × Obj K)
  | o, [] => .ok ([], o)
  | o, c :: cs => do
    let r ← o.call same junk xa c x
    let v ← noNan r.1
    let t ← columnLoop same junk xa x r.2 cs
    .ok (v :: t.1, t.2)

/-- `interpolate(x, y, frame)` (detail/math/bicubic.hpp:25-28 with interpolator_2d.hpp:26-30;
spline2d.hpp:27-34). `none` is NaN. -/
def Obj2D.call (same : Nat → Nat → Bool) (junk : Nat → K) (o : Obj2D K) (xa ya : List K)
    (za : Mat K) (x y : K) : Out (Option K × Obj2D K) :=
  match o with
  | .bilinear => do
    checkSizes2D xa ya za
    let r ← bilinearEval xa ya za x y
    .ok (some r, .bilinear)
  | .bicubic b => do
    let d ← bicubicCompute b xa ya za
    let r ← bicubicEval d.1 xa ya za x y
    .ok (some r, .bicubic d.2)
  | .spline ox oy => do
    let c ← columnLoop same junk xa x ox ((List.range ya.length).map za.col)
    let r ← oy.call same junk ya c.1 y
    .ok (r.1, .spline c.2 r.2)

/-- The interpolation of one window with a new interpolator. -/
def interpolate2D (same : Nat → Nat → Bool) (k : Kind2D) (xa ya : List K) (za : Mat K) (x y : K) :
    Out (Option K) :=
  ((Obj2D.new (fun _ => 0) k).call same (fun _ => 0) xa ya za x y).map (·.1)

end
end Pyinterp.Interp
