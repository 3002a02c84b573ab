import Verif.Model.DoubleAxis
import Verif.Model.Variate
import Verif.Model.Interp1D

/-
Linear and bilinear interpolation with the rounding of every operation. NaN is `none`.
-/
namespace Pyinterp.Double

open Pyinterp

/-- `Bilinear::evaluate` (detail/math/bivariate.hpp:86-96), for four values that are not NaN; the points have distinct
coordinates (division by zero is not modelled). -/
def bilinear (p p0 p1 : ℚ × ℚ) (q00 q01 q10 q11 : ℚ) : ℚ :=
  let dx := sub p1.1 p0.1
  let dy := sub p1.2 p0.2
  let t := div (sub p.1 p0.1) dx
  let u := div (sub p.2 p0.2) dy
  add (add (add (mul (mul (sub 1 t) (sub 1 u)) q00) (mul (mul t (sub 1 u)) q10)) (mul (mul (sub 1 t) u) q01))
    (mul (mul t u) q11)

/-- `linear<double, double>` (detail/math/linear.hpp:22-35): the interpolation along the Z and U axes. -/
def linear (x x0 x1 y0 y1 : ℚ) : Option ℚ :=
  let dx := sub x1 x0
  if dx = 0 then (if x = x0 then some y0 else none)
  else
    let t := div (sub x1 x) dx
    let u := div (sub x x0) dx
    some (add (mul t y0) (div (mul u y1) (add t u)))

/-- `Linear::interpolate_` between two points (detail/interpolation/linear.hpp:27-36). -/
def linear1D (x x0 x1 y0 y1 : ℚ) : ℚ := add y0 (mul (div (sub y1 y0) (sub x1 x0)) (sub x x0))

/-- `Linear::operator()` (detail/interpolation/linear.hpp:27-36, interpolator_1d.hpp:25-28): the search compares doubles, which is
exact. -/
def interp1D (xa ya : List ℚ) (x : ℚ) : Out (Option ℚ) := do
  Interp.checkSizes 2 xa ya
  match Interp.search xa x with
  | none => .ok none
  | some (i0, i1) => do
    let y0 ← rd ya i0
    let y1 ← rd ya i1
    let x0 ← rd xa i0
    let x1 ← rd xa i1
    .ok (some (linear1D x x0 x1 y0 y1))

/-- A grid of which the two axes are regular and are not angles (grid.hpp:22-34, 119-123). -/
structure Grid where
  x : Reg
  y : Reg
  arr : Variate.Arr ℚ

/-- `_bivariate` (include/pyinterp/bivariate.hpp:72-105) for bilinear interpolation: NaN if one of the four values is NaN. -/
def bivariate (g : Grid) (x y : ℚ) (boundsError : Bool) : Out (Option ℚ) := do
  let xIndexes ← g.x.findIndexes x
  let yIndexes ← g.y.findIndexes y
  match xIndexes, yIndexes with
  | some (ix0, ix1), some (iy0, iy1) =>
    let q00 ← g.arr.value [ix0, iy0]
    let q01 ← g.arr.value [ix0, iy1]
    let q10 ← g.arr.value [ix1, iy0]
    let q11 ← g.arr.value [ix1, iy1]
    match q00, q01, q10, q11 with
    | some q00, some q01, some q10, some q11 =>
      return some (bilinear (x, y) (g.x.coord ix0, g.y.coord iy0) (g.x.coord ix1, g.y.coord iy1) q00 q01 q10 q11)
    | _, _, _, _ => return none
  | _, _ => if boundsError then .error .exn else return none

end Pyinterp.Double
