import Verif.Model.DoubleCircle

/-
Interpolation of grids of three and four dimensions with the rounding of every operation: bilinear in x and y, linear or nearest
along z and u. NaN is `none`.
-/
namespace Pyinterp.Double

open Pyinterp

/-- `Bilinear::evaluate` (detail/math/bivariate.hpp:86-96): a NaN among the four values gives NaN. -/
def oBilinear (p p0 p1 : ℚ × ℚ) (q00 q01 q10 q11 : Option ℚ) : Option ℚ := do
  return bilinear p p0 p1 (← q00) (← q01) (← q10) (← q11)

/-- `linear<double, double>` (detail/math/linear.hpp:22-35): a NaN among the two values gives NaN, even if its weight is zero. -/
def oLinear (x x0 x1 : ℚ) (y0 y1 : Option ℚ) : Option ℚ :=
  if sub x1 x0 = 0 then (if x = x0 then y0 else none)
  else do linear x x0 x1 (← y0) (← y1)

/-- `nearest<double, double>` (detail/math/nearest.hpp:17-27, detail/math.hpp:252-255). -/
def oNearest (x x0 x1 : ℚ) (y0 y1 : Option ℚ) : Option ℚ :=
  let dx0 := mul (sub x0 x) (sub x0 x)
  let dx1 := mul (sub x1 x) (sub x1 x)
  if dx0 < dx1 then y0 else y1

/-- The function `get_z_method` selects (detail/math/trivariate.hpp:40-51). -/
def oMethod : Variate.ZMethod → (x x0 x1 : ℚ) → (y0 y1 : Option ℚ) → Option ℚ
  | .linear => oLinear
  | .nearest => oNearest

/-- `trivariate` (detail/math/trivariate.hpp:111-123) on the corners of a cell of the array, of which the last indexes are
`rest`. -/
def cell3 (zm : Variate.ZMethod) (arr : Variate.Arr ℚ) (rest : List Int) (p p0 p1 : ℚ × ℚ) (z z0 z1 : ℚ)
    (ix0 ix1 iy0 iy1 iz0 iz1 : Int) : Out (Option ℚ) := do
  let q000 ← arr.value ([ix0, iy0, iz0] ++ rest)
  let q010 ← arr.value ([ix0, iy1, iz0] ++ rest)
  let q100 ← arr.value ([ix1, iy0, iz0] ++ rest)
  let q110 ← arr.value ([ix1, iy1, iz0] ++ rest)
  let q001 ← arr.value ([ix0, iy0, iz1] ++ rest)
  let q011 ← arr.value ([ix0, iy1, iz1] ++ rest)
  let q101 ← arr.value ([ix1, iy0, iz1] ++ rest)
  let q111 ← arr.value ([ix1, iy1, iz1] ++ rest)
  return oMethod zm z z0 z1 (oBilinear p p0 p1 q000 q010 q100 q110) (oBilinear p p0 p1 q001 q011 q101 q111)

/-- `Grid3D<double, double>` (grid.hpp:143-193). -/
structure AxGrid3 where
  x : Ax
  y : Ax
  z : Ax
  arr : Variate.Arr ℚ

/-- `_trivariate` (include/pyinterp/trivariate.hpp:25-74). -/
def trivariateAx (zm : Variate.ZMethod) (g : AxGrid3) (x y z : ℚ) (boundsError : Bool) : Out (Option ℚ) := do
  let xIndexes ← g.x.findIndexes x
  let yIndexes ← g.y.findIndexes y
  let zIndexes ← g.z.findIndexes z
  match xIndexes, yIndexes, zIndexes with
  | some (ix0, ix1), some (iy0, iy1), some (iz0, iz1) =>
    let x0 ← g.x.cont.coord ix0
    let y0 ← g.y.cont.coord iy0
    let z0 ← g.z.cont.coord iz0
    let x1 ← g.x.cont.coord ix1
    let y1 ← g.y.cont.coord iy1
    let z1 ← g.z.cont.coord iz1
    cell3 zm g.arr [] (g.x.normalizeCoordinate' x x0, y) (x0, y0) (x1, y1) z z0 z1 ix0 ix1 iy0 iy1 iz0 iz1
  | _, _, _ => if boundsError then .error .exn else return none

/-- `Grid4D<double, double>` (grid.hpp:195-240). -/
structure AxGrid4 where
  x : Ax
  y : Ax
  z : Ax
  u : Ax
  arr : Variate.Arr ℚ

/-- `_quadrivariate` (include/pyinterp/quadrivariate.hpp:39-113). -/
def quadrivariateAx (zm um : Variate.ZMethod) (g : AxGrid4) (x y z u : ℚ) (boundsError : Bool) : Out (Option ℚ) := do
  let xIndexes ← g.x.findIndexes x
  let yIndexes ← g.y.findIndexes y
  let zIndexes ← g.z.findIndexes z
  let uIndexes ← g.u.findIndexes u
  match xIndexes, yIndexes, zIndexes, uIndexes with
  | some (ix0, ix1), some (iy0, iy1), some (iz0, iz1), some (iu0, iu1) =>
    let x0 ← g.x.cont.coord ix0
    let y0 ← g.y.cont.coord iy0
    let z0 ← g.z.cont.coord iz0
    let x1 ← g.x.cont.coord ix1
    let y1 ← g.y.cont.coord iy1
    let z1 ← g.z.cont.coord iz1
    let p := (g.x.normalizeCoordinate' x x0, y)
    let r0 ← cell3 zm g.arr [iu0] p (x0, y0) (x1, y1) z z0 z1 ix0 ix1 iy0 iy1 iz0 iz1
    let r1 ← cell3 zm g.arr [iu1] p (x0, y0) (x1, y1) z z0 z1 ix0 ix1 iy0 iy1 iz0 iz1
    let u0 ← g.u.cont.coord iu0
    let u1 ← g.u.cont.coord iu1
    return oMethod um u u0 u1 r0 r1
  | _, _, _, _ => if boundsError then .error .exn else return none

end Pyinterp.Double
