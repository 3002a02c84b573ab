import Verif.Model.Axis

/-
Model of src/pyinterp/core/include/pyinterp/detail/math/{bivariate,trivariate,linear,nearest}.hpp,
grid.hpp, bivariate.hpp, trivariate.hpp and quadrivariate.hpp.

A floating point value is `Option K`: `none` is NaN. Rounding and infinities are not modelled.
-/
namespace Pyinterp.Variate
open Pyinterp

section
variable {K : Type} [Field K] [LinearOrder K]

/-- Floating point addition of two numbers that may be NaN. -/
def nadd (a b : Option K) : Option K := do return (← a) + (← b)

/-- Floating point multiplication of a number by one that may be NaN (`0 * NaN` is NaN). -/
def nmul (a : K) (b : Option K) : Option K := do return a * (← b)

/-- The interpolators of a cell. The distance of boost::geometry between two points given by
longitude and latitude (and its comparable variant) is a parameter; `eps` is
`numeric_limits<T>::epsilon()`. -/
inductive Method (K : Type) where
  /-- `Bilinear` (detail/math/bivariate.hpp:56-97) -/
  | bilinear
  /-- `Nearest` (detail/math/bivariate.hpp:193-248) -/
  | nearest (cdist : K × K → K × K → K)
  /-- `InverseDistanceWeighting` (detail/math/bivariate.hpp:103-190), with its exponent -/
  | idw (dist : K × K → K × K → K) (eps : K) (exp : Int)

/-- `Bilinear::evaluate` (detail/math/bivariate.hpp:86-96). `dx` and `dy` are never 0 in the
calls made by the library (`C47_bilinear`); the division by 0 is not modelled. -/
def bilinear (p p0 p1 : K × K) (q00 q01 q10 q11 : Option K) : Option K :=
  let dx := p1.1 - p0.1
  let dy := p1.2 - p0.2
  let t := (p.1 - p0.1) / dx
  let u := (p.2 - p0.2) / dy
  nadd (nadd (nadd (nmul ((1 - t) * (1 - u)) q00) (nmul (t * (1 - u)) q10))
    (nmul ((1 - t) * u) q01)) (nmul (t * u) q11)

/-- `InverseDistanceWeighting::evaluate` (detail/math/bivariate.hpp:140-186). -/
def idw (dist : K × K → K × K → K) (eps : K) (exp : Int) (p p0 p1 : K × K)
    (q00 q01 q10 q11 : Option K) : Option K :=
  let d := dist p (p0.1, p0.2)
  if d ≤ eps then q00 else
  let w := 1 / d ^ exp
  let wu := nmul w q00
  let d := dist p (p0.1, p1.2)
  if d ≤ eps then q01 else
  let wi := 1 / d ^ exp
  let w := w + wi
  let wu := nadd wu (nmul wi q01)
  let d := dist p (p1.1, p0.2)
  if d ≤ eps then q10 else
  let wi := 1 / d ^ exp
  let w := w + wi
  let wu := nadd wu (nmul wi q10)
  let d := dist p (p1.1, p1.2)
  if d ≤ eps then q11 else
  let wi := 1 / d ^ exp
  let w := w + wi
  let wu := nadd wu (nmul wi q11)
  wu.map (· / w)

/-- `Nearest::evaluate` (detail/math/bivariate.hpp:222-247): the first of the nearest
corners. -/
def nearest (cdist : K × K → K × K → K) (p p0 p1 : K × K) (q00 q01 q10 q11 : Option K) :
    Option K :=
  let result := (cdist p (p0.1, p0.2), q00)
  let d := cdist p (p0.1, p1.2)
  let result := if result.1 > d then (d, q01) else result
  let d := cdist p (p1.1, p0.2)
  let result := if result.1 > d then (d, q10) else result
  let d := cdist p (p1.1, p1.2)
  let result := if result.1 > d then (d, q11) else result
  result.2

/-- `interpolator->evaluate` (virtual function, detail/math/bivariate.hpp:46-49). -/
def Method.evaluate : Method K → (p p0 p1 : K × K) → (q00 q01 q10 q11 : Option K) → Option K
  | .bilinear => Variate.bilinear
  | .nearest cdist => Variate.nearest cdist
  | .idw dist eps exp => Variate.idw dist eps exp

/-- A numpy array of any number of dimensions: its shape and the element at each index.
Memory layout (strides) is not modelled. -/
structure Arr (K : Type) where
  shape : List Nat
  at' : List Nat → Option K

/-- `ptr_(i, j, ...)` (grid.hpp:81-84), an unchecked access: undefined behaviour outside the
array. -/
def Arr.value (a : Arr K) (idx : List Int) : Out (Option K) :=
  if idx.length = a.shape.length ∧ ∀ p ∈ idx.zip a.shape, 0 ≤ p.1 ∧ p.1 < (p.2 : Int) then
    .ok (a.at' (idx.map Int.toNat))
  else .error .ub

/-- `Grid2D` (grid.hpp:22-34, 119-123). -/
structure Grid2D (K : Type) where
  x : Axis K
  y : Axis K
  arr : Arr K

variable [AxisNum K]

/-- One step of `check_shape` (grid.hpp:128-140): axis number `idx` has the length of
dimension `idx` of the array. -/
def checkShape {T : Type} [LinearOrder T] [AddCommGroup T] [AxisNum T]
    (arr : Arr K) (idx : Nat) (a : Axis T) : Bool :=
  match arr.shape[idx]? with
  | some d => decide (a.size = (d : Int))
  | none => false

/-- `Grid2D::Grid2D` (grid.hpp:25-35); an array of another number of dimensions is refused by
`unchecked<2>` (pybind11). -/
def mkGrid2D (x y : Axis K) (arr : Arr K) : Out (Grid2D K) :=
  if arr.shape.length ≠ 2 then .error .exn
  else if !checkShape arr 0 x || !checkShape arr 1 y then .error .exn
  else if y.isCircle then .error .exn
  else .ok { x := x, y := y, arr := arr }

/-- `_bivariate` (include/pyinterp/bivariate.hpp:72-105). -/
def bivariate (m : Method K) (g : Grid2D K) (x y : K) (boundsError : Bool) : Out (Option K) := do
  let xIndexes ← g.x.findIndexes x
  let yIndexes ← g.y.findIndexes y
  match xIndexes, yIndexes with
  | some (ix0, ix1), some (iy0, iy1) =>
    let x0 ← g.x.cont.coord ix0
    let y0 ← g.y.cont.coord iy0
    let x1 ← g.x.cont.coord ix1
    let y1 ← g.y.cont.coord iy1
    let p := (g.x.normalizeCoordinate' x x0, y)
    let q00 ← g.arr.value [ix0, iy0]
    let q01 ← g.arr.value [ix0, iy1]
    let q10 ← g.arr.value [ix1, iy0]
    let q11 ← g.arr.value [ix1, iy1]
    return m.evaluate p (x0, y0) (x1, y1) q00 q01 q10 q11
  | _, _ => if boundsError then .error .exn else return none

/-- The methods of interpolation of the Z and U axes (detail/math/trivariate.hpp:17-18,
quadrivariate.hpp:27-36). -/
inductive ZMethod where
  | linear | nearest
  deriving DecidableEq, Repr

/-- `get_z_interpolation_method`, `get_u_interpolation_method` (detail/math/trivariate.hpp:54-66,
quadrivariate.hpp:27-36). -/
def zMethodOf (s : String) : Out ZMethod :=
  if s = "linear" then .ok .linear
  else if s = "nearest" then .ok .nearest
  else .error .exn

/-- What the code needs from the type of the Z axis: the conversion to a floating point number
and the square (`sqr`, detail/math.hpp:252-255), which overflows on 64-bit integers. -/
class ZNum (T K : Type) where
  toK : T → K
  sqr : T → Out T

/-- floating point Z axis -/
instance : ZNum K K where
  toK x := x
  sqr x := .ok (x * x)

/-- temporal Z axis (`int64_t`): `x * x` has no defined value when it does not fit -/
instance : ZNum Int K where
  toK x := (x : K)
  sqr x := if x * x < 2 ^ 63 then .ok (x * x) else .error .ub

/-- `linear` (detail/math/linear.hpp:21-35). The differences of integral coordinates are
assumed not to overflow. -/
def zLinear {T : Type} [LinearOrder T] [AddCommGroup T] [ZNum T K] (x x0 x1 : T)
    (y0 y1 : Option K) : Option K :=
  let dx : K := ZNum.toK (x1 - x0)
  if dx = 0 then (if x = x0 then y0 else none)
  else
    let t : K := ZNum.toK (x1 - x) / dx
    let u : K := ZNum.toK (x - x0) / dx
    nadd (nmul t y0) ((nmul u y1).map (· / (t + u)))

/-- `nearest` (detail/math/nearest.hpp:17-26). -/
def zNearest {T : Type} [LinearOrder T] [AddCommGroup T] [ZNum T K] (x x0 x1 : T)
    (y0 y1 : Option K) : Out (Option K) := do
  let dx0 : T ← ZNum.sqr K (x0 - x)
  let dx1 : T ← ZNum.sqr K (x1 - x)
  return if dx0 < dx1 then y0 else y1

/-- The function selected by `get_z_method` (detail/math/trivariate.hpp:26-51). -/
def ZMethod.evaluate {T : Type} [LinearOrder T] [AddCommGroup T] [ZNum T K] :
    ZMethod → (x x0 x1 : T) → (y0 y1 : Option K) → Out (Option K)
  | .linear, x, x0, x1, y0, y1 => .ok (zLinear x x0 x1 y0 y1)
  | .nearest, x, x0, x1, y0, y1 => zNearest x x0 x1 y0 y1

/-- `Grid3D` (grid.hpp:143-193). -/
structure Grid3D (T K : Type) extends Grid2D K where
  z : Axis T

variable {T : Type} [LinearOrder T] [AddCommGroup T] [AxisNum T] [ZNum T K]

/-- `Grid3D::Grid3D` (grid.hpp:150-158). -/
def mkGrid3D (x y : Axis K) (z : Axis T) (arr : Arr K) : Out (Grid3D T K) :=
  if arr.shape.length ≠ 3 then .error .exn
  else if !checkShape arr 0 x || !checkShape arr 1 y then .error .exn
  else if y.isCircle then .error .exn
  else if !checkShape arr 2 z then .error .exn
  else if z.isCircle then .error .exn
  else .ok { x := x, y := y, arr := arr, z := z }

/-- `trivariate` (detail/math/trivariate.hpp:85-123) applied to the corners of the cell
`(ix0, ix1) x (iy0, iy1) x (iz0, iz1)` of the array, whose last indexes are `rest`. -/
def cell3 (m : Method K) (zm : ZMethod) (arr : Arr K) (rest : List Int)
    (p p0 p1 : K × K) (z z0 z1 : T) (ix0 ix1 iy0 iy1 iz0 iz1 : Int) : Out (Option K) := do
  let q000 ← arr.value ([ix0, iy0, iz0] ++ rest)
  let q010 ← arr.value ([ix0, iy1, iz0] ++ rest)
  let q100 ← arr.value ([ix1, iy0, iz0] ++ rest)
  let q110 ← arr.value ([ix1, iy1, iz0] ++ rest)
  let q001 ← arr.value ([ix0, iy0, iz1] ++ rest)
  let q011 ← arr.value ([ix0, iy1, iz1] ++ rest)
  let q101 ← arr.value ([ix1, iy0, iz1] ++ rest)
  let q111 ← arr.value ([ix1, iy1, iz1] ++ rest)
  let r0 := m.evaluate p p0 p1 q000 q010 q100 q110
  let r1 := m.evaluate p p0 p1 q001 q011 q101 q111
  zm.evaluate z z0 z1 r0 r1

/-- `_trivariate` (include/pyinterp/trivariate.hpp:25-74). -/
def trivariate (m : Method K) (zm : ZMethod) (g : Grid3D T K) (x y : K) (z : T)
    (boundsError : Bool) : Out (Option K) := do
  let xIndexes ← g.x.findIndexes x
  let yIndexes ← g.y.findIndexes y
  let zIndexes ← g.z.findIndexes z
  match xIndexes, yIndexes, zIndexes with
  | some (ix0, ix1), some (iy0, iy1), some (iz0, iz1) =>
    let x0 ← g.x.cont.coord ix0
    let y0 ← g.y.cont.coord iy0
    let z0 ← g.z.cont.coord iz0
    let x1 ← g.x.cont.coord ix1
    let y1 ← g.y.cont.coord iy1
    let z1 ← g.z.cont.coord iz1
    let p := (g.x.normalizeCoordinate' x x0, y)
    cell3 m zm g.arr [] p (x0, y0) (x1, y1) z z0 z1 ix0 ix1 iy0 iy1 iz0 iz1
  | _, _, _ => if boundsError then .error .exn else return none

/-- `Grid4D` (grid.hpp:195-240). -/
structure Grid4D (T K : Type) extends Grid3D T K where
  u : Axis K

/-- `Grid4D::Grid4D` (grid.hpp:198-208). -/
def mkGrid4D (x y : Axis K) (z : Axis T) (u : Axis K) (arr : Arr K) : Out (Grid4D T K) :=
  if arr.shape.length ≠ 4 then .error .exn
  else if !checkShape arr 0 x || !checkShape arr 1 y then .error .exn
  else if y.isCircle then .error .exn
  else if !checkShape arr 2 z then .error .exn
  else if z.isCircle then .error .exn
  else if !checkShape arr 3 u then .error .exn
  else if u.isCircle then .error .exn
  else .ok { x := x, y := y, arr := arr, z := z, u := u }

/-- `_quadrivariate` (include/pyinterp/quadrivariate.hpp:39-113). -/
def quadrivariate (m : Method K) (zm um : ZMethod) (g : Grid4D T K) (x y : K) (z : T) (u : K)
    (boundsError : Bool) : Out (Option K) := do
  let xIndexes ← g.x.findIndexes x
  let yIndexes ← g.y.findIndexes y
  let zIndexes ← g.z.findIndexes z
  let uIndexes ← g.u.findIndexes u
  match xIndexes, yIndexes, zIndexes, uIndexes with
  | some (ix0, ix1), some (iy0, iy1), some (iz0, iz1), some (iu0, iu1) =>
    let x0 ← g.x.cont.coord ix0
    let y0 ← g.y.cont.coord iy0
    let z0 ← g.z.cont.coord iz0
    let x1 ← g.x.cont.coord ix1
    let y1 ← g.y.cont.coord iy1
    let z1 ← g.z.cont.coord iz1
    let p := (g.x.normalizeCoordinate' x x0, y)
    let r0 ← cell3 m zm g.arr [iu0] p (x0, y0) (x1, y1) z z0 z1 ix0 ix1 iy0 iy1 iz0 iz1
    let r1 ← cell3 m zm g.arr [iu1] p (x0, y0) (x1, y1) z z0 z1 ix0 ix1 iy0 iy1 iz0 iz1
    let u0 ← g.u.cont.coord iu0
    let u1 ← g.u.cont.coord iu1
    um.evaluate u u0 u1 r0 r1
  | _, _, _, _ => if boundsError then .error .exn else return none

end
end Pyinterp.Variate
