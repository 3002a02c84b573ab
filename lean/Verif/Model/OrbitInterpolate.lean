import Verif.Model.Interpolate1D
import Verif.Model.Geodetic
import Mathlib.Algebra.Order.Archimedean.Real.Basic

/-
Model of `interpolate` of src/pyinterp/orbit.py, in real numbers (no rounding).
-/
namespace Pyinterp.Passes
open Real Pyinterp.RTree Pyinterp.Geodetic

/-- The end of `interpolate` for one coordinate (src/pyinterp/orbit.py:82-92): the four interpolated values, the point given to
`ecef_to_lla`. `none` is NaN, also the result for a null vector (0 times an infinite or undefined factor). -/
noncomputable def orbitPoint (mz : ℝ) (x y z r : Option ℝ) : Option Point :=
  match x, y, z, r with
  | some x, some y, some z, some r =>
    if x * x + y * y + z * z = 0 then none
    else
      let r := r / √(x * x + y * y + z * z)
      some ⟨x * r, y * r, z * (r * (1 / mz))⟩
  | _, _, _, _ => none

/-- `lla_to_ecef` of the three arrays (src/pyinterp/orbit.py:50-54), lists of the same length. -/
noncomputable def orbitEcef (bits : Nat) (co : Geodetic.Coordinates) (lon lat : List ℝ) (height : ℝ) : List Point :=
  (lon.zip lat).map fun p => co.llaToEcef bits ⟨p.1, p.2, height⟩

/-- `interpolate` (src/pyinterp/orbit.py:23-92) up to the points given to `ecef_to_lla`. `interpolate1d` is called with its default
arguments `bounds_error = True`, `kind = "c_spline"` (core/module/interpolate1d.cpp:31-33). The dates are numbers. -/
noncomputable def interpolatePoints (bits : Nat) (same : Nat → Nat → Bool) (junk : Nat → Nat → ℝ) (co : Geodetic.Coordinates)
    (lon lat xp xi : List ℝ) (height : ℝ) (half : Int) : Out (List (Option Point)) :=
  if lon.length ≠ lat.length then .error .exn
  else match xp with
  | [] => .error .exn
  | x0 :: _ => do
    let mz := co.spheroid.a / co.spheroid.b
    let p := orbitEcef bits co lon lat height
    let axis ← mkAxis false (xp.map fun v => v - x0) (1 / 1000000) false
    let xi := xi.map fun v => v - x0
    let x ← Interp.interpolate1d same junk axis (p.map (·.x)) xi half true "c_spline"
    let y ← Interp.interpolate1d same junk axis (p.map (·.y)) xi half true "c_spline"
    let z ← Interp.interpolate1d same junk axis (p.map (·.z)) xi half true "c_spline"
    let r ← Interp.interpolate1d same junk axis
      (p.map fun q => √(q.x * q.x + q.y * q.y + q.z * q.z * mz * mz)) xi half true "c_spline"
    .ok ((List.range xi.length).map fun k =>
      orbitPoint mz (x.getD k none) (y.getD k none) (z.getD k none) (r.getD k none))

/-- `interpolate` (src/pyinterp/orbit.py:23-92): the longitudes and the latitudes; `none` is NaN. -/
noncomputable def interpolate (bits : Nat) (same : Nat → Nat → Bool) (junk : Nat → Nat → ℝ) (co : Geodetic.Coordinates)
    (lon lat xp xi : List ℝ) (height : ℝ) (half : Int) : Out (List (Option (ℝ × ℝ))) := do
  let points ← interpolatePoints bits same junk co lon lat xp xi height half
  .ok (points.map fun q => q.map fun q => ((co.ecefToLla q).lon, (co.ecefToLla q).lat))

end Pyinterp.Passes
