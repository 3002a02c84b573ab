import Verif.Model.Geodetic

/-
Model of src/pyinterp/core/include/pyinterp/geodetic/swath.hpp and
src/pyinterp/core/include/pyinterp/detail/math/orbit.hpp, in real numbers (no rounding).
-/
namespace Pyinterp.Swath
open Real Pyinterp.RTree Pyinterp.Geodetic

/-- `lla_to_ecef` of arrays (geodetic/swath.hpp:18-33), on the surface of the ellipsoid. -/
noncomputable def locations (bits : Nat) (co : Coordinates) (lon lat : List ℝ) : List Point :=
  (lon.zip lat).map fun p => co.llaToEcef bits ⟨p.1, p.2, 0⟩

/-- The origin: the value read outside the array, never used. -/
def origin : Point := ⟨0, 0, 0⟩

/-- A row of the block of `satellite_direction` (detail/math/orbit.hpp:21-33), for a location that is not at the centre. -/
noncomputable def innerDirection (loc : List Point) (i : Nat) : Point :=
  let p := loc.getD (i - 1) origin
  let q := loc.getD i origin
  let r := loc.getD (i + 1) origin
  let d := √(q.x ^ 2 + q.y ^ 2 + q.z ^ 2)
  ⟨(r.x - p.x) / d, (r.y - p.y) / d, (r.z - p.z) / d⟩

/-- `satellite_direction` (detail/math/orbit.hpp:17-38). With two rows the rows that are copied are not initialised, with fewer rows the
block has a negative size: undefined behaviour. -/
noncomputable def satelliteDirection (loc : List Point) : Out (List Point) :=
  let n := loc.length
  if n < 3 then .error .ub
  else .ok ((List.range n).map fun i => if i = 0 then innerDirection loc 1
    else if i = n - 1 then innerDirection loc (n - 2) else innerDirection loc i)

/-- `normalized()` (Eigen): the vector divided by its norm, the vector itself if it is zero. -/
noncomputable def normalized (v : Point) : Point :=
  let z := v.x * v.x + v.y * v.y + v.z * v.z
  if z > 0 then ⟨v.x / √z, v.y / √z, v.z / √z⟩ else v

/-- A matrix of three rows. -/
structure Mat3 where
  r0 : Point
  r1 : Point
  r2 : Point

/-- `AngleAxis(angle, axis).toRotationMatrix()` (Eigen, used at detail/math/orbit.hpp:45-46). -/
noncomputable def toRotationMatrix (angle : ℝ) (axis : Point) : Mat3 :=
  let sx := sin angle * axis.x
  let sy := sin angle * axis.y
  let sz := sin angle * axis.z
  let c := cos angle
  let cx := (1 - c) * axis.x
  let cy := (1 - c) * axis.y
  let cz := (1 - c) * axis.z
  { r0 := ⟨cx * axis.x + c, cx * axis.y - sz, cx * axis.z + sy⟩
    r1 := ⟨cx * axis.y + sz, cy * axis.y + c, cy * axis.z - sx⟩
    r2 := ⟨cx * axis.z - sy, cy * axis.z + sx, cz * axis.z + c⟩ }

/-- `rotation_3d_matrix` (detail/math/orbit.hpp:40-47). -/
noncomputable def rotationMatrix (theta : ℝ) (axis : Point) : Mat3 :=
  let u := normalized axis
  toRotationMatrix theta ⟨-u.x, -u.y, -u.z⟩

/-- Product of a matrix and a column (Eigen, used at geodetic/swath.hpp:64). -/
noncomputable def Mat3.mul (m : Mat3) (v : Point) : Point :=
  ⟨m.r0.x * v.x + m.r0.y * v.y + m.r0.z * v.z, m.r1.x * v.x + m.r1.y * v.y + m.r1.z * v.z,
   m.r2.x * v.x + m.r2.y * v.y + m.r2.z * v.z⟩

/-- `transpose()` (Eigen, used at geodetic/swath.hpp:69). -/
def Mat3.transpose (m : Mat3) : Mat3 :=
  ⟨⟨m.r0.x, m.r1.x, m.r2.x⟩, ⟨m.r0.y, m.r1.y, m.r2.y⟩, ⟨m.r0.z, m.r1.z, m.r2.z⟩⟩

/-- The two points of the inner loop (geodetic/swath.hpp:60-70): right and left of the track, in Cartesian coordinates. -/
noncomputable def pixels (loc dir : Point) (radius deltaAc halfGap : ℝ) (j : Nat) : Point × Point :=
  let m := rotationMatrix (-((j : ℝ) * deltaAc + halfGap) / radius) dir
  (m.mul loc, m.transpose.mul loc)

/-- The inner loop (geodetic/swath.hpp:60-75) for a row of the result; `none` is a pixel that is not written. -/
noncomputable def swathRow (co : Coordinates) (loc dir : Point) (radius deltaAc halfGap : ℝ) (halfSwath : Nat) : List (Option LLA) :=
  (List.range halfSwath).foldl (fun row j =>
      let q := pixels loc dir radius deltaAc halfGap j
      (row.set (halfSwath + j) (some (co.ecefToLla q.1))).set (halfSwath - j - 1) (some (co.ecefToLla q.2)))
    (List.replicate (2 * halfSwath) none)

/-- `calculate_swath` (geodetic/swath.hpp:36-78): the rows of the swath. A negative size of the matrices is undefined behaviour. -/
noncomputable def calculateSwath (bits : Nat) (lon lat : List ℝ) (deltaAc halfGap : ℝ) (halfSwath : Int) (spheroid : Option Spheroid) :
    Out (List (List (Option LLA))) :=
  if lon.length ≠ lat.length then .error .exn
  else do
    let s := spheroid.getD Spheroid.wgs84
    let co := Coordinates.make (some s)
    let loc := locations bits co lon lat
    let dir ← satelliteDirection loc
    if halfSwath < 0 then .error .ub
    else .ok ((List.range loc.length).map fun i =>
      swathRow co (loc.getD i origin) (dir.getD i origin) (s.geocentricRadius bits (lat.getD i 0)) deltaAc halfGap halfSwath.toNat)

end Pyinterp.Swath
