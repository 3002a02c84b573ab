import Mathlib.Analysis.SpecialFunctions.Trigonometric.Inverse
import Mathlib.Analysis.SpecialFunctions.Log.Basic
import Mathlib.Analysis.SpecialFunctions.Pow.Real
import Verif.Model.Trig
import Verif.Model.RTree

/-
Model of src/pyinterp/core/include/pyinterp/detail/geodetic/spheroid.hpp and
src/pyinterp/core/include/pyinterp/detail/geodetic/coordinates.hpp, in real numbers (no rounding).
-/
namespace Pyinterp.Geodetic
open Real Pyinterp.Trig Pyinterp.RTree

/-- `Spheroid` (detail/geodetic/spheroid.hpp:16-211): the semi-major axis and the flattening. -/
structure Spheroid where
  a : ℝ
  f : ℝ

/-- The default spheroid: WGS84 (detail/geodetic/spheroid.hpp:208-210). -/
noncomputable def Spheroid.wgs84 : Spheroid := ⟨6378137, 1 / 298.257223563⟩

/-- `semi_minor_axis` (detail/geodetic/spheroid.hpp:66-71). -/
noncomputable def Spheroid.b (s : Spheroid) : ℝ := s.a * (1 - s.f)

/-- `first_eccentricity_squared` (detail/geodetic/spheroid.hpp:73-80). -/
noncomputable def Spheroid.e2 (s : Spheroid) : ℝ :=
  let a2 := s.a * s.a
  (a2 - s.b * s.b) / a2

/-- `second_eccentricity_squared` (detail/geodetic/spheroid.hpp:82-89). -/
noncomputable def Spheroid.ep2 (s : Spheroid) : ℝ :=
  let b2 := s.b * s.b
  (s.a * s.a - b2) / b2

/-- `equatorial_circumference` (detail/geodetic/spheroid.hpp:91-99). -/
noncomputable def Spheroid.circumference (s : Spheroid) (major : Bool) : ℝ :=
  2 * π * (if major then s.a else s.b)

/-- `polar_radius_of_curvature` (detail/geodetic/spheroid.hpp:101-107). -/
noncomputable def Spheroid.polarRadius (s : Spheroid) : ℝ := s.a * s.a / s.b

/-- `equatorial_radius_of_curvature` (detail/geodetic/spheroid.hpp:109-115). -/
noncomputable def Spheroid.equatorialRadius (s : Spheroid) : ℝ := s.b * s.b / s.a

/-- `axis_ratio` (detail/geodetic/spheroid.hpp:117-122). -/
noncomputable def Spheroid.axisRatio (s : Spheroid) : ℝ := s.b / s.a

/-- `linear_eccentricity` (detail/geodetic/spheroid.hpp:124-130). -/
noncomputable def Spheroid.linearEccentricity (s : Spheroid) : ℝ := √(s.a * s.a - s.b * s.b)

/-- `mean_radius` (detail/geodetic/spheroid.hpp:132-137). -/
noncomputable def Spheroid.meanRadius (s : Spheroid) : ℝ := (2 * s.a + s.b) / 3

/-- `authalic_radius` (detail/geodetic/spheroid.hpp:139-149); `none` is the NaN of the division 0/0 of a sphere. -/
noncomputable def Spheroid.authalicRadius (s : Spheroid) : Option ℝ :=
  if s.linearEccentricity = 0 then none
  else some √((s.a * s.a + s.a * (s.b * s.b) / s.linearEccentricity *
    log ((s.a + s.linearEccentricity) / s.b)) * 0.5)

/-- `volumetric_radius` (detail/geodetic/spheroid.hpp:151-156). -/
noncomputable def Spheroid.volumetricRadius (s : Spheroid) : ℝ := (s.a * s.a * s.b) ^ (1 / 3 : ℝ)

/-- `geocentric_radius` (detail/geodetic/spheroid.hpp:158-171). -/
noncomputable def Spheroid.geocentricRadius (bits : Nat) (s : Spheroid) (latitude : ℝ) : ℝ :=
  let c := cosd bits latitude
  let t := sind bits latitude
  √(((s.a * s.a * c) ^ 2 + (s.b * s.b * t) ^ 2) / ((s.a * c) ^ 2 + (s.b * t) ^ 2))

/-- `operator==` (detail/geodetic/spheroid.hpp:177-180). -/
noncomputable def Spheroid.beq (s t : Spheroid) : Bool := decide (s.a = t.a) && decide (s.f = t.f)

/-- Longitude and latitude in degrees, altitude in metres: `EquatorialPoint3D`. -/
structure LLA where
  lon : ℝ
  lat : ℝ
  alt : ℝ

/-- `Coordinates` (detail/geodetic/coordinates.hpp:16-136): the constants computed by the constructor (19-38). -/
structure Coordinates where
  a : ℝ
  f : ℝ
  e2 : ℝ
  a1 : ℝ
  a2 : ℝ
  a3 : ℝ
  a4 : ℝ
  a5 : ℝ
  a6 : ℝ

/-- The constructor (detail/geodetic/coordinates.hpp:19-38). -/
noncomputable def Coordinates.make (spheroid : Option Spheroid) : Coordinates :=
  let s := spheroid.getD Spheroid.wgs84
  let a1 := s.a * s.e2
  let a2 := a1 * a1
  let a3 := a1 * (s.e2 * 0.5)
  { a := s.a, f := s.f, e2 := s.e2, a1 := a1, a2 := a2, a3 := a3, a4 := 2.5 * a2, a5 := a1 + a3, a6 := 1 - s.e2 }

/-- `spheroid()` (detail/geodetic/coordinates.hpp:55-58). -/
def Coordinates.spheroid (c : Coordinates) : Spheroid := ⟨c.a, c.f⟩

/-- `lla_to_ecef` (detail/geodetic/coordinates.hpp:110-122). -/
noncomputable def Coordinates.llaToEcef (bits : Nat) (c : Coordinates) (p : LLA) : Point :=
  let x := sincosd bits p.lon
  let y := sincosd bits p.lat
  let n := c.a / √(1 - c.e2 * (y.1 * y.1))
  ⟨(n + p.alt) * y.2 * x.2, (n + p.alt) * y.2 * x.1, (n * (1 - c.e2) + p.alt) * y.1⟩

/-- The first approximation of the latitude in the northern hemisphere (detail/geodetic/coordinates.hpp:66-95): latitude, sine,
cosine, square of the sine. -/
noncomputable def Coordinates.guess (co : Coordinates) (w2 zp : ℝ) : ℝ × ℝ × ℝ × ℝ :=
  let w := √w2
  let invR2 := 1 / (w2 + zp * zp)
  let invR := √invR2
  let s2 := zp * zp * invR2
  let c2 := w2 * invR2
  let u := co.a2 * invR
  let v := co.a3 - co.a4 * invR
  if c2 > 0.3 then
    let s := zp * invR * (1 + c2 * (co.a1 + u + s2 * v) * invR)
    (arcsin s, s, √(1 - s * s), s * s)
  else
    let c := w * invR * (1 - s2 * (co.a5 - u - c2 * v) * invR)
    (arccos c, √(1 - c * c), c, 1 - c * c)

/-- The correction of the latitude and the altitude (detail/geodetic/coordinates.hpp:97-107): the latitude in radians in the
northern hemisphere and the altitude. -/
noncomputable def Coordinates.correct (co : Coordinates) (w zp : ℝ) (g0 : ℝ × ℝ × ℝ × ℝ) : ℝ × ℝ :=
  let s := g0.2.1
  let c := g0.2.2.1
  let ss := g0.2.2.2
  let g := 1 - co.e2 * ss
  let rg := co.a / √g
  let rf := co.a6 * rg
  let u := w - rg * c
  let v := zp - rf * s
  let f := c * u + s * v
  let m := c * v - s * u
  let p := m / (rf / g + f)
  (g0.1 + p, f + m * p * 0.5)

/-- `ecef_to_lla` (detail/geodetic/coordinates.hpp:60-108). Simplification: `zp * zp` is used for `sqr(z)` in the first
approximation (equal, since `zp = |z|`). -/
noncomputable def Coordinates.ecefToLla (co : Coordinates) (p : Point) : LLA :=
  let zp := |p.z|
  let w2 := p.x * p.x + p.y * p.y
  let r := co.correct √w2 zp (co.guess w2 zp)
  ⟨atan2d p.y p.x, degrees (if p.z < 0 then -r.1 else r.1), r.2⟩

/-- `transform` (detail/geodetic/coordinates.hpp:124-132). -/
noncomputable def Coordinates.transform (bits : Nat) (co target : Coordinates) (p : LLA) : LLA :=
  target.ecefToLla (co.llaToEcef bits p)

/-- `geodetic::Coordinates::getstate` and `geodetic::Spheroid::getstate` (geodetic/coordinates.hpp:172-174, geodetic/spheroid.hpp):
the semi-major axis and the flattening. -/
def Coordinates.getstate (co : Coordinates) : ℝ × ℝ := (co.spheroid.a, co.spheroid.f)

/-- `geodetic::Coordinates::setstate` (geodetic/coordinates.hpp:176-180). -/
noncomputable def Coordinates.setstate (st : ℝ × ℝ) : Coordinates := Coordinates.make (some ⟨st.1, st.2⟩)

end Pyinterp.Geodetic
