import Verif.Model.RTree

/-
Specification for geodetic coordinates: the ellipsoid of revolution, its points and its normals.
-/
namespace Pyinterp.Spec
open Pyinterp.RTree

/-- The point is on the ellipsoid of revolution with the semi-axes `a` (equator) and `b` (poles). -/
def OnEllipsoid (a b : ℝ) (p : Point) : Prop := (p.x ^ 2 + p.y ^ 2) / a ^ 2 + p.z ^ 2 / b ^ 2 = 1

/-- `u` is the outward unit normal of this ellipsoid at its point `p`: a vector of length one, in the direction of the gradient of
the equation of the ellipsoid. -/
def UnitNormal (a b : ℝ) (p u : Point) : Prop :=
  u.x ^ 2 + u.y ^ 2 + u.z ^ 2 = 1 ∧
  ∃ c > 0, p.x / a ^ 2 = c * u.x ∧ p.y / a ^ 2 = c * u.y ∧ p.z / b ^ 2 = c * u.z

end Pyinterp.Spec
