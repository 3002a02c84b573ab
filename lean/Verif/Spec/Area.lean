import Mathlib.Algebra.Order.Field.Basic

/-
What is asked from the area of polygons of a geometry library (on the plane or on a spheroid).
-/
namespace Pyinterp.Spec

variable {K : Type} [Field K] [LinearOrder K]

/-- The area of a closed quadrilateral is negative in one of the two orientations at most, and the
cells made by two different abscissas of `lx` and two different ordinates of `ly` have an area. -/
structure AreaOk (area : List (K × K) → K) (lx ly : List K) : Prop where
  reverse : ∀ a b c d, area [a, b, c, d, a] < 0 → 0 < area [a, d, c, b, a]
  cell : ∀ x0 ∈ lx, ∀ x1 ∈ lx, ∀ y0 ∈ ly, ∀ y1 ∈ ly, x0 ≠ x1 → y0 ≠ y1 →
    area [(x0, y0), (x0, y1), (x1, y1), (x1, y0), (x0, y0)] ≠ 0

end Pyinterp.Spec
