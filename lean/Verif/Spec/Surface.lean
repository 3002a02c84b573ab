import Mathlib.MeasureTheory.Integral.IntervalIntegral.FundThmCalculus
import Mathlib.Analysis.SpecialFunctions.Sqrt
import Mathlib.Analysis.SpecialFunctions.Log.Deriv

/-
Area of a surface of revolution.
-/
namespace Pyinterp.Spec

open Real MeasureTheory

/-- The area of the surface obtained by turning the curve `r` around the axis, between the heights
`lo` and `hi`: the integral of the circumference times the element of length of the curve. -/
noncomputable def surfaceOfRevolution (r : ℝ → ℝ) (lo hi : ℝ) : ℝ :=
  ∫ t in lo..hi, 2 * π * r t * √(1 + deriv r t ^ 2)

/-- The distance to the axis of the points at the height `t` of the ellipsoid of revolution of
semi-axes `a` and `b`. -/
noncomputable def meridian (a b t : ℝ) : ℝ := a * √(1 - (t / b) ^ 2)

end Pyinterp.Spec
