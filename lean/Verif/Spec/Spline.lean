import Mathlib.Algebra.Polynomial.Derivative
import Mathlib.Algebra.Order.Field.Basic

/-
Specification vocabulary for piecewise cubic interpolation.
-/
namespace Pyinterp.Spec

open Polynomial

/-- `P i` is the polynomial on the interval `[xs[i], xs[i + 1]]`: cubic pieces through the
points with a continuous first derivative. -/
structure CubicPieces {K : Type} [Field K] (xs ys : List K) (P : Nat → K[X]) : Prop where
  degree : ∀ i, (P i).natDegree ≤ 3
  left : ∀ i (h : i + 1 < xs.length) (h' : i < ys.length), (P i).eval (xs[i]'(by omega)) = ys[i]
  right : ∀ i (h : i + 1 < xs.length) (h' : i + 1 < ys.length), (P i).eval xs[i + 1] = ys[i + 1]
  c1 : ∀ i (h : i + 2 < xs.length), (derivative (P i)).eval (xs[i + 1]'(by omega)) =
    (derivative (P (i + 1))).eval (xs[i + 1]'(by omega))

/-- The natural cubic spline: also a continuous second derivative, null at both ends. -/
structure NaturalSpline {K : Type} [Field K] (xs ys : List K) (P : Nat → K[X]) : Prop
    extends CubicPieces xs ys P where
  c2 : ∀ i (h : i + 2 < xs.length), (derivative (derivative (P i))).eval (xs[i + 1]'(by omega)) =
    (derivative (derivative (P (i + 1)))).eval (xs[i + 1]'(by omega))
  first : ∀ h : 0 < xs.length, (derivative (derivative (P 0))).eval xs[0] = 0
  last : ∀ (i) (h : i + 2 = xs.length),
    (derivative (derivative (P i))).eval (xs[i + 1]'(by omega)) = 0

/-- The periodic cubic spline: continuous first and second derivatives, and the same first and
second derivatives at both ends. -/
structure PeriodicSpline {K : Type} [Field K] (xs ys : List K) (P : Nat → K[X]) : Prop
    extends CubicPieces xs ys P where
  c2 : ∀ i (h : i + 2 < xs.length), (derivative (derivative (P i))).eval (xs[i + 1]'(by omega)) =
    (derivative (derivative (P (i + 1)))).eval (xs[i + 1]'(by omega))
  wrap1 : ∀ (i) (h : i + 2 = xs.length), (derivative (P 0)).eval (xs[0]'(by omega)) =
    (derivative (P i)).eval (xs[i + 1]'(by omega))
  wrap2 : ∀ (i) (h : i + 2 = xs.length), (derivative (derivative (P 0))).eval (xs[0]'(by omega)) =
    (derivative (derivative (P i))).eval (xs[i + 1]'(by omega))

/-- The points are on a straight line. -/
def Collinear {K : Type} [Field K] (xa ya : List K) : Prop :=
  ∃ a b : K, ∀ i (h : i < xa.length) (h' : i < ya.length), ya[i] = a + b * xa[i]

end Pyinterp.Spec
