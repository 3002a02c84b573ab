import Mathlib.Algebra.Order.Field.Basic
import Verif.Spec.Axis

/-
Specification vocabulary for interpolation in the cells of a grid.
-/
namespace Pyinterp.Spec

variable {K : Type} [Field K] [LinearOrder K]

/-- The interval between the coordinates number `i` and `i + 1` contains `c`. -/
def InInterval {T : Type} [LinearOrder T] [AddCommGroup T] (l : List T) (c : T) (i : Nat) : Prop :=
  ∃ h : i + 1 < l.length, Between (l[i]'(Nat.lt_of_succ_lt h)) c l[i + 1]

/-- The coordinate number `a` is an end of an interval that contains `c`. -/
def Surrounds {T : Type} [LinearOrder T] [AddCommGroup T] (l : List T) (c : T) (a : Nat) : Prop :=
  ∃ i, InInterval l c i ∧ (a = i ∨ a = i + 1)

/-- `r` is the value at `x` of the straight line through `(x0, q0)` and `(x1, q1)`. -/
def OnLine (x0 x1 q0 q1 x r : K) : Prop :=
  r * (x1 - x0) = (x1 - x) * q0 + (x - x0) * q1

/-- `r` is the value at `(x, y)` of the function `a + b x + c y + d x y` that takes the values
`q00`, `q01`, `q10`, `q11` at the corners `(x0, y0)`, `(x0, y1)`, `(x1, y0)`, `(x1, y1)`. -/
def OnBilinear (x0 x1 y0 y1 q00 q01 q10 q11 x y r : K) : Prop :=
  ∃ a b c d : K, q00 = a + b * x0 + c * y0 + d * (x0 * y0) ∧
    q01 = a + b * x0 + c * y1 + d * (x0 * y1) ∧
    q10 = a + b * x1 + c * y0 + d * (x1 * y0) ∧
    q11 = a + b * x1 + c * y1 + d * (x1 * y1) ∧
    r = a + b * x + c * y + d * (x * y)

/-- `r` is between two of the values. -/
def InRange (qs : List K) (r : K) : Prop := (∃ q ∈ qs, q ≤ r) ∧ ∃ q ∈ qs, r ≤ q

/-- `r` is a weighted mean, with non-negative weights, of the values. -/
def IsMean (qs : List K) (r : K) : Prop :=
  ∃ w : List K, w.length = qs.length ∧ (∀ v ∈ w, 0 ≤ v) ∧ w.sum = 1 ∧
    r = (List.zipWith (· * ·) w qs).sum

end Pyinterp.Spec
