import Verif.Spec.Spline

/-
Specification vocabulary for the interpolation of a table by splines.
-/
namespace Pyinterp.Spec

open Polynomial
variable {K : Type} [Field K] [LinearOrder K]

/-- `v` is the value at `x` of the natural cubic spline through the points `(xs[i], vs[i])`. -/
def SplineAt (xs vs : List K) (x v : K) : Prop :=
  ∃ (P : Nat → K[X]) (i : Nat) (h : i + 1 < xs.length), NaturalSpline xs vs P ∧
    xs[i] ≤ x ∧ x ≤ xs[i + 1] ∧ v = (P i).eval x

/-- `v` is the value at `x` of the periodic cubic spline through the points `(xs[i], vs[i])`. -/
def PeriodicAt (xs vs : List K) (x v : K) : Prop :=
  ∃ (P : Nat → K[X]) (i : Nat) (h : i + 1 < xs.length), PeriodicSpline xs vs P ∧
    xs[i] ≤ x ∧ x ≤ xs[i + 1] ∧ v = (P i).eval x

/-- The values of the table `z` for the ordinate number `k`. -/
def tableColumn (z : Nat → Nat → K) (n k : Nat) : List K := (List.range n).map fun (i : Nat) => z i k

/-- The values of the table `z` for the abscissa number `k`. -/
def tableRow (z : Nat → Nat → K) (n k : Nat) : List K := (List.range n).map fun (j : Nat) => z k j

/-- `v` is obtained by a one-dimensional interpolation `I` of each column at `x`, followed by the
interpolation at `y` of the values obtained. -/
def ColumnsFirst (I : List K → List K → K → K → Prop) (xs ys : List K) (z : Nat → Nat → K)
    (x y v : K) : Prop :=
  ∃ ws : List K, ws.length = ys.length ∧
    (∀ k (h : k < ws.length), I xs (tableColumn z xs.length k) x ws[k]) ∧ I ys ws y v

/-- `v` is obtained by a one-dimensional interpolation `I` of each row at `y`, followed by the
interpolation at `x` of the values obtained. -/
def RowsFirst (I : List K → List K → K → K → Prop) (xs ys : List K) (z : Nat → Nat → K)
    (x y v : K) : Prop :=
  ∃ ws : List K, ws.length = xs.length ∧
    (∀ k (h : k < ws.length), I ys (tableRow z ys.length k) y ws[k]) ∧ I xs ws x v

/-- The abscissa is between the first and the last one. -/
def Within (xs : List K) (x : K) : Prop := (∃ v ∈ xs, v ≤ x) ∧ ∃ v ∈ xs, x ≤ v

end Pyinterp.Spec
