import Mathlib.Algebra.Order.Ring.Rat
import Mathlib.Algebra.Order.Group.Unbundled.Abs

/-
Multilinear interpolation in a cell, in exact arithmetic.
-/
namespace Pyinterp.Spec

/-- The value at the fraction `t` of the way from `a` to `b`. -/
def lerp (t a b : ℚ) : ℚ := (1 - t) * a + t * b

/-- The fraction of the way from `a` to `b` at which `c` is. -/
def frac (c a b : ℚ) : ℚ := (c - a) / (b - a)

/-- Bilinear interpolation of the values `V` of the corners `(i0, i1) x (j0, j1)`. -/
def bil (t u : ℚ) (V : ℕ → ℕ → ℚ) (i0 i1 j0 j1 : ℕ) : ℚ :=
  lerp u (lerp t (V i0 j0) (V i1 j0)) (lerp t (V i0 j1) (V i1 j1))

/-- Trilinear interpolation. -/
def tri (t u w : ℚ) (V : ℕ → ℕ → ℕ → ℚ) (i0 i1 j0 j1 k0 k1 : ℕ) : ℚ :=
  lerp w (bil t u (fun i j => V i j k0) i0 i1 j0 j1) (bil t u (fun i j => V i j k1) i0 i1 j0 j1)

/-- Quadrilinear interpolation. -/
def quad (t u w s : ℚ) (V : ℕ → ℕ → ℕ → ℕ → ℚ) (i0 i1 j0 j1 k0 k1 l0 l1 : ℕ) : ℚ :=
  lerp s (tri t u w (fun i j k => V i j k l0) i0 i1 j0 j1 k0 k1) (tri t u w (fun i j k => V i j k l1) i0 i1 j0 j1 k0 k1)

/-- `T` is obtained from the values `A` at `a` and `B` at `b` for the coordinate `c`: linear interpolation, or the value at the
nearest of `a` and `b` (up to the relative error `tol` of the distances). -/
def Along (nearest : Bool) (tol c a b A B T : ℚ) : Prop :=
  if nearest then (T = A ∧ |c - a| ≤ |c - b| * (1 + tol)) ∨ (T = B ∧ |c - b| ≤ |c - a| * (1 + tol))
  else T = lerp (frac c a b) A B

end Pyinterp.Spec
