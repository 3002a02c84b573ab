import Mathlib.LinearAlgebra.Matrix.NonsingularInverse
import Mathlib.Data.Real.Basic

/-
Specification of the solvers of linear systems of Eigen.
-/
namespace Pyinterp.Spec
open Matrix

/-- The solver solves the systems whose matrix is invertible (contract of `FullPivLU::solve` and `LDLT::solve` in exact
arithmetic); nothing is known about the others. -/
def Solver {n : Nat} (solve : Matrix (Fin n) (Fin n) ℝ → (Fin n → ℝ) → Fin n → ℝ) : Prop :=
  ∀ A y, A.det ≠ 0 → A *ᵥ solve A y = y

end Pyinterp.Spec
