import Mathlib.Analysis.SpecialFunctions.Log.Basic
import Mathlib.Analysis.SpecialFunctions.Sqrt
import Mathlib.LinearAlgebra.Matrix.NonsingularInverse
import Verif.Model.RTree

/-
Model of src/pyinterp/core/include/pyinterp/detail/math/radial_basis_functions.hpp, of
src/pyinterp/core/include/pyinterp/detail/math/kriging.hpp, and of the methods of
src/pyinterp/core/include/pyinterp/detail/geometry/rtree.hpp that use them, with real numbers.

The solvers of linear systems (`Eigen::FullPivLU`, `Eigen::LDLT`) are not part of the repository:
the functions take the solver as an argument and the theorems hold for all the solvers that solve
the systems whose matrix is invertible (`Solver` in `Spec/Interpolant.lean`).
-/
namespace Pyinterp.RTree
open Real Matrix

/-- `RadialBasisFunction` (detail/math/radial_basis_functions.hpp:15-23). -/
inductive Rbf where
  | cubic | gaussian | inverseMultiquadric | linear | multiquadric | thinPlate
  deriving DecidableEq, Repr

/-- The radial functions, `function_(r, epsilon)` for one distance (detail/math/radial_basis_functions.hpp:133-167). -/
noncomputable def Rbf.apply (f : Rbf) (r epsilon : ℝ) : ℝ :=
  match f with
  | .cubic => r ^ 3
  | .gaussian => exp (-(epsilon * r) ^ 2)
  | .inverseMultiquadric => 1 / √((epsilon * r) ^ 2 + 1)
  | .linear => r
  | .multiquadric => √((epsilon * r) ^ 2 + 1)
  | .thinPlate => if r = 0 then 0 else r ^ 2 * log r

/-- `average` (detail/math/radial_basis_functions.hpp:113-125): the mean distance between the nodes; `none` (0/0) for less than
two nodes. `i < j` are the pairs of the two loops. -/
noncomputable def average {n : Nat} (r : Matrix (Fin n) (Fin n) ℝ) : Option ℝ :=
  if n ≤ 1 then none
  else some ((∑ i, ∑ j, if i < j then r i j else 0) / ((n : ℝ) * ((n : ℝ) - 1) * 0.5))

/-- The value of `epsilon` used (detail/math/radial_basis_functions.hpp:47-48, 87-89): the inverse of the argument, or of the average
distance between the nodes; `none` is a value that is not finite. -/
noncomputable def usedEpsilon {n : Nat} (epsilon : Option ℝ) (r : Matrix (Fin n) (Fin n) ℝ) : Option ℝ :=
  match epsilon with
  | some e => if e = 0 then none else some (1 / e)
  | none => (average r).bind fun a => if a = 0 then none else some (1 / a)

/-- Does the function use `epsilon` (detail/math/radial_basis_functions.hpp:133-167)? -/
def Rbf.adjustable : Rbf → Bool
  | .gaussian | .inverseMultiquadric | .multiquadric => true
  | _ => false

/-- `distance_matrix(xk, xk)` (detail/math/radial_basis_functions.hpp:169-183). -/
noncomputable def distanceMatrix {n : Nat} (x : Fin n → Point) : Matrix (Fin n) (Fin n) ℝ := fun i j => distance (x i) (x j)

/-- `interpolate(xk, yk, xi)` for one point `xi` (detail/math/radial_basis_functions.hpp:80-101; the solver, 185-190). `none` is NaN: an infinite or
undefined `epsilon` in a function that uses it. -/
noncomputable def rbfInterpolate {n : Nat} (solve : Matrix (Fin n) (Fin n) ℝ → (Fin n → ℝ) → Fin n → ℝ) (f : Rbf)
    (epsilon : Option ℝ) (smooth : ℝ) (xk : Fin n → Point) (yk : Fin n → ℝ) (xi : Point) : Option ℝ :=
  let r := distanceMatrix xk
  let run (e : ℝ) : ℝ :=
    let A : Matrix (Fin n) (Fin n) ℝ := Matrix.of fun i j => f.apply (r i j) e
    let A := if smooth ≠ 0 then A - smooth • (1 : Matrix (Fin n) (Fin n) ℝ) else A
    (fun j => f.apply (distance xi (xk j)) e) ⬝ᵥ solve A yk
  if f.adjustable then (usedEpsilon epsilon r).map run else some (run 0)

/-- `radial_basis_function` (detail/geometry/rtree.hpp:495-516): the value and the number of neighbours. -/
noncomputable def rbf (solve : (n : Nat) → Matrix (Fin n) (Fin n) ℝ → (Fin n → ℝ) → Fin n → ℝ) (f : Rbf) (epsilon : Option ℝ)
    (smooth : ℝ) (point : Point) (near : List Item) (radius : Option ℝ) (within : Bool) : Option ℝ × Nat :=
  let l := nearest point near radius within
  if l.length = 0 then (none, 0)
  else (rbfInterpolate (solve l.length) f epsilon smooth (fun i => (l.get i).pt) (fun i => (l.get i).val) point, l.length)

/-- `CovarianceFunction` (detail/math/kriging.hpp:126-136). -/
inductive Cov where
  | matern12 | matern32 | matern52 | whittleMatern | cauchy | exponential | spherical | gaussian | linear
  deriving DecidableEq, Repr

/-- The covariance functions of the distance `r` (detail/math/kriging.hpp:31-123). -/
noncomputable def Cov.apply (f : Cov) (r sigma lambda : ℝ) : ℝ :=
  match f with
  | .matern12 => sigma ^ 2 * exp (-r / lambda)
  | .matern32 => sigma ^ 2 * ((1 + √3 * (r / lambda)) * exp (-√3 * (r / lambda)))
  | .matern52 => sigma ^ 2 * ((1 + √5 * (r / lambda) + 5 / 3 * (r / lambda) ^ 2) * exp (-√5 * (r / lambda)))
  | .whittleMatern => sigma ^ 2 * (1 + √3 * r / lambda) * exp (-√3 * r / lambda)
  | .cauchy => sigma ^ 2 / (1 + (r / lambda) ^ 2)
  | .exponential => sigma ^ 2 * exp (-r / lambda)
  | .spherical => if r > lambda then 0 else sigma ^ 2 * (1 - 1.5 * r / lambda + 0.5 * (r / lambda) ^ 3)
  | .gaussian => sigma ^ 2 * exp (-r ^ 2 / lambda ^ 2)
  | .linear => sigma ^ 2 * r

/-- `Kriging::universal_kriging` (detail/math/kriging.hpp:204-223) with the tests of the constructor (191-196). -/
noncomputable def krige {n : Nat} (solve : Matrix (Fin n) (Fin n) ℝ → (Fin n → ℝ) → Fin n → ℝ) (f : Cov) (sigma lambda : ℝ)
    (x : Fin n → Point) (values : Fin n → ℝ) (query : Point) : Out ℝ :=
  if sigma ≤ 0 then .error .exn
  else if lambda ≤ 0 then .error .exn
  else
    let C : Matrix (Fin n) (Fin n) ℝ := Matrix.of fun i j => f.apply (distance (x i) (x j)) sigma lambda
    let c : Fin n → ℝ := fun i => f.apply (distance query (x i)) sigma lambda
    .ok (values ⬝ᵥ solve C c)

/-- `universal_kriging` (detail/geometry/rtree.hpp:348-365). -/
noncomputable def kriging (solve : (n : Nat) → Matrix (Fin n) (Fin n) ℝ → (Fin n → ℝ) → Fin n → ℝ) (f : Cov) (sigma lambda : ℝ)
    (point : Point) (near : List Item) (radius : Option ℝ) (within : Bool) : Out (Option ℝ × Nat) := do
  let l := nearest point near radius within
  if l.length = 0 then
    if sigma ≤ 0 ∨ lambda ≤ 0 then .error .exn else return (none, 0)
  else
    let v ← krige (solve l.length) f sigma lambda (fun i => (l.get i).pt) (fun i => (l.get i).val) point
    return (some v, l.length)

end Pyinterp.RTree
