import Verif.Model.Interp1D

/-
Model of src/pyinterp/core/include/pyinterp/detail/interpolation/cspline_periodic.hpp.
-/
namespace Pyinterp.Interp

variable {K : Type} [Field K] [LinearOrder K]

/-- The members of `CSplinePeriodic` whose contents are used by the next calls: `A_` (`rows` rows
and columns), `b_` and `x_` (cspline_base.hpp:64-66). `alpha_`, `gamma_`, `delta_`, `c_` and `z_`
are rewritten before being read. -/
structure PeriodicState (K : Type) where
  rows : Nat
  A : Nat → Nat → K
  b : Nat → K
  x : Buf K

/-- `gamma_(i)`, `i ≤ size - 3` (cspline_periodic.hpp:52, 57). -/
def cycGamma (A : Nat → Nat → K) : Nat → K
  | 0 => A 0 1 / A 0 0
  | i + 1 => A (i + 1) (i + 2) / (A (i + 1) (i + 1) - A (i + 1) i * cycGamma A i)

/-- `alpha_(i)`, `i ≤ size - 2` (cspline_periodic.hpp:51, 56, 66). -/
def cycAlpha (A : Nat → Nat → K) : Nat → K
  | 0 => A 0 0
  | i + 1 => A (i + 1) (i + 1) - A (i + 1) i * cycGamma A i

/-- `delta_(i)`, `i ≤ size - 3` (cspline_periodic.hpp:53, 58); `n` is `size`. -/
def cycDelta (A : Nat → Nat → K) (n : Nat) : Nat → K
  | 0 => A (n - 1) 0 / cycAlpha A 0
  | i + 1 => -cycDelta A n i * A (i + 1) i / cycAlpha A (i + 1)

/-- `gamma_(size - 2)` (cspline_periodic.hpp:68-70). -/
def cycGammaLast (A : Nat → Nat → K) (n : Nat) : K :=
  (A (n - 2) (n - 1) - A (n - 2) (n - 3) * cycDelta A n (n - 3)) / cycAlpha A (n - 2)

/-- The sum of the `k` first products `f(i)` (the `sum()` of Eigen; its order does not matter
here). -/
def sumTo (f : Nat → K) : Nat → K
  | 0 => 0
  | k + 1 => sumTo f k + f k

/-- `alpha_(size - 1)` (cspline_periodic.hpp:61-64, 71-72). -/
def cycAlphaLast (A : Nat → Nat → K) (n : Nat) : K :=
  A (n - 1) (n - 1) - sumTo (fun i => cycAlpha A i * cycDelta A n i * cycDelta A n i) (n - 2) -
    cycAlpha A (n - 2) * cycGammaLast A n * cycGammaLast A n

/-- `z_(i)`, `i ≤ size - 2` (cspline_periodic.hpp:74-77). -/
def cycZ (A : Nat → Nat → K) (b : Nat → K) : Nat → K
  | 0 => b 0
  | i + 1 => b (i + 1) - cycZ A b i * cycGamma A i

/-- `x[size - 1]` (cspline_periodic.hpp:79-85). -/
def cycLast (A : Nat → Nat → K) (b : Nat → K) (n : Nat) : K :=
  (b (n - 1) - sumTo (fun i => cycDelta A n i * cycZ A b i) (n - 2) -
    cycGammaLast A n * cycZ A b (n - 2)) / cycAlphaLast A n

/-- `cycBack j` is `x[size - 2 - j]` (cspline_periodic.hpp:86-91). -/
def cycBack (A : Nat → Nat → K) (b : Nat → K) (n : Nat) : Nat → K
  | 0 => cycZ A b (n - 2) / cycAlpha A (n - 2) - cycGammaLast A n * cycLast A b n
  | j + 1 => cycZ A b (n - 3 - j) / cycAlpha A (n - 3 - j) -
      cycGamma A (n - 3 - j) * cycBack A b n j - cycDelta A n (n - 3 - j) * cycLast A b n

/-- `solve_symmetric_cyclic_tridiagonal` (cspline_periodic.hpp:39-92): `x[i]`. With two rows,
`A_(0, -1)` is read. -/
def cycSolve (A : Nat → Nat → K) (b : Nat → K) (n : Nat) : Out (Nat → K) :=
  if n = 1 then .ok fun _ => b 0 / A 0 0
  else if n < 3 then .error .ub
  else .ok fun i => if i = n - 1 then cycLast A b n else cycBack A b n (n - 2 - i)

/-- The elements of `A_` written by `compute_coefficients` (cspline_periodic.hpp:112-134): the
last write wins. -/
def cycMatrix (xa : List K) (old : Nat → Nat → K) (r s : Nat) : K :=
  let size := xa.length
  let i := size - 2
  if r = 0 ∧ s = i then width xa 0
  else if r = i ∧ s = i then 2 * (width xa i + width xa 0)
  else if r = i ∧ s = 0 then width xa 0
  else if s = r + 1 ∧ r < size - 2 then width xa (r + 1)
  else if r = s ∧ r < size - 2 then 2 * (width xa r + width xa (r + 1))
  else if r = s + 1 ∧ s < size - 2 then width xa r
  else old r s

/-- The elements of `b_` (cspline_periodic.hpp:122, 135). -/
def cycRhs (xa ya : List K) (old : Nat → K) (r : Nat) : K :=
  let i := xa.length - 2
  if r = i then
    3 * ((at' ya 1 - at' ya 0) * (if width xa 0 ≠ 0 then 1 / width xa 0 else 0) -
      (at' ya (i + 1) - at' ya i) * (if width xa i ≠ 0 then 1 / width xa i else 0))
  else if r < i then csplineRhs xa ya r
  else old r

/-- `CSplinePeriodic::compute_coefficients` (cspline_periodic.hpp:94-138). The buffers only grow,
and the solver takes its size from `A_`. -/
def periodicCompute (junk : Nat → K) (st : PeriodicState K) (xa ya : List K) :
    Out (PeriodicState K) := do
  checkSizes 2 xa ya
  let size := xa.length
  let st := if st.x.size < size then
      ⟨size - 1, fun _ _ => 0, junk, ⟨size, fun _ => 0⟩⟩ else st
  let A := cycMatrix xa st.A
  let b := cycRhs xa ya st.b
  let sol ← cycSolve A b st.rows
  let x ← st.x.fill 1 (st.rows + 1) (fun i => sol (i - 1))
  let x ← x.fill 0 1 (fun _ => x.val (size - 1))
  .ok ⟨st.rows, A, b, x⟩

/-- `operator()` (interpolator_1d.hpp:25-28) for `CSplinePeriodic`. -/
def csplinePeriodic (junk : Nat → K) (st : PeriodicState K) (xa ya : List K) (x : K) :
    Out (Option K × PeriodicState K) := do
  let st' ← periodicCompute junk st xa ya
  let r ← csplineEval st'.x xa ya x
  .ok (r, st')

/-- `derivative` (interpolator_1d.hpp:46-49) for `CSplinePeriodic`. -/
def csplinePeriodicDerivative (junk : Nat → K) (st : PeriodicState K) (xa ya : List K) (x : K) :
    Out (Option K × PeriodicState K) := do
  let st' ← periodicCompute junk st xa ya
  let r ← csplineDerivEval st'.x xa ya x
  .ok (r, st')

end Pyinterp.Interp
