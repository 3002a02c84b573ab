import Mathlib.Algebra.Order.Field.Basic
import Verif.Model.Base

/-
Model of src/pyinterp/core/include/pyinterp/detail/interpolation/*.hpp (1-D
interpolators). `T` is an ordered field `K`. The work buffers that an interpolator
keeps between two calls are modelled with the content left by the previous calls
(`Buf`), so that the independence from the previous calls is a theorem.
-/
namespace Pyinterp.Interp

variable {K : Type} [Field K] [LinearOrder K]

/-- `Interpolator::search` (interpolator.hpp:32-51). -/
def search (xa : List K) (x : K) : Option (Nat × Nat) :=
  let i := lowerBound (fun j => match xa[j]? with | some v => decide (v < x) | none => false)
    0 xa.length
  if i = xa.length then none
  else if i = 0 then (if xa[0]? = some x then some (0, 1) else none)
  else
    match xa[i - 1]?, xa[i]? with
    | some a, some b => if a < x ∧ x ≤ b then some (i - 1, i) else none
    | _, _ => none

/-- `Interpolator1D::compute_coefficients` (interpolator_1d.hpp:76-88). -/
def checkSizes (minSize : Nat) (xa ya : List K) : Out Unit :=
  if xa.length ≠ ya.length then .error .exn
  else if xa.length < minSize then .error .exn
  else .ok ()

/-! ### Linear -/

/-- `Linear::interpolate_` (linear.hpp:27-36); `none` is NaN. -/
def linearEval (xa ya : List K) (x : K) : Out (Option K) :=
  match search xa x with
  | none => .ok none
  | some (i0, i1) => do
    let y0 ← rd ya i0
    let y1 ← rd ya i1
    let x0 ← rd xa i0
    let x1 ← rd xa i1
    .ok (some (y0 + (y1 - y0) / (x1 - x0) * (x - x0)))

/-- `operator()` (interpolator_1d.hpp:25-28) for `Linear` (min_size: linear.hpp:18). -/
def linear (xa ya : List K) (x : K) : Out (Option K) := do
  checkSizes 2 xa ya
  linearEval xa ya x

/-- `Linear::derivative_` (linear.hpp:43-51) after the checks. -/
def linearDerivative (xa ya : List K) (x : K) : Out (Option K) := do
  checkSizes 2 xa ya
  match search xa x with
  | none => .ok none
  | some (i0, i1) => do
    let y0 ← rd ya i0
    let y1 ← rd ya i1
    let x0 ← rd xa i0
    let x1 ← rd xa i1
    .ok (some ((y1 - y0) / (x1 - x0)))

/-! ### Buffers -/

/-- A work vector: its size, and its contents (whatever is in memory). -/
structure Buf (K : Type) where
  size : Nat
  val : Nat → K

/-- Eigen's `resize` (not part of the repository): the new contents `junk` are not
specified. -/
def Buf.resize (junk : Nat → K) (n : Nat) : Buf K := ⟨n, junk⟩

/-- `buf(i)` -/
def Buf.rd (b : Buf K) (i : Nat) : Out K := if i < b.size then .ok (b.val i) else .error .ub

/-- `for (i = lo; i < hi; ++i) buf(i) = g(i)`. -/
def Buf.fill (b : Buf K) (lo hi : Nat) (g : Nat → K) : Out (Buf K) :=
  if hi ≤ lo ∨ hi ≤ b.size then
    .ok ⟨b.size, fun i => if lo ≤ i ∧ i < hi then g i else b.val i⟩
  else .error .ub

/-- Checked reads are used in the loops through this total reading; the loops only read
the abscissas and values below the size of the vectors (the sizes are equal after
`checkSizes`). -/
def at' (l : List K) (i : Nat) : K := l.getD i 0

/-! ### Steffen -/

/-- `Steffen::copysign` (steffen.hpp:46-48) -/
def copysign (x y : K) : K := if (x < 0 ∧ 0 < y) ∨ (0 < x ∧ y < 0) then -x else x

/-- Slope of the interval `i` (steffen.hpp:65, 76, 77, 89; akima.hpp:71). -/
def slope (xa ya : List K) (i : Nat) : K :=
  (at' ya (i + 1) - at' ya i) / (at' xa (i + 1) - at' xa i)

/-- `y_prime_[i]` (steffen.hpp:61-89) for `size` points. -/
def steffenSlope (xa ya : List K) (i : Nat) : K :=
  let size := xa.length
  if i = 0 then slope xa ya 0
  else if i = size - 1 then slope xa ya (size - 2)
  else
    let hi := at' xa (i + 1) - at' xa i
    let him1 := at' xa i - at' xa (i - 1)
    let si := slope xa ya i
    let sim1 := slope xa ya (i - 1)
    let pi := (sim1 * hi + si * him1) / (him1 + hi)
    (copysign 1 sim1 + copysign 1 si) * min |sim1| (min |si| (1 / 2 * |pi|))

/-- `Steffen::compute_coefficients` (steffen.hpp:54-90). -/
def steffenCompute (junk : Nat → K) (yPrime : Buf K) (xa ya : List K) : Out (Buf K) := do
  checkSizes 3 xa ya
  let b := if yPrime.size < xa.length then Buf.resize junk xa.length else yPrime
  b.fill 0 xa.length (steffenSlope xa ya)

/-- `Steffen::interpolate_` (steffen.hpp:93-109). -/
def steffenEval (yPrime : Buf K) (xa ya : List K) (x : K) : Out (Option K) :=
  match search xa x with
  | none => .ok none
  | some (i0, i1) => do
    let x0 ← rd xa i0
    let x1 ← rd xa i1
    let y0 ← rd ya i0
    let y1 ← rd ya i1
    let d0 ← yPrime.rd i0
    let d1 ← yPrime.rd i1
    let h := x - x0
    let hi := x1 - x0
    let si := (y1 - y0) / hi
    let a := (d0 + d1 - 2 * si) / hi / hi
    let b := (3 * si - 2 * d0 - d1) / hi
    .ok (some (y0 + h * (d0 + h * (b + h * a))))

/-- `Steffen::derivative_` (steffen.hpp:112-126). -/
def steffenDerivEval (yPrime : Buf K) (xa ya : List K) (x : K) : Out (Option K) :=
  match search xa x with
  | none => .ok none
  | some (i0, i1) => do
    let x0 ← rd xa i0
    let x1 ← rd xa i1
    let y0 ← rd ya i0
    let y1 ← rd ya i1
    let d0 ← yPrime.rd i0
    let d1 ← yPrime.rd i1
    let h := x - x0
    let hi := x1 - x0
    let si := (y1 - y0) / hi
    let a := (d0 + d1 - 2 * si) / hi / hi
    let b := (3 * si - 2 * d0 - d1) / hi
    .ok (some (d0 + h * (2 * b + h * 3 * a)))

/-- `operator()` (interpolator_1d.hpp:25-28) for `Steffen`, on an object whose buffer is
`yPrime`; also the buffer afterwards. -/
def steffen (junk : Nat → K) (yPrime : Buf K) (xa ya : List K) (x : K) :
    Out (Option K × Buf K) := do
  let b ← steffenCompute junk yPrime xa ya
  let r ← steffenEval b xa ya x
  .ok (r, b)

/-! ### Akima -/

/-- `boundary_condition` and the slopes (akima.hpp:26-31, 67-74; akima_periodic.hpp:18-23):
`m_[k]` for `k < size + 4` (the code calls `m[k - 2]`). -/
def akimaM (periodic : Bool) (xa ya : List K) (k : Nat) : K :=
  let size := xa.length
  let m : Nat → K := slope xa ya
  if k = 0 then (if periodic then m (size - 3) else 3 * m 0 - 2 * m 1)
  else if k = 1 then (if periodic then m (size - 2) else 2 * m 0 - m 1)
  else if k = size + 1 then (if periodic then m 0 else 2 * m (size - 2) - m (size - 3))
  else if k = size + 2 then (if periodic then m 1 else 3 * m (size - 2) - 2 * m (size - 3))
  else m (k - 2)

/-- `s_(ix)` (akima.hpp:76-91) from the slopes `m_`. -/
def akimaS (m : Nat → K) (size ix : Nat) : K :=
  if ix = 0 then m 2
  else if ix = 1 then (m 2 + m 4) * (1 / 2)
  else if ix = size - 2 then (m (size - 1) + m (size + 1)) * (1 / 2)
  else if ix = size - 1 then m (size + 1)
  else
    let denominator := |m (ix + 3) - m (ix + 2)| + |m (ix + 1) - m ix|
    if denominator ≠ 0 then
      (|m (ix + 3) - m (ix + 2)| * m (ix + 1) + |m (ix + 1) - m ix| * m (ix + 2)) / denominator
    else (m (ix + 1) + m (ix + 2)) * (1 / 2)

/-- The members of `Akima` (akima.hpp:22-23). -/
structure AkimaState (K : Type) where
  m : Buf K
  s : Buf K

/-- `Akima::compute_coefficients` (akima.hpp:58-92): the whole of `m_` up to
`m_[size + 2]` is written. -/
def akimaCompute (junk : Nat → K) (periodic : Bool) (st : AkimaState K) (xa ya : List K) :
    Out (AkimaState K) := do
  checkSizes 5 xa ya
  let size := xa.length
  let st := if st.m.size < size + 4 then
      ⟨Buf.resize junk (size + 4), Buf.resize junk size⟩ else st
  let m ← st.m.fill 0 (size + 3) (akimaM periodic xa ya)
  let s ← st.s.fill 0 size (akimaS (fun k => if k < size + 3 then m.val k else st.m.val k) size)
  .ok ⟨m, s⟩

/-- `Akima::interpolate_` (akima.hpp:95-109). Outside of the abscissas a `double` is thrown. -/
def akimaEval (st : AkimaState K) (xa ya : List K) (x : K) : Out K :=
  match search xa x with
  | none => .error .exn
  | some (i0, i1) => do
    let x0 ← rd xa i0
    let x1 ← rd xa i1
    let ai ← rd ya i0
    let s0 ← st.s.rd i0
    let s1 ← st.s.rd i1
    let m0 ← st.m.rd i0
    let dx := x1 - x0
    let h := x - x0
    let ci := (3 * m0 - 2 * s0 - s1) / dx
    let di := (s0 + s1 - 2 * m0) / (dx * dx)
    .ok (ai + h * (s0 + h * (ci + h * di)))

/-- `operator()` (interpolator_1d.hpp:25-28) for `Akima` and `AkimaPeriodic`. -/
def akima (junk : Nat → K) (periodic : Bool) (st : AkimaState K) (xa ya : List K) (x : K) :
    Out (K × AkimaState K) := do
  let st' ← akimaCompute junk periodic st xa ya
  let r ← akimaEval st' xa ya x
  .ok (r, st')

/-! ### Polynomial -/

/-- One pass of the divided differences (polynomial.hpp:67-72) for the coefficient `j`:
the assignment of a segment reads the segment it writes. Eigen evaluates it by packets;
`same ix j` tells if the coefficients `j - 1` and `j` are in the same packet of the pass
`ix`: then the value of `j - 1` before the pass is read, otherwise the new one. -/
def polyPass (same : Nat → Nat → Bool) (xa : List K) (ix : Nat) (old : Nat → K) : Nat → K
  | 0 => old 0
  | j + 1 =>
    if j + 1 < ix then old (j + 1)
    else
      (old (j + 1) - (if j + 1 = ix ∨ same ix (j + 1) = true then old j
        else polyPass same xa ix old j)) / (at' xa (j + 1) - at' xa j)

/-- The passes `2 … k` (polynomial.hpp:63-72). -/
def polyWork (same : Nat → Nat → Bool) (xa ya : List K) : Nat → Nat → K
  | 0, j => at' ya j
  | 1, j => if j = 0 then at' ya 0 else slope xa ya (j - 1)
  | k + 2, j => polyPass same xa (k + 2) (polyWork same xa ya (k + 1)) j

/-- `Polynomial::compute_coefficients` (polynomial.hpp:55-73). -/
def polyCompute (junk : Nat → K) (same : Nat → Nat → Bool) (work : Buf K) (xa ya : List K) :
    Out (Buf K) := do
  checkSizes 3 xa ya
  let b := if work.size < xa.length then Buf.resize junk xa.length else work
  b.fill 0 xa.length (polyWork same xa ya (xa.length - 1))

/-- The loop of `interpolate_` (polynomial.hpp:103-106): `n` remaining coefficients. -/
def polyHorner (work : Nat → K) (xa : List K) (x : K) : Nat → K → K
  | 0, y => y
  | ix + 1, y => polyHorner work xa x ix (work ix + (x - at' xa ix) * y)

/-- `Polynomial::interpolate_` (polynomial.hpp:95-108). -/
def polyEval (work : Buf K) (xa : List K) (x : K) : Out K :=
  match search xa x with
  | none => .error .exn
  | some _ => do
    let y ← work.rd (xa.length - 1)
    .ok (polyHorner work.val xa x (xa.length - 1) y)

/-- `operator()` (interpolator_1d.hpp:25-28) for `Polynomial`. -/
def polynomial (junk : Nat → K) (same : Nat → Nat → Bool) (work : Buf K) (xa ya : List K) (x : K) :
    Out (K × Buf K) := do
  let b ← polyCompute junk same work xa ya
  let r ← polyEval b xa x
  .ok (r, b)

/-! ### Cubic splines -/

/-- `CSplineCoefficients` (cspline_base.hpp:25-30). -/
def csplineCoefficients (c0 c1 dx dy : K) : K × K × K :=
  (dy / dx - dx * (c1 + 2 * c0) * (1 / 3), c0, (c1 - c0) / (3 * dx))

/-- `CSplineBase::interpolate_` (cspline_base.hpp:70-88). -/
def csplineEval (x_ : Buf K) (xa ya : List K) (x : K) : Out (Option K) :=
  match search xa x with
  | none => .ok none
  | some (i0, i1) => do
    let xlo ← rd xa i0
    let ylo ← rd ya i0
    let xhi ← rd xa i1
    let yhi ← rd ya i1
    let c0 ← x_.rd i0
    let c1 ← x_.rd i1
    let h := x - xlo
    let k := csplineCoefficients c0 c1 (xhi - xlo) (yhi - ylo)
    .ok (some (ylo + h * (k.1 + h * (k.2.1 + h * k.2.2))))

/-- `CSplineBase::derivative_` (cspline_base.hpp:91-109). -/
def csplineDerivEval (x_ : Buf K) (xa ya : List K) (x : K) : Out (Option K) :=
  match search xa x with
  | none => .ok none
  | some (i0, i1) => do
    let xlo ← rd xa i0
    let ylo ← rd ya i0
    let xhi ← rd xa i1
    let yhi ← rd ya i1
    let c0 ← x_.rd i0
    let c1 ← x_.rd i1
    let h := x - xlo
    let k := csplineCoefficients c0 c1 (xhi - xlo) (yhi - ylo)
    .ok (some (k.1 + h * (2 * k.2.1 + h * 3 * k.2.2)))

/-- `h_i0`, the length of the interval `i` (cspline.hpp:84-85). -/
def width (xa : List K) (i : Nat) : K := at' xa (i + 1) - at' xa i

/-- `b_(i)` (cspline.hpp:86-97). -/
def csplineRhs (xa ya : List K) (i : Nat) : K :=
  let g0 := if width xa i ≠ 0 then 1 / width xa i else 0
  let g1 := if width xa (i + 1) ≠ 0 then 1 / width xa (i + 1) else 0
  3 * ((at' ya (i + 2) - at' ya (i + 1)) * g1 - (at' ya (i + 1) - at' ya i) * g0)

/-- `c_(i)` (cspline.hpp:44-53): the row `i` of the matrix is
`(width i, 2 (width i + width (i + 1)), width (i + 1))` (cspline.hpp:90-96). -/
def thomasC (xa : List K) : Nat → K
  | 0 => width xa 1 * (1 / (2 * (width xa 0 + width xa 1)))
  | i + 1 => width xa (i + 2) *
      (1 / (2 * (width xa (i + 1) + width xa (i + 2)) - width xa (i + 1) * thomasC xa i))

/-- `d_(i)` (cspline.hpp:44-57). -/
def thomasD (xa ya : List K) : Nat → K
  | 0 => csplineRhs xa ya 0 * (1 / (2 * (width xa 0 + width xa 1)))
  | i + 1 => (csplineRhs xa ya (i + 1) - width xa (i + 1) * thomasD xa ya i) *
      (1 / (2 * (width xa (i + 1) + width xa (i + 2)) - width xa (i + 1) * thomasC xa i))

/-- The back substitution (cspline.hpp:58-62): `thomasX n j` is `x[n - 1 - j]`. -/
def thomasX (xa ya : List K) (n : Nat) : Nat → K
  | 0 => thomasD xa ya (n - 1)
  | j + 1 => thomasD xa ya (n - 2 - j) - thomasC xa (n - 2 - j) * thomasX xa ya n j

/-- The members of `CSpline` that are kept: the matrix `A_`, `b_`, `c_` and `d_` are
rewritten at each call, only `x_` matters (cspline_base.hpp:66). `x_(0)` and the last
one are null since `setZero` (cspline.hpp:76) and are never written again for the same size. -/
def csplineCompute (x_ : Buf K) (xa ya : List K) : Out (Buf K) := do
  checkSizes 4 xa ya
  let size := xa.length
  let b := if x_.size ≠ size then ⟨size, fun _ => 0⟩ else x_
  b.fill 1 (size - 1) (fun i => thomasX xa ya (size - 2) (size - 2 - i))

/-- `operator()` (interpolator_1d.hpp:25-28) for `CSpline`. -/
def cspline (x_ : Buf K) (xa ya : List K) (x : K) : Out (Option K × Buf K) := do
  let b ← csplineCompute x_ xa ya
  let r ← csplineEval b xa ya x
  .ok (r, b)

/-- `derivative` (interpolator_1d.hpp:46-49) for `CSpline`. -/
def csplineDerivative (x_ : Buf K) (xa ya : List K) (x : K) : Out (Option K × Buf K) := do
  let b ← csplineCompute x_ xa ya
  let r ← csplineDerivEval b xa ya x
  .ok (r, b)

end Pyinterp.Interp
