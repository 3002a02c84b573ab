import Mathlib.Analysis.SpecialFunctions.Trigonometric.Basic
import Verif.Model.Base

/-
Model of src/pyinterp/core/include/pyinterp/detail/math/window_functions.hpp and of
`_core_window_function` (src/pyinterp/interface.py:130-170), with real numbers.

`none` stands for a result that is not a finite number (NaN or an infinity), produced by a
division by zero. Rounding is not modelled; the decimal constants of the code are exact.
-/
namespace Pyinterp.WindowFunctions
open Real

/-- `window::Function` (window_functions.hpp:17-28). -/
inductive Fn where
  | blackman | blackmanHarris | boxcar | flatTop | gaussian | hamming | lanczos | nuttall | parzen | parzenSwot
  deriving DecidableEq, Repr

/-- A division; `none` when the divisor is 0. -/
noncomputable def quot (a b : ℝ) : Option ℝ := if b = 0 then none else some (a / b)

/-- `hamming` (window_functions.hpp:31-37). -/
noncomputable def hamming (d r : ℝ) : Option ℝ :=
  if d ≤ r then do
    let q ← quot (π * (d + r)) r
    some (0.53836 - 0.46164 * cos q)
  else some 0

/-- `blackman` (window_functions.hpp:40-49). -/
noncomputable def blackman (d r : ℝ) : Option ℝ :=
  if d ≤ r then do
    let ratio ← quot (d + r) r
    some (7938.0 / 18608.0 - 9240.0 / 18608.0 * cos (π * ratio) + 1430.0 / 18608.0 * cos (2 * π * ratio))
  else some 0

/-- `flat_top` (window_functions.hpp:52-62). -/
noncomputable def flatTop (d r : ℝ) : Option ℝ :=
  if d ≤ r then do
    let ratio ← quot (d + r) r
    some (0.21557895 - 0.41663158 * cos (π * ratio) + 0.277263158 * cos (2 * π * ratio) -
      0.083578947 * cos (3 * π * ratio) + 0.006947368 * cos (4 * π * ratio))
  else some 0

/-- `nuttall` (window_functions.hpp:65-73). -/
noncomputable def nuttall (d r : ℝ) : Option ℝ :=
  if d ≤ r then do
    let ratio ← quot (d + r) r
    some (0.3635819 - 0.4891775 * cos (π * ratio) + 0.1365995 * cos (2 * π * ratio))
  else some 0

/-- `blackman_harris` (window_functions.hpp:76-86). -/
noncomputable def blackmanHarris (d r : ℝ) : Option ℝ :=
  if d ≤ r then do
    let ratio ← quot (d + r) r
    some (0.35875 - 0.48829 * cos (π * ratio) + 0.14128 * cos (2 * π * ratio) - 0.01168 * cos (3 * π * ratio))
  else some 0

/-- `math::sinc` (detail/math.hpp:263-267). -/
noncomputable def sinc (x : ℝ) : ℝ := if x = 0 then 1 else sin (π * x) / (π * x)

/-- `lanczos` (window_functions.hpp:89-95). -/
noncomputable def lanczos (d r nlobes : ℝ) : Option ℝ :=
  if d ≤ nlobes * r then do
    let a ← quot d r
    let b ← quot d (r * nlobes)
    some (sinc a * sinc b)
  else some 0

/-- `gaussian` (window_functions.hpp:98-104). With `sigma = 0` the quotient is infinite and the
exponential is 0, except for `d = 0` (NaN). -/
noncomputable def gaussian (d r sigma : ℝ) : Option ℝ :=
  if d ≤ r then
    if sigma = 0 then (if d = 0 then none else some 0)
    else some (exp (-0.5 * ((d / sigma) * (d / sigma))))
  else some 0

/-- `parzen` (window_functions.hpp:107-118). -/
noncomputable def parzen (d r sampling : ℝ) : Option ℝ := do
  let ratio ← quot d r
  let l := 2 * r + sampling
  if d ≤ l / 4 then some (1 - 6 * ratio ^ 2 * (1 - ratio))
  else if l / 2 ≤ d ∨ d > l / 4 then some (2 * (1 - ratio) ^ 3)
  else some 0

/-- `parzen_swot` (window_functions.hpp:121-132). -/
noncomputable def parzenSwot (d r : ℝ) : Option ℝ := do
  let l := 2 * r
  let ratio ← quot (2 * d) l
  if d ≤ l / 4 then some (1 - 6 * ratio ^ 2 + 6 * ratio ^ 3)
  else if d ≤ l / 2 ∨ d > l / 4 then some (2 * (1 - ratio) ^ 3)
  else some 0

/-- `boxcar` (window_functions.hpp:135-141). -/
noncomputable def boxcar (d r : ℝ) : Option ℝ := if d ≤ r then some 1 else some 0

/-- `WindowFunction::operator()` (window_functions.hpp:154-212): the weight of a neighbour at the
distance `d`. -/
noncomputable def weight (f : Fn) (d r arg : ℝ) : Option ℝ :=
  match f with
  | .blackman => blackman d r
  | .blackmanHarris => blackmanHarris d r
  | .boxcar => boxcar d r
  | .flatTop => flatTop d r
  | .gaussian => gaussian d r arg
  | .hamming => hamming d r
  | .lanczos => lanczos d r arg
  | .nuttall => nuttall d r
  | .parzen => parzen d r arg
  | .parzenSwot => parzenSwot d r

/-- The names of the functions (interface.py:134-146). -/
def fnOf (s : String) : Option Fn :=
  if s = "blackman" then some .blackman
  else if s = "blackman_harris" then some .blackmanHarris
  else if s = "boxcar" then some .boxcar
  else if s = "flat_top" then some .flatTop
  else if s = "gaussian" then some .gaussian
  else if s = "hamming" then some .hamming
  else if s = "lanczos" then some .lanczos
  else if s = "nuttall" then some .nuttall
  else if s = "parzen" then some .parzen
  else if s = "parzen_swot" then some .parzenSwot
  else none

/-- The tests on the argument in `_core_window_function` (interface.py:147-166): an exception or the function. -/
noncomputable def checkArg (f : Fn) (arg : Option ℝ) : Out Fn :=
  match f with
  | .gaussian => if arg.isNone then .error .exn else .ok f
  | .lanczos => if arg.getD 1 < 1 then .error .exn else .ok f
  | .parzen => if arg.getD 0 < 0 then .error .exn else .ok f
  | _ => if arg.isSome then .error .exn else .ok f

/-- `_core_window_function(wf, arg)` (interface.py:130-170): the function for a name and an optional argument, or an
exception. The empty string and `None` stand for `blackman`. -/
noncomputable def coreWindowFunction (wf : Option String) (arg : Option ℝ) : Out Fn :=
  let wf := match wf with
    | none => "blackman"
    | some s => if s = "" then "blackman" else s
  match fnOf wf with
  | none => .error .exn
  | some f => checkArg f arg

/-- The argument that the C++ function receives: `RTree.window_function` passes `arg` as given
(rtree.py:393-395), not the default of `_core_window_function`; then `arg.value_or(0)` (rtree.hpp:307, 314). -/
noncomputable def coreArg (arg : Option ℝ) : ℝ := arg.getD 0

end Pyinterp.WindowFunctions
