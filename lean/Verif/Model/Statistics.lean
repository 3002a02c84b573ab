import Mathlib.Algebra.Order.Field.Basic
import Mathlib.Analysis.SpecialFunctions.Pow.Real
import Verif.Model.Base

/-
Model of src/pyinterp/core/include/pyinterp/detail/math/descriptive_statistics.hpp.
`T` is an ordered field `K`; `count` is not bounded.
-/
namespace Pyinterp.Stats

/-- `Accumulators` (descriptive_statistics.hpp:15-26). -/
structure Acc (K : Type) where
  count : Nat
  sumOfWeights : K
  mean : K
  min : K
  max : K
  sum : K
  mom2 : K
  mom3 : K
  mom4 : K
  deriving DecidableEq

variable {K : Type} [Field K] [LinearOrder K]

/-- `clear` (descriptive_statistics.hpp:46-48), the state of the default constructor:
all the bytes are null. -/
def empty : Acc K := ⟨0, 0, 0, 0, 0, 0, 0, 0, 0⟩

/-- The private constructor (descriptive_statistics.hpp:205-209). -/
def single (value weight : K) : Acc K :=
  let wv := weight * value
  ⟨1, weight, value, wv, wv, wv, 0, 0, 0⟩

/-- `operator()(value)` (descriptive_statistics.hpp:51-84). -/
def push (acc : Acc K) (value : K) : Acc K :=
  let r := acc.sumOfWeights
  if r = 0 then single value 1
  else
    let w := r + 1
    let invN := 1 / w
    let delta := value - acc.mean
    let A := delta * invN
    let mean := acc.mean + A
    let mom4 := acc.mom4 +
      A * (A * A * delta * r * (w * (w - 3) + 3) + 6 * A * acc.mom2 - 4 * acc.mom3)
    let B := value - mean
    let mom3 := acc.mom3 + A * (B * delta * (w - 2) - 3 * acc.mom2)
    let mom2 := acc.mom2 + delta * B
    { count := acc.count + 1
      sumOfWeights := w
      mean := mean
      min := if value < acc.min then value else acc.min
      max := if value < acc.min then acc.max else if acc.max < value then value else acc.max
      sum := acc.sum + value
      mom2 := mom2
      mom3 := mom3
      mom4 := mom4 }

/-- `operator+=` (descriptive_statistics.hpp:153-201). A null total weight gives the NaN
of a division by zero. -/
def merge (acc rhs : Acc K) : Out (Acc K) :=
  let w := acc.sumOfWeights + rhs.sumOfWeights
  if w = 0 then .error .nan
  else
    let delta := rhs.mean - acc.mean
    let deltaW := delta / w
    let delta2W2 := deltaW * deltaW
    let w2 := acc.sumOfWeights * acc.sumOfWeights
    let ww := acc.sumOfWeights * rhs.sumOfWeights
    let rhsW2 := rhs.sumOfWeights * rhs.sumOfWeights
    .ok
      { count := acc.count + rhs.count
        sumOfWeights := w
        mean := acc.mean + rhs.sumOfWeights * deltaW
        min := if rhs.min < acc.min then rhs.min else acc.min
        max := if acc.max < rhs.max then rhs.max else acc.max
        sum := acc.sum + rhs.sum
        mom2 := acc.mom2 + (rhs.mom2 + ww * delta * deltaW)
        mom3 := acc.mom3 + (rhs.mom3 +
          ww * (acc.sumOfWeights - rhs.sumOfWeights) * delta * delta2W2 +
          3 * (acc.sumOfWeights * rhs.mom2 - rhs.sumOfWeights * acc.mom2) * deltaW)
        mom4 := acc.mom4 + (rhs.mom4 + ww * (w2 - ww + rhsW2) * delta * deltaW * delta2W2 +
          6 * (w2 * rhs.mom2 + rhsW2 * acc.mom2) * delta2W2 +
          4 * (acc.sumOfWeights * rhs.mom3 - rhs.sumOfWeights * acc.mom3) * deltaW) }

/-- `operator()(value, weight)` (descriptive_statistics.hpp:86-92). -/
def pushW (acc : Acc K) (value weight : K) : Out (Acc K) :=
  if acc.sumOfWeights = 0 then .ok (single value weight) else merge acc (single value weight)

/-- `mean` (descriptive_statistics.hpp:110-112); `none` is NaN. -/
def getMean (acc : Acc K) : Option K := if acc.count = 0 then none else some acc.mean

/-- `min` (descriptive_statistics.hpp:115-117). -/
def getMin (acc : Acc K) : Option K := if acc.count = 0 then none else some acc.min

/-- `max` (descriptive_statistics.hpp:120-122). -/
def getMax (acc : Acc K) : Option K := if acc.count = 0 then none else some acc.max

/-- `variance` (descriptive_statistics.hpp:125-130). -/
def variance (acc : Acc K) (ddof : Int) : Option K :=
  let cardinal := acc.sumOfWeights - (ddof : K)
  if cardinal ≤ 0 then none else some (acc.mom2 / cardinal)

/-- `kurtosis` (descriptive_statistics.hpp:145-150). -/
def kurtosis (acc : Acc K) : Option K :=
  if acc.mom2 = 0 then none
  else some (acc.sumOfWeights * acc.mom4 / (acc.mom2 * acc.mom2) - 3)

/-- `skewness` (descriptive_statistics.hpp:138-142) on real numbers. -/
noncomputable def skewness (acc : Acc ℝ) : Option ℝ :=
  if acc.mom2 = 0 then none
  else some (Real.sqrt acc.sumOfWeights * acc.mom3 / acc.mom2 ^ (3 / 2 : ℝ))

/-- `std` (descriptive_statistics.hpp:133-135) on real numbers. -/
noncomputable def std (acc : Acc ℝ) (ddof : Int) : Option ℝ := (variance acc ddof).map Real.sqrt

/-- The statistics of the samples of a flattened array, without NaN, with weights
(pyinterp/descriptive_statistics.hpp:192-212). -/
def ofSamples (s : List (K × K)) : Out (Acc K) :=
  s.foldlM (fun acc x => pushW acc x.1 x.2) empty

/-- The statistics of the samples of a flattened array, without NaN
(pyinterp/descriptive_statistics.hpp:172-188). -/
def ofValues (s : List K) : Acc K := s.foldl push empty

end Pyinterp.Stats
