import Verif.Model.Double
import Verif.Model.Statistics

/-
Descriptive statistics with the rounding of every operation (`DescriptiveStatistics<double>`). The weights and the values are
finite; NaN, which a division 0 / 0 gives, is `none`.
-/
namespace Pyinterp.Double

/-- `Accumulators<double>` (detail/math/descriptive_statistics.hpp:16-26). -/
abbrev Acc := Stats.Acc ℚ

/-- `clear` (detail/math/descriptive_statistics.hpp:46-48). -/
def Acc.zero : Acc :=
  { count := 0, sumOfWeights := 0, mean := 0, min := 0, max := 0, sum := 0, mom2 := 0, mom3 := 0, mom4 := 0 }

/-- `DescriptiveStatistics(value, weight)` (detail/math/descriptive_statistics.hpp:205-209). -/
def Acc.single (value weight : ℚ) : Acc :=
  let weightedValue := mul weight value
  { count := 1, sumOfWeights := weight, mean := value, min := weightedValue, max := weightedValue, sum := weightedValue,
    mom2 := 0, mom3 := 0, mom4 := 0 }

/-- `operator()(value)` (detail/math/descriptive_statistics.hpp:51-83). The products are evaluated from the left to the right. -/
def Acc.push (acc : Acc) (value : ℚ) : Acc :=
  let r := acc.sumOfWeights
  if r = 0 then Acc.single value 1
  else
    let w := add r 1
    let invN := div 1 w
    let delta := sub value acc.mean
    let a := mul delta invN
    let mean := add acc.mean a
    let mom4 := add acc.mom4 (mul a (sub (add
      (mul (mul (mul (mul a a) delta) r) (add (mul w (sub w 3)) 3)) (mul (mul 6 a) acc.mom2)) (mul 4 acc.mom3)))
    let b := sub value mean
    let mom3 := add acc.mom3 (mul a (sub (mul (mul b delta) (sub w 2)) (mul 3 acc.mom2)))
    let mom2 := add acc.mom2 (mul delta b)
    { count := acc.count + 1, sumOfWeights := w, mean := mean,
      min := if value < acc.min then value else acc.min,
      max := if value < acc.min then acc.max else if acc.max < value then value else acc.max,
      sum := add acc.sum value, mom2 := mom2, mom3 := mom3, mom4 := mom4 }

/-- `operator+=` (detail/math/descriptive_statistics.hpp:153-200); NaN if the sum of the weights is zero. -/
def Acc.merge (acc rhs : Acc) : Option Acc :=
  let w := add acc.sumOfWeights rhs.sumOfWeights
  if w = 0 then none
  else
    let delta := sub rhs.mean acc.mean
    let deltaW := div delta w
    let delta2W2 := mul deltaW deltaW
    let w2 := mul acc.sumOfWeights acc.sumOfWeights
    let ww := mul acc.sumOfWeights rhs.sumOfWeights
    let rhsW2 := mul rhs.sumOfWeights rhs.sumOfWeights
    some
      { count := acc.count + rhs.count
        sumOfWeights := w
        mean := add acc.mean (mul rhs.sumOfWeights deltaW)
        min := if rhs.min < acc.min then rhs.min else acc.min
        max := if acc.max < rhs.max then rhs.max else acc.max
        sum := add acc.sum rhs.sum
        mom2 := add acc.mom2 (add rhs.mom2 (mul (mul ww delta) deltaW))
        mom3 := add acc.mom3 (add (add rhs.mom3
            (mul (mul (mul ww (sub acc.sumOfWeights rhs.sumOfWeights)) delta) delta2W2))
          (mul (mul 3 (sub (mul acc.sumOfWeights rhs.mom2) (mul rhs.sumOfWeights acc.mom2))) deltaW))
        mom4 := add acc.mom4 (add (add (add rhs.mom4
            (mul (mul (mul (mul ww (add (sub w2 ww) rhsW2)) delta) deltaW) delta2W2))
            (mul (mul 6 (add (mul w2 rhs.mom2) (mul rhsW2 acc.mom2))) delta2W2))
          (mul (mul 4 (sub (mul acc.sumOfWeights rhs.mom3) (mul rhs.sumOfWeights acc.mom3))) deltaW)) }

/-- `operator()(value, weight)` (detail/math/descriptive_statistics.hpp:86-92). -/
def Acc.pushW (acc : Acc) (value weight : ℚ) : Option Acc :=
  if acc.sumOfWeights = 0 then some (Acc.single value weight) else acc.merge (Acc.single value weight)

/-- `variance` (detail/math/descriptive_statistics.hpp:125-130); `none` is NaN. -/
def Acc.variance (acc : Acc) (ddof : Int) : Option ℚ :=
  let cardinal := sub acc.sumOfWeights (ddof : ℚ)
  if cardinal ≤ 0 then none else some (div acc.mom2 cardinal)

/-- A history of an accumulator: values pushed with or without weight, other accumulators added
(detail/math/descriptive_statistics.hpp:51-92, 153-200). -/
inductive Hist where
  | new
  | push (h : Hist) (value : ℚ)
  | pushW (h : Hist) (value weight : ℚ)
  | merge (h rhs : Hist)

/-- The accumulator at the end of a history; `none` if a NaN enters. -/
def Hist.run : Hist → Option Acc
  | .new => some Acc.zero
  | .push h x => (h.run).map (·.push x)
  | .pushW h x w => do (← h.run).pushW x w
  | .merge h r => do (← h.run).merge (← r.run)

end Pyinterp.Double
