import Verif.Model.DoubleAxis
import Verif.Model.StreamingHistogram

/-
`StreamingHistogram<double>` (detail/math/streaming_histogram.hpp) with the rounding of every operation. The differences weighted
by a logarithm (`weighted_diff`) are left out, and so are the moments above the first one (`std::pow`).
-/
namespace Pyinterp.Double

open Pyinterp

/-- `Bin<double>` (streaming_histogram.hpp:27-32). -/
abbrev HBin := Streaming.Bin ℚ

/-- `std::numeric_limits<double>::max()`. -/
def maxDouble : ℚ := (2 ^ 53 - 1) * 2 ^ 971

/-- `std::numeric_limits<double>::min()`: the least positive normal number. -/
def minDouble : ℚ := 1 / 2 ^ 1022

/-- The members of `StreamingHistogram` (streaming_histogram.hpp:257-262), but `weighted_diff_`, which is false. -/
structure Histo where
  binCount : Nat
  count : Nat
  min : ℚ
  max : ℚ
  bins : List HBin
  deriving DecidableEq

namespace Histo

/-- Constructor (streaming_histogram.hpp:92-95). -/
def make (binCount : Nat) : Histo where
  binCount := binCount
  count := 0
  min := maxDouble
  max := minDouble
  bins := []

/-- The loop of `BinDifferences` (streaming_histogram.hpp:42-51, 68-70): `prev` is `*(first - 1)`, `ix` its index, `diff` and
`index` the members `diff_` and `index_`. -/
def minDifference : HBin → List HBin → Nat → ℚ → Option Nat → Option Nat
  | _, [], _, _, index => index
  | prev, b :: l, ix, diff, index =>
    let d := sub b.value prev.value
    if d < diff then minDifference b l (ix + 1) d (some ix) else minDifference b l (ix + 1) diff index

/-- `BinDifferences(bins, false).index()` (streaming_histogram.hpp:39-60). -/
def minIndex : List HBin → Out (Option Nat)
  | [] => .error .ub
  | b :: l => .ok (minDifference b l 0 maxDouble none)

/-- The bin that replaces two bins (streaming_histogram.hpp:309-311). -/
def mergeBins (a b : HBin) : HBin :=
  ⟨div (add (mul a.value a.weight) (mul b.value b.weight)) (add a.weight b.weight), add a.weight b.weight⟩

/-- Merge of the bins `ix` and `ix + 1` (streaming_histogram.hpp:305-312). -/
def mergeAt : Nat → List HBin → Out (List HBin)
  | 0, a :: b :: l => if add a.weight b.weight = 0 then .error .nan else .ok (mergeBins a b :: l)
  | k + 1, a :: l => do
    let l' ← mergeAt k l
    return a :: l'
  | _, _ => .error .ub

/-- The loop of `trim` (streaming_histogram.hpp:299-314); `excess` is `bins_.size() - bin_count_`. -/
def trimLoop : Nat → List HBin → Out (List HBin)
  | 0, bins => .ok bins
  | excess + 1, bins => do
    match ← minIndex bins with
    | none => .error .ub
    | some ix =>
      let bins' ← mergeAt ix bins
      trimLoop excess bins'

/-- `trim` (streaming_histogram.hpp:299-314). -/
def trim (h : Histo) : Out Histo := do
  let bins ← trimLoop (h.bins.length - h.binCount) h.bins
  return { h with bins := bins }

/-- `update_bins` (streaming_histogram.hpp:265-296). -/
def updateBins (bins : List HBin) (value weight : ℚ) : Out (List HBin) :=
  match bins with
  | [] => .ok [⟨value, weight⟩]
  | front :: tl =>
    if value ≤ front.value then .ok (⟨value, weight⟩ :: bins)
    else if ((front :: tl).getLast (List.cons_ne_nil _ _)).value ≤ value then .ok (bins ++ [⟨value, weight⟩])
    else
      let index := lowerBound
        (fun i => match bins[i]? with | some b => decide (b.value ≤ value) | none => false) 0 bins.length
      match bins[index]? with
      | none => .error .ub
      | some b =>
        if b.value = value then .ok (bins.set index ⟨b.value, add b.weight weight⟩)
        else .ok (bins.insertIdx index ⟨value, weight⟩)

/-- `operator()(value, weight)` (streaming_histogram.hpp:150-161). -/
def push (h : Histo) (value weight : ℚ) : Out Histo := do
  let wv := mul weight value
  let bins ← updateBins h.bins value weight
  trim { h with
    count := h.count + 1
    min := if wv < h.min then wv else h.min
    max := if h.max < wv then wv else h.max
    bins := bins }

/-- `operator+=` (streaming_histogram.hpp:164-176), for two distinct objects. -/
def merge (h other : Histo) : Out Histo := do
  let bins ← other.bins.foldlM (fun bins b => updateBins bins b.value b.weight) h.bins
  trim { h with
    count := h.count + other.count
    min := if other.min < h.min then other.min else h.min
    max := if h.max < other.max then other.max else h.max
    bins := bins }

/-- `resize` (streaming_histogram.hpp:134-137). -/
def resize (h : Histo) (binCount : Nat) : Out Histo := trim { h with binCount := binCount }

/-- `clear` (streaming_histogram.hpp:145-147). -/
def clear (h : Histo) : Histo := make h.binCount

/-- `sum_of_weights` (streaming_histogram.hpp:182-186). -/
def sumOfWeights (h : Histo) : ℚ := h.bins.foldl (fun a b => add a b.weight) 0

/-- `mean`, that is `moment(0, 1)` (streaming_histogram.hpp:229, 317-325); `value - 0` and `std::pow(value, 1)` are `value`. `none`
is the NaN of 0 / 0. -/
def mean (h : Histo) : Option ℚ :=
  let s := h.bins.foldl (fun a b => (add a.1 (mul b.weight b.value), add a.2 b.weight)) ((0, 0) : ℚ × ℚ)
  if s.2 = 0 then none else some (div s.1 s.2)

/-- The value at the fraction `part / whole` of the way from `a` to `b` (streaming_histogram.hpp:207-208, 213-214, 224-225). -/
def between (part whole a b : ℚ) : ℚ := add a (mul (div part whole) (sub b a))

/-- The search of the two bins (streaming_histogram.hpp:217-225): the condition of the loop reads the bin `ix + 1` before it tests
that there is one. -/
def quantileLoop : ℚ → List HBin → Out ℚ
  | mb, a :: b :: l =>
    if 0 < sub mb (mul (add a.weight b.weight) (1 / 2)) then
      quantileLoop (sub mb (mul (add a.weight b.weight) (1 / 2))) (b :: l)
    else .ok (between mb (mul (add a.weight b.weight) (1 / 2)) a.value b.value)
  | _, _ => .error .ub

/-- `quantile` (streaming_histogram.hpp:194-226); `none` is NaN. -/
def quantile (h : Histo) (q : ℚ) : Out (Option ℚ) :=
  match h.bins with
  | [] => .ok none
  | front :: tl =>
    if q < 0 ∨ 1 < q then .error .exn
    else
      let weights := h.sumOfWeights
      let qw := mul weights q
      let back := (front :: tl).getLast (List.cons_ne_nil _ _)
      if qw ≤ mul front.weight (1 / 2) then .ok (some (between qw (mul front.weight (1 / 2)) h.min front.value))
      else if sub weights (mul back.weight (1 / 2)) ≤ qw then
        .ok (some (between (sub qw (sub weights (mul back.weight (1 / 2)))) (mul back.weight (1 / 2)) back.value h.max))
      else do
        let r ← quantileLoop (sub qw (mul front.weight (1 / 2))) (front :: tl)
        return some r

/-- `push_weighted` for one histogram (include/pyinterp/streaming_histogram.hpp:238-255): the values are pushed one after the other. -/
def pushWeighted (h : Histo) (xs : List (ℚ × ℚ)) : Out Histo := xs.foldlM (fun h x => h.push x.1 x.2) h

end Histo

end Pyinterp.Double
