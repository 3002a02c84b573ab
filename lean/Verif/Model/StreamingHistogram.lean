import Mathlib.Algebra.Order.Field.Basic
import Mathlib.Algebra.BigOperators.Group.List.Basic
import Verif.Model.Base

/-
Model of src/pyinterp/core/include/pyinterp/detail/math/streaming_histogram.hpp.
`T` (float, double) is an ordered field `K`; `numeric_limits<T>::max()` and
`numeric_limits<T>::min()` are kept as parameters. `count_` is not bounded.
-/
namespace Pyinterp.Streaming

/-- `Bin` (streaming_histogram.hpp:27-32). -/
structure Bin (K : Type) where
  value : K
  weight : K
  deriving DecidableEq

/-- `std::numeric_limits<T>::max()`, `std::numeric_limits<T>::min()` (the smallest
positive number), and `std::log`, from the C++ standard library. -/
structure Numeric (K : Type) where
  max : K
  min : K
  log : K → K

/-- The members of `StreamingHistogram` (streaming_histogram.hpp:257-262). -/
structure Hist (K : Type) where
  weightedDiff : Bool
  binCount : Nat
  count : Nat
  min : K
  max : K
  bins : List (Bin K)
  deriving DecidableEq

variable {K : Type} [Field K] [LinearOrder K]

/-- Constructor (streaming_histogram.hpp:92-95). -/
def make (num : Numeric K) (binCount : Nat) (weightedDiff : Bool) : Hist K where
  weightedDiff := weightedDiff
  binCount := binCount
  count := 0
  min := num.max
  max := num.min
  bins := []

/-- `BinDifferences::calculate` (streaming_histogram.hpp:63-81). -/
def difference (num : Numeric K) (weightedDiff : Bool) (lhs rhs : Bin K) : K :=
  if weightedDiff then (lhs.value - rhs.value) * num.log (1 / 100000 + min lhs.weight rhs.weight)
  else lhs.value - rhs.value

/-- The loop of the constructor of `BinDifferences` (streaming_histogram.hpp:42-51):
`prev` is `*(first - 1)`, `ix` its index, `diff` and `index` the members `diff_` and
`index_` (`none`: the initial value SIZE_MAX). -/
def minDifference (num : Numeric K) (weightedDiff : Bool) :
    Bin K → List (Bin K) → Nat → K → Option Nat → Option Nat
  | _, [], _, _, index => index
  | prev, b :: l, ix, diff, index =>
    let d := difference num weightedDiff b prev
    if d < diff then minDifference num weightedDiff b l (ix + 1) d (some ix)
    else minDifference num weightedDiff b l (ix + 1) diff index

/-- `BinDifferences(bins, weighted_diff).index()` (streaming_histogram.hpp:39-60); on
empty bins `bins.begin() + 1` has no defined behaviour. -/
def minIndex (num : Numeric K) (weightedDiff : Bool) : List (Bin K) → Out (Option Nat)
  | [] => .error .ub
  | b :: l => .ok (minDifference num weightedDiff b l 0 num.max none)

/-- Merge of the bins `ix` and `ix + 1` (streaming_histogram.hpp:305-312). The index
SIZE_MAX and an index without successor read outside the bins; two opposite weights
give a division by zero. -/
def mergeAt : Nat → List (Bin K) → Out (List (Bin K))
  | 0, a :: b :: l =>
    if a.weight + b.weight = 0 then .error .nan
    else .ok (⟨(a.value * a.weight + b.value * b.weight) / (a.weight + b.weight),
      a.weight + b.weight⟩ :: l)
  | k + 1, a :: l => do
    let l' ← mergeAt k l
    return a :: l'
  | _, _ => .error .ub

/-- The loop of `trim` (streaming_histogram.hpp:299-314): each iteration removes one
bin, `excess` is `bins_.size() - bin_count_`. -/
def trimLoop (num : Numeric K) (weightedDiff : Bool) : Nat → List (Bin K) → Out (List (Bin K))
  | 0, bins => .ok bins
  | excess + 1, bins => do
    match ← minIndex num weightedDiff bins with
    | none => .error .ub
    | some ix =>
      let bins' ← mergeAt ix bins
      trimLoop num weightedDiff excess bins'

/-- `trim` (streaming_histogram.hpp:299-314). -/
def trim (num : Numeric K) (h : Hist K) : Out (Hist K) := do
  let bins ← trimLoop num h.weightedDiff (h.bins.length - h.binCount) h.bins
  return { h with bins := bins }

/-- `update_bins` (streaming_histogram.hpp:265-296). The comparison function of
`std::lower_bound` is `lhs.value <= value`. -/
def updateBins (bins : List (Bin K)) (value weight : K) : Out (List (Bin K)) :=
  match bins with
  | [] => .ok [⟨value, weight⟩]
  | front :: tl =>
    if value ≤ front.value then .ok (⟨value, weight⟩ :: bins)
    else if ((front :: tl).getLast (List.cons_ne_nil _ _)).value ≤ value then
      .ok (bins ++ [⟨value, weight⟩])
    else
      let index := lowerBound
        (fun i => match bins[i]? with | some b => decide (b.value ≤ value) | none => false)
        0 bins.length
      match bins[index]? with
      | none => .error .ub
      | some b =>
        if b.value = value then .ok (bins.set index ⟨b.value, b.weight + weight⟩)
        else .ok (bins.insertIdx index ⟨value, weight⟩)

/-- `operator()(value, weight)` (streaming_histogram.hpp:150-161). -/
def push (num : Numeric K) (h : Hist K) (value weight : K) : Out (Hist K) := do
  let wv := weight * value
  let bins ← updateBins h.bins value weight
  trim num
    { h with
      count := h.count + 1
      min := if wv < h.min then wv else h.min
      max := if h.max < wv then wv else h.max
      bins := bins }

/-- `operator+=` (streaming_histogram.hpp:164-176). -/
def merge (num : Numeric K) (h other : Hist K) : Out (Hist K) := do
  let bins ← other.bins.foldlM (fun bins b => updateBins bins b.value b.weight) h.bins
  trim num
    { h with
      count := h.count + other.count
      min := if other.min < h.min then other.min else h.min
      max := if h.max < other.max then other.max else h.max
      bins := bins }

/-- `resize` (streaming_histogram.hpp:134-137). -/
def resize (num : Numeric K) (h : Hist K) (binCount : Nat) : Out (Hist K) :=
  trim num { h with binCount := binCount }

/-- `clear` (streaming_histogram.hpp:145-147). -/
def clear (num : Numeric K) (h : Hist K) : Hist K := make num h.binCount h.weightedDiff

/-- `sum_of_weights` (streaming_histogram.hpp:182-186). -/
def sumOfWeights (h : Hist K) : K := h.bins.foldl (fun a b => a + b.weight) 0

/-- `moment(c, n)` (streaming_histogram.hpp:317-325) for an integer `n`; `none` is the
NaN of 0 / 0. -/
def moment (h : Hist K) (c : K) (n : Nat) : Option K :=
  let s := h.bins.foldl
    (fun a b => (a.1 + b.weight * (b.value - c) ^ n, a.2 + b.weight)) ((0, 0) : K × K)
  if s.2 = 0 then none else some (s.1 / s.2)

/-- `mean` (streaming_histogram.hpp:229). -/
def mean (h : Hist K) : Option K := moment h 0 1

/-- `variance` (streaming_histogram.hpp:232). -/
def variance (h : Hist K) : Option K := (mean h).bind fun m => moment h m 2

/-- `min` (streaming_histogram.hpp:247-249); `none` is NaN. -/
def getMin (h : Hist K) : Option K := if h.count ≠ 0 then some h.min else none

/-- `max` (streaming_histogram.hpp:252-254). -/
def getMax (h : Hist K) : Option K := if h.count ≠ 0 then some h.max else none

/-- The search and interpolation of `quantile` between two bins
(streaming_histogram.hpp:217-225) from the bin at the head of the list: the condition
of the loop reads the bin `ix + 1` first. -/
def quantileLoop : K → List (Bin K) → Out K
  | mb, a :: b :: l =>
    if 0 < mb - (a.weight + b.weight) * (1 / 2) then
      quantileLoop (mb - (a.weight + b.weight) * (1 / 2)) (b :: l)
    else
      .ok (a.value + mb / ((a.weight + b.weight) * (1 / 2)) * (b.value - a.value))
  | _, _ => .error .ub

/-- `quantile` (streaming_histogram.hpp:194-226); `none` is NaN. Simplification: the
divisions by a null weight are not distinguished. -/
def quantile (h : Hist K) (q : K) : Out (Option K) :=
  match h.bins with
  | [] => .ok none
  | front :: tl =>
    if q < 0 ∨ 1 < q then .error .exn
    else
      let weights := sumOfWeights h
      let qw := weights * q
      let back := (front :: tl).getLast (List.cons_ne_nil _ _)
      if qw ≤ front.weight * (1 / 2) then
        .ok (some (h.min + qw / (front.weight * (1 / 2)) * (front.value - h.min)))
      else if weights - back.weight * (1 / 2) ≤ qw then
        .ok (some (back.value + (qw - (weights - back.weight * (1 / 2))) /
          (back.weight * (1 / 2)) * (h.max - back.value)))
      else do
        let r ← quantileLoop (qw - front.weight * (1 / 2)) (front :: tl)
        return some r

end Pyinterp.Streaming
