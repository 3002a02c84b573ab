import Verif.Model.Binning

/-
The operators `+=` of the accumulators, of the histograms and of the arrays and grids that hold
them, as operations on a memory: the operands are addresses, and they may be the same (`a += a`,
or `a + a` of the Python classes of binning.py and histogram2d.py, whose `copy.copy` shares the
C++ object). Every read of the right operand happens when the C++ statement reads it.
-/
namespace Pyinterp.Alias

open Stats Streaming

/-- The assignment of the object at an address (C++, not part of the repository; used by
descriptive_statistics.hpp:153-201, streaming_histogram.hpp:164-176). -/
def write {P A : Type} [DecidableEq P] (m : P → A) (p : P) (v : A) : P → A :=
  fun q => if q = p then v else m q

section
variable {P : Type} [DecidableEq P] {K : Type} [Field K] [LinearOrder K]

/-- `DescriptiveStatistics::operator+=` (descriptive_statistics.hpp:153-201), statement after
statement: `lhs` is the address of `*this` and `rhs` that of the argument. As in `Stats.merge`, a
null total weight is the NaN of a division by zero. -/
def statsAdd (m : P → Acc K) (lhs rhs : P) : Out (P → Acc K) :=
  let w := (m lhs).sumOfWeights + (m rhs).sumOfWeights
  let m := if (m rhs).min < (m lhs).min then write m lhs { m lhs with min := (m rhs).min } else m
  let m := if (m lhs).max < (m rhs).max then write m lhs { m lhs with max := (m rhs).max } else m
  if w = 0 then .error .nan
  else
    let delta := (m rhs).mean - (m lhs).mean
    let deltaW := delta / w
    let delta2W2 := deltaW * deltaW
    let w2 := (m lhs).sumOfWeights * (m lhs).sumOfWeights
    let ww := (m lhs).sumOfWeights * (m rhs).sumOfWeights
    let rhsW2 := (m rhs).sumOfWeights * (m rhs).sumOfWeights
    let m := write m lhs { m lhs with
      mom4 := (m lhs).mom4 + ((m rhs).mom4 + ww * (w2 - ww + rhsW2) * delta * deltaW * delta2W2 +
        6 * (w2 * (m rhs).mom2 + rhsW2 * (m lhs).mom2) * delta2W2 +
        4 * ((m lhs).sumOfWeights * (m rhs).mom3 - (m rhs).sumOfWeights * (m lhs).mom3) * deltaW) }
    let m := write m lhs { m lhs with
      mom3 := (m lhs).mom3 + ((m rhs).mom3 +
        ww * ((m lhs).sumOfWeights - (m rhs).sumOfWeights) * delta * delta2W2 +
        3 * ((m lhs).sumOfWeights * (m rhs).mom2 - (m rhs).sumOfWeights * (m lhs).mom2) * deltaW) }
    let m := write m lhs { m lhs with
      mom2 := (m lhs).mom2 + ((m rhs).mom2 + ww * delta * deltaW) }
    let m := write m lhs { m lhs with mean := (m lhs).mean + (m rhs).sumOfWeights * deltaW }
    let m := write m lhs { m lhs with sumOfWeights := w }
    let m := write m lhs { m lhs with count := (m lhs).count + (m rhs).count }
    .ok (write m lhs { m lhs with sum := (m lhs).sum + (m rhs).sum })

/-- The loop `for (const auto &item : other.bins_)` of `StreamingHistogram::operator+=`
(streaming_histogram.hpp:172-174): `left` iterations remain and the iterator is on the bin `i`. An
insertion in a vector invalidates its past-the-end iterator, which the loop compares next. -/
def binsLoop (m : P → Hist K) (lhs rhs : P) : Nat → Nat → Out (P → Hist K)
  | 0, _ => .ok m
  | left + 1, i =>
    match (m rhs).bins[i]? with
    | none => .error .ub
    | some item => do
      let bins ← updateBins (m lhs).bins item.value item.weight
      if lhs = rhs ∧ bins.length ≠ (m lhs).bins.length then .error .ub
      else binsLoop (write m lhs { m lhs with bins := bins }) lhs rhs left (i + 1)

/-- `StreamingHistogram::operator+=` (streaming_histogram.hpp:164-176). -/
def histAdd (num : Numeric K) (m : P → Hist K) (lhs rhs : P) : Out (P → Hist K) := do
  let m := write m lhs { m lhs with count := (m lhs).count + (m rhs).count }
  let m := if (m rhs).min < (m lhs).min then write m lhs { m lhs with min := (m rhs).min } else m
  let m := if (m lhs).max < (m rhs).max then write m lhs { m lhs with max := (m rhs).max } else m
  let m ← binsLoop m lhs rhs (m rhs).bins.length 0
  let h ← trim num (m lhs)
  .ok (write m lhs h)

/-- One cell of `Binning2D::operator+=` (binning.hpp:226-236). -/
def binningCell (m : P → Acc K) (lhs rhs : P) : Out (P → Acc K) :=
  if (m lhs).count = 0 ∧ (m rhs).count ≠ 0 then .ok (write m lhs (m rhs))
  else if (m lhs).count ≠ 0 ∧ (m rhs).count ≠ 0 then statsAdd m lhs rhs
  else .ok m

/-- One cell of `Histogram2D::operator+=` (histogram2d.hpp:208-218). -/
def histogramCell (num : Numeric K) (m : P → Hist K) (lhs rhs : P) : Out (P → Hist K) :=
  if (m lhs).bins.length = 0 ∧ (m rhs).bins.length ≠ 0 then .ok (write m lhs (m rhs))
  else if (m lhs).bins.length ≠ 0 ∧ (m rhs).bins.length ≠ 0 then histAdd num m lhs rhs
  else .ok m

end

/-- The loop over the cells of two arrays `a` and `b` (binning.hpp:224-238,
histogram2d.hpp:206-220; descriptive_statistics.hpp:130 and streaming_histogram.hpp:142 of
include/pyinterp, where Eigen, not part of the repository, applies `+=` to the coefficients in
order): `left` cells remain and the next one is `k`. The cell `k` of the array `a` is at the
address `(a, k)`. -/
def cells {A : Type} (op : (Nat × Nat → A) → Nat × Nat → Nat × Nat → Out (Nat × Nat → A))
    (a b : Nat) : Nat → Nat → (Nat × Nat → A) → Out (Nat × Nat → A)
  | 0, _, m => .ok m
  | left + 1, k, m => do
    let m ← op m (a, k) (b, k)
    cells op a b left (k + 1) m

section
variable {K : Type} [Field K] [LinearOrder K]

/-- `DescriptiveStatistics += DescriptiveStatistics` on arrays of `n` accumulators, after the test
of the shapes (descriptive_statistics.hpp:125-132 of include/pyinterp). -/
def statisticsAdd (n a b : Nat) (m : Nat × Nat → Acc K) : Out (Nat × Nat → Acc K) :=
  cells statsAdd a b n 0 m

/-- `Binning2D::operator+=` on grids of `n` cells, after the tests of the axes and of the geodetic
system (binning.hpp:213-240). -/
def binningAdd (n a b : Nat) (m : Nat × Nat → Acc K) : Out (Nat × Nat → Acc K) :=
  cells binningCell a b n 0 m

/-- `StreamingHistogram += StreamingHistogram` on arrays of `n` histograms, after the test of the
shapes (streaming_histogram.hpp:138-144 of include/pyinterp). -/
def streamingAdd (num : Numeric K) (n a b : Nat) (m : Nat × Nat → Hist K) :
    Out (Nat × Nat → Hist K) :=
  cells (histAdd num) a b n 0 m

/-- `Histogram2D::operator+=` on grids of `n` cells, after the test of the axes
(histogram2d.hpp:202-222). -/
def histogramAdd (num : Numeric K) (n a b : Nat) (m : Nat × Nat → Hist K) :
    Out (Nat × Nat → Hist K) :=
  cells (histogramCell num) a b n 0 m

end

end Pyinterp.Alias
