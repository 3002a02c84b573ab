import Verif.Model.StreamingHistogram
import Verif.Spec.Samples

/-
The streaming histograms that a user can obtain, with the samples that they
have received.
-/
namespace Pyinterp.Spec

open Streaming

variable {K : Type} [Field K] [LinearOrder K]

/-- `Reach num B h s`: the histogram `h` is obtained by a sequence of calls in which
the samples `s` have been received (directly or through merged histograms) since
the last clear. Values are at most `B` in magnitude, weights are positive, the
maximum numbers of bins are at least one. The Python API never sets `weighted_diff`
(streaming_histogram.hpp wrapper, allocate_accumulators). -/
inductive Reach (num : Numeric K) (B : K) : Hist K → List (K × K) → Prop
  | new (n : Nat) : 1 ≤ n → Reach num B (make num n false) []
  | push {h h' : Hist K} {s : List (K × K)} (v w : K) : Reach num B h s → |v| ≤ B → 0 < w →
      Streaming.push num h v w = .ok h' → Reach num B h' (s ++ [(v, w)])
  | merge {h o h' : Hist K} {s t : List (K × K)} : Reach num B h s → Reach num B o t →
      Streaming.merge num h o = .ok h' → Reach num B h' (s ++ t)
  | resize {h h' : Hist K} {s : List (K × K)} (n : Nat) : Reach num B h s → 1 ≤ n →
      Streaming.resize num h n = .ok h' → Reach num B h' s
  | clear {h : Hist K} {s : List (K × K)} : Reach num B h s → Reach num B (Streaming.clear num h) []

/-- The number type: the largest number is more than twice the largest sample,
the smallest positive number is positive. -/
def Fits (num : Numeric K) (B : K) : Prop := 2 * B < num.max ∧ 0 < num.min ∧ 0 ≤ B

/-- bins in increasing order of value -/
def SortedBins (l : List (Bin K)) : Prop := l.Pairwise fun a b => a.value ≤ b.value

/-- the bins as samples -/
def asSamples (l : List (Bin K)) : List (K × K) := l.map fun b => (b.value, b.weight)

end Pyinterp.Spec
