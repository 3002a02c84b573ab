import Verif.Model.DoubleHistogram
import Verif.Spec.Double

/-
The calls that a user can make to obtain a streaming histogram of doubles, and the samples that it has received.
-/
namespace Pyinterp.Spec

open Double

/-- A history of calls: construction with a maximum number of bins, push of a value (with the weight 1), `+=` of another
histogram, change of the maximum number of bins, `clear`. -/
inductive Calls
  | make (binCount : ℕ)
  | push (c : Calls) (value : ℚ)
  | merge (c d : Calls)
  | resize (c : Calls) (binCount : ℕ)
  | clear (c : Calls)

namespace Calls

/-- The calls of the program. -/
def run : Calls → Out Histo
  | make n => .ok (Histo.make n)
  | push c x => c.run.bind fun h => h.push x 1
  | merge c d => c.run.bind fun h => d.run.bind fun o => h.merge o
  | resize c n => c.run.bind fun h => h.resize n
  | clear c => c.run.map Histo.clear

/-- The samples received since the last `clear`, directly or through a merged histogram. -/
def samples : Calls → List ℚ
  | make _ => []
  | push c x => c.samples ++ [x]
  | merge c d => c.samples ++ d.samples
  | resize c _ => c.samples
  | clear _ => []

/-- The maximum number of bins in force. -/
def capacity : Calls → ℕ
  | make n => n
  | push c _ => c.capacity
  | merge c _ => c.capacity
  | resize _ n => n
  | clear c => c.capacity

/-- Every sample ever pushed is a double between `lo` and `hi`, every maximum number of bins is at least one, and no histogram of
the history has received more than `N` samples. -/
def Within (lo hi : ℚ) (N : ℕ) : Calls → Prop
  | make n => 1 ≤ n
  | push c x => c.Within lo hi N ∧ IsDouble x ∧ lo ≤ x ∧ x ≤ hi ∧ c.samples.length + 1 ≤ N
  | merge c d => c.Within lo hi N ∧ d.Within lo hi N ∧ c.samples.length + d.samples.length ≤ N
  | resize c n => c.Within lo hi N ∧ 1 ≤ n
  | clear c => c.Within lo hi N

/-- Values pushed one after the other. -/
def pushes (c : Calls) (xs : List ℚ) : Calls := xs.foldl push c

end Calls

/-- The samples lie in an interval `[lo, hi]` of numbers of magnitude at most `M`, with `M` far from the limits of the doubles. -/
structure Range (lo hi M : ℚ) : Prop where
  le : lo ≤ hi
  lo_le : |lo| ≤ M
  hi_le : |hi| ≤ M
  M_ge : 2 ^ (-1000 : ℤ) ≤ M
  M_le : M ≤ 2 ^ (900 : ℤ)

/-- The middles of the bins: the weight on the left of the middle of each bin (`s` on the left of the first one) and its value. -/
def middles : ℚ → List HBin → List (ℚ × ℚ)
  | _, [] => []
  | s, b :: l => (s + b.weight / 2, b.value) :: middles (s + b.weight) l

/-- The broken line of the quantiles: from the smallest value with no weight on its left, through the middles of the bins, to the
largest value with all the weight on its left. -/
def profile (h : Histo) : List (ℚ × ℚ) :=
  (0, h.min) :: (middles 0 h.bins ++ [((h.bins.map (·.weight)).sum, h.max)])

/-- The point `(x, y)` lies on a segment of the broken line. -/
def OnProfile (l : List (ℚ × ℚ)) (x y : ℚ) : Prop :=
  ∃ pre post a b, l = pre ++ a :: b :: post ∧ a.1 < b.1 ∧ a.1 ≤ x ∧ x ≤ b.1 ∧ y = a.2 + (x - a.1) / (b.1 - a.1) * (b.2 - a.2)

end Pyinterp.Spec
