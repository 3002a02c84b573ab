import Mathlib.Algebra.Order.Group.Abs

/-
Specification vocabulary for the axis properties: plain lists of coordinates.
-/
namespace Pyinterp.Spec

variable {T : Type} [LinearOrder T] [AddCommGroup T]

/-- The element number `i` of `l` exists and no element of `l` is closer to `c`. -/
def Nearest (l : List T) (c : T) (i : Int) : Prop :=
  ∃ v, 0 ≤ i ∧ l[i.toNat]? = some v ∧ ∀ w ∈ l, |c - v| ≤ |c - w|

/-- Strictly increasing or strictly decreasing. -/
def StrictlyMonotone (l : List T) : Prop :=
  l.Pairwise (· < ·) ∨ l.Pairwise (· > ·)

/-- `c` lies strictly outside the range of the coordinates. -/
def Outside (l : List T) (c : T) : Prop :=
  (∀ v ∈ l, c < v) ∨ (∀ v ∈ l, v < c)

/-- `c` is between `a` and `b` (in any order). -/
def Between (a c b : T) : Prop := (a ≤ c ∧ c ≤ b) ∨ (b ≤ c ∧ c ≤ a)

/-- The pair of indexes `(i, j)` frames `c`: neighbouring valid indexes with `c` between
their coordinates, or, on a circular axis, the two ends with `c` beyond the largest
coordinate. -/
def Frames (l : List T) (circle : Bool) (c : T) (i j : Int) : Prop :=
  ∃ (_ : 0 ≤ i) (_ : 0 ≤ j) (hi : i.toNat < l.length) (hj : j.toNat < l.length),
    ((j = i + 1 ∨ i = j + 1) ∧ Between (l[i.toNat]'hi) c (l[j.toNat]'hj)) ∨
    (circle = true ∧ ((i = (l.length : Int) - 1 ∧ j = 0) ∨ (i = 0 ∧ j = (l.length : Int) - 1)) ∧
      ∀ v ∈ l, v < c)

end Pyinterp.Spec
