import Verif.Spec.Axis
import Mathlib.Algebra.Order.Field.Basic

/-
Specification vocabulary for the windows of a grid used by `pyinterp.bicubic`.
-/
namespace Pyinterp.Spec

variable {K : Type} [Field K] [LinearOrder K]

/-- The two coordinates are equal or, on an angular axis, differ by whole turns. -/
def SameCoordinate (angle : Bool) (a b : K) : Prop :=
  if angle then ∃ k : ℤ, a = b + (k : K) * 360 else a = b

/-- `idx` are `2 * n` successive indexes of the axis whose coordinates are `l` (after the last
one comes the first one on a circular axis), `xs` are increasing values of the coordinates with
these indexes, over less than a turn on an angular axis, and `q` is the coordinate `x`, with `n`
of the coordinates on each side; no coordinate of the axis is strictly between the two in the
middle. -/
structure WindowAt (l : List K) (angle circle : Bool) (n : Nat) (x : K) (idx : List Nat)
    (xs : List K) (q : K) : Prop where
  size : idx.length = 2 * n
  size' : xs.length = 2 * n
  valid : ∀ i ∈ idx, i < l.length
  next : ∀ k (h : k + 1 < idx.length), idx[k + 1] = idx[k] + 1 ∨
    (circle = true ∧ idx[k] = l.length - 1 ∧ idx[k + 1] = 0)
  increasing : xs.Pairwise (· < ·)
  turn : angle = true → ∀ a ∈ xs, ∀ b ∈ xs, b < a + 360
  coordinates : ∀ k (h : k < idx.length) (h' : k < xs.length) (h'' : idx[k] < l.length),
    SameCoordinate angle xs[k] l[idx[k]]
  query : SameCoordinate angle q x
  positive : 0 < n
  left : ∀ h : n - 1 < xs.length, xs[n - 1] ≤ q
  right : ∀ h : n < xs.length, q ≤ xs[n]
  cell : ∀ v ∈ l, ∀ w, SameCoordinate angle w v → ∀ (h : n - 1 < xs.length) (h' : n < xs.length),
    ¬ (xs[n - 1] < w ∧ w < xs[n])

/-- There are enough coordinates around `c` for a window of `2 * n` coordinates: `n` not after `c`
and `n` after it (`c` may also be the last of the two coordinates of the window). On a
circular axis, `2 * n` coordinates. -/
def WindowFits (l : List K) (circle : Bool) (n : Nat) (c : K) : Prop :=
  if circle then 2 * n ≤ l.length
  else n ≤ l.countP (· ≤ c) ∧ (n ≤ l.countP (c < ·) ∨ (n = 1 ∧ l.getLast? = some c ∧ 2 ≤ l.length))

end Pyinterp.Spec
