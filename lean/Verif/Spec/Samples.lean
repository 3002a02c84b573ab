import Mathlib.Algebra.BigOperators.Group.List.Basic
import Mathlib.Algebra.Order.Field.Basic

/-
Exact statistics of a list of samples (value, weight).
-/
namespace Pyinterp.Spec

variable {K : Type} [Field K]

/-- Σ w -/
def totalWeight (s : List (K × K)) : K := (s.map fun x => x.2).sum

/-- Σ w v -/
def weightedSum (s : List (K × K)) : K := (s.map fun x => x.2 * x.1).sum

/-- Σ w v² -/
def weightedSquares (s : List (K × K)) : K := (s.map fun x => x.2 * x.1 ^ 2).sum

/-- Σ w (v - c)ⁿ -/
def centralSum (n : Nat) (c : K) (s : List (K × K)) : K := (s.map fun x => x.2 * (x.1 - c) ^ n).sum

end Pyinterp.Spec
