import Mathlib.Algebra.BigOperators.Group.List.Basic

/-
Specification vocabulary for arrays in row-major (C) order.
-/
namespace Pyinterp.Spec

/-- The flat position of an element in an array of this shape. -/
def rowMajor : List Nat → List Nat → Nat
  | _ :: shape, i :: idx => i * shape.prod + rowMajor shape idx
  | _, _ => 0

/-- All the indexes of an array, the last one varying fastest. -/
def allIndexes : List Nat → List (List Nat)
  | [] => [[]]
  | d :: shape => (List.range d).flatMap fun i => (allIndexes shape).map (i :: ·)

/-- An index of an array of this shape. -/
def ValidIndex : List Nat → List Nat → Prop
  | [], [] => True
  | d :: shape, i :: idx => i < d ∧ ValidIndex shape idx
  | _, _ => False

/-- The strides, in elements, of a freshly allocated array in C order. -/
def cStrides : List Nat → List Int
  | [] => []
  | _ :: shape => (shape.prod : Int) :: cStrides shape

/-- The entries of a list whose positions are not in `axes` (`ix` is the position of
the first one). -/
def keepAxes {α : Type} (axes : List Int) (ix : Nat) : List α → List α
  | [] => []
  | i :: l => if (ix : Int) ∈ axes then keepAxes axes (ix + 1) l else i :: keepAxes axes (ix + 1) l

end Pyinterp.Spec
