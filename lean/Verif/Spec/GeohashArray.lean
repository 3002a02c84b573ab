import Verif.Model.GeohashArray
import Mathlib.Data.Set.Basic

/-
Vocabulary of the statements about arrays of geohash codes (C101-C103).
-/
namespace Pyinterp.Spec
open Pyinterp.Geohash

/-- An array of two dimensions of codes of `itemsize` ≤ 12 bytes, stored row by row without gaps. -/
structure Plain2 (a : CodeArray) : Prop where
  contiguous : a.contiguous = true
  dims : a.ndim = 2
  bytes : a.bytes = true
  row : a.strides.1 = a.shape.2 * a.itemsize
  col : a.strides.2 = a.itemsize
  short : a.itemsize ≤ 12

/-- An array of one dimension of codes of `itemsize` ≤ 12 bytes, stored without gaps. -/
structure Plain1 (a : CodeArray) : Prop where
  contiguous : a.contiguous = true
  dims : a.ndim = 1
  bytes : a.bytes = true
  stride : a.strides.1 = a.itemsize
  short : a.itemsize ≤ 12

/-- The element (i, j) of an array, as numpy defines it. -/
def elem2 (a : CodeArray) (i j : Nat) : List Char := (a.mem.drop (i * a.strides.1 + j * a.strides.2)).take a.itemsize

/-- The element i of an array of one dimension, as numpy defines it. -/
def elem1 (a : CodeArray) (i : Nat) : List Char := (a.mem.drop (i * a.strides.1)).take a.itemsize

/-- The code `c` is at the row i and the column j. -/
def Occurs (a : CodeArray) (c : List Char) (i j : Nat) : Prop := i < a.shape.1 ∧ j < a.shape.2 ∧ elem2 a i j = c

/-- The occurrences of `c` fill exactly the rectangle of the rows r0..r1 and the columns c0..c1. -/
def Fills (a : CodeArray) (c : List Char) (r0 r1 c0 c1 : Nat) : Prop :=
  r0 ≤ r1 ∧ c0 ≤ c1 ∧ ∀ i j, Occurs a c i j ↔ (r0 ≤ i ∧ i ≤ r1 ∧ c0 ≤ j ∧ j ≤ c1)

/-- `c` is at (i, j), and at no place before it (row by row). -/
def FirstAt (a : CodeArray) (c : List Char) (i j : Nat) : Prop :=
  Occurs a c i j ∧ ∀ i' j', Occurs a c i' j' → i < i' ∨ (i = i' ∧ j ≤ j')

/-- Two different cells that touch, by a side or by a corner. -/
def Touch (i j i' j' : Nat) : Prop := ¬ (i = i' ∧ j = j') ∧ i ≤ i' + 1 ∧ i' ≤ i + 1 ∧ j ≤ j' + 1 ∧ j' ≤ j + 1

/-- The smallest ranges of rows and columns that contain a set of cells (each bound is reached). -/
def IsHull (S : ℕ → ℕ → Prop) (r : Range2) : Prop :=
  (∀ i j, S i j → r.1.1 ≤ i ∧ (i : ℤ) ≤ r.1.2 ∧ r.2.1 ≤ j ∧ (j : ℤ) ≤ r.2.2) ∧
  (∃ i j, S i j ∧ r.1.1 = i) ∧ (∃ i j, S i j ∧ r.1.2 = i) ∧ (∃ i j, S i j ∧ r.2.1 = j) ∧ (∃ i j, S i j ∧ r.2.2 = j)

end Pyinterp.Spec
