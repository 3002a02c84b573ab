import Verif.Model.AxisContainer

/-
Model of `detail::fill_line`, `fill::matrix` and `fill::vector`
(src/pyinterp/core/include/pyinterp/fill.hpp:201-270, 681-724).

`T` is `int64_t` (`Int`, without overflow) or a floating point type (an ordered field); `none` is
NaN. A line is a function of the index together with its size.
-/
namespace Pyinterp.FillLine
open Pyinterp

variable {T : Type} [CommRing T] [LinearOrder T] [AxisNum T]

/-- `x[jx] = v` -/
def put {V : Type} (x : Nat → V) (jx : Nat) (v : V) : Nat → V := fun j => if j = jx then v else x j

/-- `(x1 - x0) / di` (fill.hpp:226, 250): the division of the type; NaN if one of them is. -/
def slope (x0 x1 : Option T) (di : Int) : Option T := do
  let a ← x0
  let b ← x1
  some (AxisNum.divInt (b - a) di)

/-- `dx * di + x0` (fill.hpp:229, 257). -/
def ahead (dx : Option T) (di : Nat) (x0 : Option T) : Option T := do
  let d ← dx
  let a ← x0
  some (d * (di : T) + a)

/-- `x0 - dx * di` (fill.hpp:265). -/
def behind (dx : Option T) (di : Nat) (x0 : Option T) : Option T := do
  let d ← dx
  let a ← x0
  some (a - d * (di : T))

/-- The local variables of the first loop: `x`, `last_valid`, `first_valid` (`none` is -1). -/
structure Loop (T : Type) where
  x : Nat → Option T
  last : Option Nat
  first : Option Nat

/-- One iteration of the first loop (fill.hpp:217-239). -/
def step (undef : Nat → Bool) (s : Loop T) (ix : Nat) : Loop T :=
  if !undef ix then
    match s.last with
    | some last =>
      if ix - last > 1 then
        let x0 := s.x last
        let x1 := s.x ix
        let dx := slope x0 x1 ((ix - last : Nat) : Int)
        { s with
          x := (List.range' (last + 1) (ix - (last + 1))).foldl
            (fun x jx => put x jx (ahead dx (jx - last) x0)) s.x
          last := some ix }
      else if s.first = none then { s with first := some ix, last := some ix }
      else { s with last := some ix }
    | none =>
      if s.first = none then { s with first := some ix, last := some ix }
      else { s with last := some ix }
  else s

/-- `fill_line` (fill.hpp:207-270): the new line and the new mask. -/
def fillLine (size : Nat) (x : Nat → Option T) (undef : Nat → Bool) :
    (Nat → Option T) × (Nat → Bool) :=
  let s := (List.range size).foldl (step undef) { x := x, last := none, first := none }
  if s.last = s.first then (s.x, fun _ => true)
  else
    match s.first, s.last with
    | some first, some last =>
      let x0 := s.x first
      let x1 := s.x last
      let dx := slope x0 x1 ((last : Int) - (first : Int))
      let x := if last + 1 < size then
          (List.range' (last + 1) (size - (last + 1))).foldl
            (fun x jx => put x jx (ahead dx (jx - last) x1)) s.x
        else s.x
      let x := if first > 0 then
          (List.range first).foldl (fun x jx => put x jx (behind dx (first - jx) x0)) x
        else x
      (x, fun _ => false)
    | _, _ => (s.x, fun _ => false)

/-- The mask of `vector` and `matrix` (fill.hpp:687-692, 717-722): `fill = none` stands for a filling value that
`Fill<T>::is` (detail/math.hpp:304-332) recognises: NaN, or the largest 64-bit integer; the mask is then that of NaN. -/
def maskOf (fill : Option T) (v : Option T) : Bool :=
  match fill with
  | none => v.isNone
  | some f => decide (v = some f)

/-- `vector` (fill.hpp:709-724). -/
def vector (size : Nat) (x : Nat → Option T) (fill : Option T) : Nat → Option T :=
  (fillLine size x (fun i => maskOf fill (x i))).1

/-- An iteration of the first loop of `matrix` (fill.hpp:695-702). The state: the values and the mask. -/
def rowPass (cols : Nat) (s : (Nat → Nat → Option T) × (Nat → Nat → Bool)) (ix : Nat) :
    (Nat → Nat → Option T) × (Nat → Nat → Bool) :=
  if (List.range cols).all (s.2 ix) then s
  else
    let r := fillLine cols (s.1 ix) (s.2 ix)
    (put s.1 ix r.1, put s.2 ix r.2)

/-- An iteration of the second loop of `matrix` (fill.hpp:703-706). -/
def colPass (rows : Nat) (s : (Nat → Nat → Option T) × (Nat → Nat → Bool)) (iy : Nat) :
    (Nat → Nat → Option T) × (Nat → Nat → Bool) :=
  let r := fillLine rows (fun i => s.1 i iy) (fun i => s.2 i iy)
  (fun i => put (s.1 i) iy (r.1 i), fun i => put (s.2 i) iy (r.2 i))

/-- `matrix` (fill.hpp:681-707). -/
def matrix (rows cols : Nat) (x : Nat → Nat → Option T) (fill : Option T) : Nat → Nat → Option T :=
  let s := (x, fun i j => maskOf fill (x i j))
  let s := (List.range rows).foldl (rowPass cols) s
  ((List.range cols).foldl (colPass rows) s).1

end Pyinterp.FillLine
