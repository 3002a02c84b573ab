import Verif.Model.Base
import Verif.Model.Math

/-
Model of src/pyinterp/core/include/pyinterp/detail/axis/container.hpp

The abstract class `Abstract<T>` and its subclasses are the constructors of the
inductive type `Container T`; virtual methods are functions by cases. The
template specialisations selected by `std::is_integral` / `std::is_floating_point`
are the two instances of the class `AxisNum`.
-/
namespace Pyinterp

/-- Data of a regular container (container.hpp:483-490 `size_`, `start_`, `step_`;
`aux` is `inv_step_` (537) for floating point types and `step_2_` (573) for
integral types). -/
structure RegData (T : Type) where
  size : Int
  start : T
  step : T
  aux : T
  asc : Bool
  deriving DecidableEq, Repr

/-- The operations that differ between the integral and the floating point
instantiations of the C++ templates. -/
class AxisNum (T : Type) where
  /-- `math::remainder` (detail/math.hpp:98-119) -/
  remainder : T → T → T
  /-- `(stop - start) / (num - 1)`: C++ division of the type -/
  divInt : T → Int → T
  /-- the multiplication `index * step_` -/
  mulInt : Int → T → T
  /-- `T(360)` -/
  ofInt : Int → T
  /-- initial value of the auxiliary member (511 `inv_step_`, 551 `step_2_`) -/
  regAux : T → T
  /-- effect of `flip` on the auxiliary member: 530-533 negates `inv_step_`;
  the integral specialisation inherits `AbstractRegular::flip` and does not touch
  `step_2_` -/
  flipAux : T → T
  /-- unbounded index computed by `find_index` (516-517 / 557-558, 577-581);
  `Err.ub` is the integer division by zero -/
  regIndex : RegData T → T → Out Int
  /-- `math::is_same` (detail/math.hpp:269-290) -/
  isSame : T → T → T → Bool

/-- Integral specialisation. `T(1) >> 1` is the arithmetic shift (floor by 2);
C++ division truncates (`Int.tdiv`). -/
instance : AxisNum Int where
  remainder := Math.remainderI
  divInt a n := a.tdiv n
  mulInt i s := i * s
  ofInt i := i
  regAux s := s / 2
  flipAux a := a
  regIndex r c :=
    if r.step = 0 then .error .ub
    else
      let num := c - r.start
      .ok (if num > 0 then (num + r.aux).tdiv r.step else (num - r.aux).tdiv r.step)
  isSame a b e := decide (|a - b| ≤ e)

/-- Floating point specialisation, over an ordered field. -/
instance {K : Type} [Field K] [LinearOrder K] [FloorRing K] : AxisNum K where
  remainder := Math.remainderF
  divInt a n := a / (n : K)
  mulInt i s := (i : K) * s
  ofInt i := (i : K)
  regAux s := 1 / s
  flipAux a := -a
  regIndex r c := .ok (Math.roundAway ((c - r.start) * r.aux))
  isSame a b e := decide (|a - b| ≤ e) || decide (|a - b| < max |a| |b| * e)

inductive Container (T : Type) where
  /-- container.hpp:132-216 -/
  | undefined
  /-- container.hpp:221-366: `points_` and `is_ascending_` -/
  | irregular (points : List T) (asc : Bool)
  /-- container.hpp:371-582 -/
  | regular (r : RegData T)
  deriving DecidableEq, Repr

section
variable {T : Type} [LinearOrder T] [AddGroup T] [AxisNum T]

/-- container.hpp:124-126 `calculate_is_ascending` on a list of values. -/
def isAscendingList : List T → Bool
  | a :: b :: _ => decide (a < b)
  | _ => true

/-- `Irregular(Vector<T> points)` (container.hpp:228-233). -/
def mkIrregular (points : List T) : Out (Container T) :=
  if points.length = 0 then .error .exn
  else .ok (.irregular points (isAscendingList points))

/-- `AbstractRegular(start, stop, num)` followed by the constructor of the
specialisation (container.hpp:380-394, 508-511, 548-551). Simplification: `num`
is an integer (the C++ code passes it as `T` and truncates it); negative `num`
is left out of the model (`.ub`). -/
def mkRegular (start stop : T) (num : Int) : Out (Container T) :=
  if num < 0 then .error .ub
  else if num = 0 then .error .exn
  else if start = stop then .error .exn
  else
    let step := if num = 1 then stop - start else AxisNum.divInt (stop - start) (num - 1)
    .ok (.regular {
      size := num, start := start, step := step, aux := AxisNum.regAux step,
      -- calculate_is_ascending: coordinate_value(0) < coordinate_value(1)
      asc := if num < 2 then true
        else decide (start + AxisNum.mulInt 0 step < start + AxisNum.mulInt 1 step) })

/-- `std::adjacent_find(start, end) != end`: two equal neighbours exist. -/
def adjacentFind : List T → Bool
  | a :: b :: l => decide (a = b) || adjacentFind (b :: l)
  | _ => false

/-- `std::is_sorted(start, end, cmp)`: no element is `cmp`-smaller than its
predecessor. -/
def isSortedBy (cmp : T → T → Bool) : List T → Bool
  | a :: b :: l => !(cmp b a) && isSortedBy cmp (b :: l)
  | _ => true

namespace Container

/-- `size()` (190-192, 301-303, 469-471). -/
def size : Container T → Int
  | undefined => 0
  | irregular p _ => p.length
  | regular r => r.size

/-- `is_ascending()` (52-54). -/
def isAscending : Container T → Bool
  | undefined => true
  | irregular _ a => a
  | regular r => r.asc

/-- `coordinate_value(index)` without bounds check (278-281, 432-435). For an
undefined container the C++ code returns the fill value, which has no counterpart
in `T`: it is left out of the model (`Err.ub`). -/
def coord : Container T → Int → Out T
  | undefined, _ => .error .ub
  | irregular p _, i => rd p i
  | regular r, i => .ok (r.start + AxisNum.mulInt i r.step)

/-- `front()` (306-308, 459-461). -/
def front : Container T → Out T
  | regular r => .ok r.start
  | c => c.coord 0

/-- `back()` (311-313, 464-466). -/
def back (c : Container T) : Out T := c.coord (c.size - 1)

/-- `min_value()` (291-293, 449-451). -/
def minValue (c : Container T) : Out T :=
  if c.isAscending then c.coord 0 else c.coord (c.size - 1)

/-- `max_value()` (296-298, 454-456). -/
def maxValue (c : Container T) : Out T :=
  if c.isAscending then c.coord (c.size - 1) else c.coord 0

/-- `is_monotonic()` (60, 265-275). -/
def isMonotonic : Container T → Bool
  | irregular p asc =>
    if adjacentFind p then false
    else if asc then isSortedBy (fun a b => decide (a < b)) p
    else isSortedBy (fun a b => decide (b < a)) p
  | _ => true

/-- `flip()` (162, 259-262, 425-429, 530-533). -/
def flip : Container T → Container T
  | undefined => undefined
  | irregular p asc => irregular p.reverse (!asc)
  | regular r => regular { r with
      start := r.start + AxisNum.mulInt (r.size - 1) r.step
      step := -r.step
      aux := AxisNum.flipAux r.aux
      asc := !r.asc }

/-- `operator==` (212-215, 326-332, 474-481). -/
def beq : Container T → Container T → Bool
  | undefined, undefined => true
  | irregular p _, irregular q _ => decide (q.length = p.length ∧ q = p)
  | regular r, regular s => decide (s.step = r.step ∧ s.start = r.start ∧ s.size = r.size)
  | _, _ => false

/-- Private `Irregular::find_index(coordinate, bounded, size, cmp)`
(container.hpp:339-365). `abs` is taken to be `std::abs`. -/
def irregularFind (points : List T) (cmp : T → T → Bool) (c : T) (bounded : Bool) : Out Int := do
  let size : Int := points.length
  let it : Int := lowerBound (fun i => match points[i]? with
    | some v => cmp v c
    | none => false) 0 points.length
  if it = 0 then
    let v ← rd points it
    if cmp c v then return (if bounded then 0 else -1)
    return 0
  if it = size then
    let v ← rd points (it - 1)
    if cmp v c then return (if bounded then size - 1 else -1)
    return size - 1
  let a ← rd points (it - 1)
  let b ← rd points it
  let it := if max (c - a) (-(c - a)) < max (c - b) (-(c - b)) then it - 1 else it
  return it

/-- `find_index(coordinate, bounded)` (205-209, 316-323, 514-527, 554-568). -/
def findIndex (k : Container T) (c : T) (bounded : Bool) : Out Int :=
  match k with
  | undefined => .ok (-1)
  | irregular p asc =>
    if asc then irregularFind p (fun a b => decide (a < b)) c bounded
    else irregularFind p (fun a b => decide (b < a)) c bounded
  | regular r => do
    let index ← AxisNum.regIndex r c
    if index < 0 then return (if bounded then 0 else -1)
    if index ≥ r.size then return (if bounded then r.size - 1 else -1)
    return index

end Container
end

end Pyinterp
