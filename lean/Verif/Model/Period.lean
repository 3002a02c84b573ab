import Verif.Model.Base

/-!
Model of `pyinterp::Period` and `pyinterp::PeriodList`
(src/pyinterp/core/include/pyinterp/period.hpp), and of the thin Python layer
(src/pyinterp/period.py).

Simplifications: `int64_t` is modelled by `Int` (no overflow).  The
`Eigen::Matrix<Period, -1, 1>` is modelled by a list.
-/
namespace Pyinterp

/-- period.hpp:11-166, members `begin` (163) and `last` (165): the closed interval
of integers `[begin, last]`. -/
structure Period where
  begin_ : Int
  last : Int
  deriving DecidableEq, Repr

namespace Period

/-- period.hpp:13-15: `Period(begin, end, within)`. -/
def mk' (b e : Int) (within : Bool) : Period := ⟨b, e - (if within then 0 else 1)⟩

/-- period.hpp:21 -/
def end_ (p : Period) : Int := p.last + 1

/-- period.hpp:24-30 -/
def length (p : Period) : Int :=
  if p.last < p.begin_ then p.last + 1 - p.begin_ else p.end_ - p.begin_

/-- module/period.cpp `__len__` (:28-35): raises on a negative length. -/
def len (p : Period) : Out Int := if p.length < 0 then .error .exn else .ok p.length

/-- period.hpp:32 -/
def duration (p : Period) : Int := p.end_ - p.begin_

/-- period.hpp:35 -/
def isNull (p : Period) : Bool := decide (p.end_ ≤ p.begin_)

/-- period.hpp:49-51 -/
def containsPoint (p : Period) (x : Int) : Bool := decide (x ≥ p.begin_) && decide (x ≤ p.last)

/-- period.hpp:54-56 -/
def containsPeriod (p q : Period) : Bool :=
  decide (p.begin_ ≤ q.begin_) && decide (p.last ≥ q.last)

/-- period.hpp:67-69 -/
def isAdjacent (p q : Period) : Bool := q.begin_ == p.end_ || p.begin_ == q.end_

/-- period.hpp:78-84 -/
def isAfter (p : Period) (x : Int) : Bool := if p.isNull then false else decide (x < p.begin_)

/-- period.hpp:94-100 -/
def isBefore (p : Period) (x : Int) : Bool := if p.isNull then false else decide (p.last < x)

/-- period.hpp:112-115 -/
def intersects (p q : Period) : Bool :=
  p.containsPoint q.begin_ || q.containsPoint p.begin_ ||
    (decide (q.begin_ < p.begin_) && decide (q.last ≥ p.begin_))

/-- period.hpp:122-134 -/
def intersection (p q : Period) : Period :=
  if p.begin_ > q.begin_ then
    if p.last ≤ q.last then p else mk' p.begin_ q.last true
  else if p.last ≤ q.last then mk' q.begin_ p.last true
  else q

/-- period.hpp:140-149 -/
def merge (p q : Period) : Period :=
  if p.intersects q then
    if p.begin_ < q.begin_ then mk' p.begin_ (if p.last > q.last then p.last else q.last) true
    else mk' q.begin_ (if p.last > q.last then p.last else q.last) true
  else mk' p.begin_ p.begin_ false

/-- period.hpp:157-160 -/
def isClose (p : Period) (date tolerance : Int) : Bool :=
  decide (date ≥ p.begin_ - tolerance) && decide (date ≤ p.last + tolerance)

end Period

namespace PeriodList

/-- period.hpp:183-196: the loop compares each period with its predecessor. -/
def sortedDisjointGo (prev : Period) : List Period → Bool
  | [] => true
  | next :: rest =>
    if prev.intersects next || decide (next.last < prev.begin_) then false
    else sortedDisjointGo next rest

/-- period.hpp:183-196 `are_periods_sorted_and_disjointed`. -/
def areSortedAndDisjointed : List Period → Bool
  | [] => true
  | p :: rest => sortedDisjointGo p rest

/-- period.hpp:199-202: `std::sort` by `begin`.  The order of periods with equal
`begin` is unspecified in C++; the model takes any sorted permutation. -/
def IsSortResult (l l' : List Period) : Prop :=
  l'.Perm l ∧ l'.Pairwise (fun p q => p.begin_ ≤ q.begin_)

/-- period.hpp:212-223 `insert_or_merge`; the output `periods(0 .. kx-1)` is kept
in reverse order, so that `periods(kx - 1)` is the head. -/
def insertOrMerge (out : List Period) (p : Period) : List Period :=
  match out with
  | [] => [p]
  | top :: rest =>
    let overlap := top.merge p
    if overlap.isNull then p :: top :: rest else overlap :: rest

/-- period.hpp:225-237: the three loops; `xs` is `periods_[ix..]`, `ys` is
`other.periods_[jx..]`. -/
def mergeGo (out : List Period) : List Period → List Period → List Period
  | [], [] => out
  | x :: xs, [] => mergeGo (insertOrMerge out x) xs []
  | [], y :: ys => mergeGo (insertOrMerge out y) [] ys
  | x :: xs, y :: ys =>
    if y.isAfter x.begin_ then mergeGo (insertOrMerge out x) xs (y :: ys)
    else mergeGo (insertOrMerge out y) (x :: xs) ys
  termination_by xs ys => xs.length + ys.length

/-- period.hpp:205-241 `merge`. -/
def merge (l other : List Period) : List Period := (mergeGo [] l other).reverse

/-- period.hpp:265-275, the lambda `lookup`: index of the first period, from
`first`, that contains the date or is after it. -/
def lookup (l : List Period) (first : Nat) (date : Int) : Option Nat :=
  if h : first < l.length then
    if l[first].containsPoint date || l[first].isAfter date then some first
    else lookup l (first + 1) date
  else none
  termination_by l.length - first

/-- period.hpp:286-304: the loop over the dates; once it breaks the remaining
flags keep the value `false`. -/
def crossGo (l : List Period) (lastIndex : Option Nat) (first : Nat) : List Int → List Bool
  | [] => []
  | d :: ds =>
    match lookup l first d with
    | none => false :: ds.map (fun _ => false)
    | some i =>
      if some i = lastIndex then false :: ds.map (fun _ => false)
      else
        (match l[i]? with
          | some p => p.containsPoint d || p.isAfter d
          | none => false) :: crossGo l lastIndex i ds

/-- period.hpp:248-306 `cross_a_period`.  `dates[dates.size() - 1]` (262) is read
before anything else: undefined behaviour on an empty vector of dates. -/
def crossAPeriod (l : List Period) (dates : List Int) : Out (List Bool) :=
  match dates.getLast? with
  | none => .error .ub
  | some lastDate =>
    let lastIndex := lookup l 0 lastDate
    match lastIndex.bind (fun i => l[i]?) with
    | some p =>
      if p.containsPoint lastDate then .ok (dates.map fun _ => true)
      else .ok (crossGo l lastIndex 0 dates)
    | none => .ok (crossGo l lastIndex 0 dates)

/-- period.hpp:329-331: the inner loop
`while (!it->contains(date) && !it->is_after(date) && it != end) ++it`.
`it` is dereferenced before it is compared with `end`; `atEnd` is what the
dereference of `end` gives: `.error .ub` in the C++ abstract machine, or
`.ok garbage` for the value that happens to be stored there.  Returns the
remaining periods (`[]` when `it == end`). -/
def advance (atEnd : Out Period) (date : Int) : List Period → Out (List Period)
  | [] => do
    let _ ← atEnd
    -- whatever the two calls return, the loop ends: `it != end` is false
    .ok []
  | p :: ps =>
    if !p.containsPoint date && !p.isAfter date then advance atEnd date ps else .ok (p :: ps)

/-- period.hpp:327-339: the outer loop of `belong_to_a_period`. -/
def belongGo (atEnd : Out Period) (its : List Period) : List Int → Out (List Bool)
  | [] => .ok []
  | d :: ds => do
    match ← advance atEnd d its with
    | [] => .ok (false :: ds.map (fun _ => false))
    | p :: ps => do
      let rest ← belongGo atEnd (p :: ps) ds
      .ok (p.containsPoint d :: rest)

/-- period.hpp:312-342 `belong_to_a_period`. -/
def belongToAPeriod (atEnd : Out Period) (l : List Period) (dates : List Int) :
    Out (List Bool) := belongGo atEnd l dates

/-- period.hpp:356-363 `is_close`. -/
def isClose (l : List Period) (date epsilon : Int) : Bool :=
  l.any (fun p => p.isClose date epsilon)

/-- period.hpp:375-385: the loop of `join_adjacent_periods`; `prev` is
`periods_[jx - 1]` and the head of the (reversed) output is `result.periods_(ix - 1)`. -/
def joinGo (epsilon : Int) (out : List Period) (prev : Period) : List Period → List Period
  | [] => out
  | p :: ps =>
    if p.begin_ - prev.last ≤ epsilon then
      match out with
      | [] => joinGo epsilon [] p ps  -- not reachable: `ix ≥ 1`
      | top :: rest => joinGo epsilon ({ top with last := p.last } :: rest) p ps
    else joinGo epsilon (p :: out) p ps

/-- period.hpp:369-388 `join_adjacent_periods`. -/
def joinAdjacentPeriods (l : List Period) (epsilon : Int) : List Period :=
  match l with
  | [] => []
  | p :: ps => (joinGo epsilon [p] p ps).reverse

/-- The in-place compaction loop shared by period.hpp:397-402 (`within`), 414-420
(`intersection`) and 434-439 (`filter`): `f` gives the period to store at
position `ix`, if any. -/
def compactGo (f : Period → Option Period) (a : List Period) (ix jx : Nat) : List Period :=
  if h : jx < a.length then
    match f a[jx] with
    | some q => compactGo f (a.set ix q) (ix + 1) (jx + 1)
    | none => compactGo f a ix (jx + 1)
  else a.take ix
  termination_by a.length - jx
  decreasing_by all_goals simp_wf; omega

/-- period.hpp:394-405 `within`. -/
def within (l : List Period) (period : Period) : List Period :=
  compactGo (fun p => if period.intersects p then some p else none) l 0 0

/-- period.hpp:411-423 `intersection`. -/
def intersection (l : List Period) (period : Period) : List Period :=
  compactGo (fun p => let r := p.intersection period; if !r.isNull then some r else none) l 0 0

/-- period.hpp:431-442 `filter`. (The test reads `periods_(jx)`, the original
list, and the stored value `result.periods_(jx)`; they are the same value since
the writes are done at positions `ix ≤ jx`, before position `jx + 1` is read.) -/
def filter (l : List Period) (minDuration : Int) : List Period :=
  compactGo (fun p => if p.duration ≥ minDuration then some p else none) l 0 0

/-- src/pyinterp/period.py:399-402, Python `PeriodList.duration`: `last - begin`
(not the C++ `duration`, which is `end - begin`). -/
def pyDurations (l : List Period) : List Int := l.map fun p => p.last - p.begin_

/-- module/period.cpp:88-96 (pickle): the state is the array of periods. -/
def getstate (l : List Period) : List (Int × Int) := l.map fun p => (p.begin_, p.last)

/-- module/period.cpp:92-96 -/
def setstate (s : List (Int × Int)) : List Period := s.map fun x => ⟨x.1, x.2⟩

end PeriodList
end Pyinterp
