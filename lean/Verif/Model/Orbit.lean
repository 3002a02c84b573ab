import Mathlib.Algebra.Order.Floor.Ring
import Mathlib.Data.Rat.Floor
import Verif.Model.Base

/-
Model of the passes of an orbit: src/pyinterp/orbit.py (`Orbit`, `calculate_pass`, `_rearrange_orbit`,
`_calculate_pass_time`, `_equator_properties`, `Swath`). Times are numbers of nanoseconds (`timedelta64`), without
overflow; latitudes and longitudes are numbers of an ordered field (no NaN, no rounding).
-/
namespace Pyinterp.Passes

/-- Indexing of a Python sequence or of a numpy array by an integer (Python language, used by src/pyinterp/orbit.py): a
negative index counts from the end, `IndexError` outside the sequence. -/
def pyGet {T : Type} (l : List T) (i : Int) : Out T :=
  let j := if i < 0 then i + l.length else i
  if j < 0 then .error .exn
  else match l[j.toNat]? with
    | some v => .ok v
    | none => .error .exn

/-- `numpy.roll(l, 1)` (numpy, used at src/pyinterp/orbit.py:115-116, 146-149, 452-455). -/
def roll1 {T : Type} (l : List T) : List T :=
  match l.getLast? with
  | none => []
  | some x => x :: l.dropLast

/-- `int(x)` for a number: truncation towards zero (Python language). -/
def trunc {K : Type} [Field K] [LinearOrder K] [FloorRing K] (x : K) : Int := if x < 0 then ⌈x⌉ else ⌊x⌋

section
variable {K : Type} [Field K] [LinearOrder K]

/-- `numpy.roll(lat, 1) - lat` (src/pyinterp/orbit.py:115, 146, 452). -/
def dyOf (lat : List K) : List K := List.zipWith (fun a b => a - b) (roll1 lat) lat

/-- `numpy.where((dy < 0) & (numpy.roll(dy, 1) >= 0))[0]` (src/pyinterp/orbit.py:116). -/
def ascents (lat : List K) : List Nat :=
  let dy := dyOf lat
  (List.range lat.length).filter fun k => decide (dy.getD k 0 < 0 ∧ (roll1 dy).getD k 0 ≥ 0)

/-- `numpy.where(((dy < 0) & (numpy.roll(dy, 1) >= 0)) | ((dy > 0) & (numpy.roll(dy, 1) <= 0)))[0]`
(src/pyinterp/orbit.py:147-149, 453-455). -/
def turnings (lat : List K) : List Nat :=
  let dy := dyOf lat
  (List.range lat.length).filter fun k =>
    decide ((dy.getD k 0 < 0 ∧ (roll1 dy).getD k 0 ≥ 0) ∨ (dy.getD k 0 > 0 ∧ (roll1 dy).getD k 0 ≤ 0))

/-- `a[indexes]` for an array of indexes returned by `numpy.where` on arrays of the same length (src/pyinterp/orbit.py:152,
456-458, 552-555). -/
def gather {T : Type} (l : List T) (idx : List Nat) : List T := idx.filterMap fun i => l[i]?

/-- `numpy.hstack([a[shift:], a[:shift]])` (src/pyinterp/orbit.py:126-128). -/
def shiftBy {T : Type} (l : List T) (shift : Nat) : List T := l.drop shift ++ l.take shift

/-- The dates of `_rearrange_orbit` (src/pyinterp/orbit.py:128-131): shifted, counted from the first one, modulo the duration
of the cycle. The remainder by zero is `NaT`. -/
def shiftTime (cycle : Int) (time : List Int) (shift : Nat) : Out (List Int) := do
  let t := shiftBy time shift
  let t0 ← pyGet t 0
  if cycle = 0 then .error .nan
  else
    let r := t.map fun v => (v - t0).fmod cycle
    if r.any fun v => decide (v < 0) then .error .exn else .ok r

/-- `_rearrange_orbit` (src/pyinterp/orbit.py:95-132). -/
def rearrange (cycle : Int) (lon lat : List K) (time : List Int) : Out (List K × List K × List Int) :=
  let indexes := ascents lat
  match indexes with
  | [] => .error .exn
  | i0 :: _ =>
    if i0 < indexes.sum / indexes.length then .ok (lon, lat, time)
    else do
      let shift := indexes.getLastD 0
      let t ← shiftTime cycle time shift
      .ok (shiftBy lon shift, shiftBy lat shift, t)

/-- `_calculate_pass_time` (src/pyinterp/orbit.py:135-152). -/
def calculatePassTime (lat : List K) (time : List Int) : Out (List Int) :=
  match turnings lat with
  | [] => .error .exn
  | _ :: rest => .ok (gather time (0 :: rest))

/-- The selection of the samples when the first one is near the equator (src/pyinterp/orbit.py:449-458). -/
def skew (lon lat : List K) (time : List Int) : Out (List K × List K × List Int) := do
  let l0 ← pyGet lat 0
  if -40 ≤ l0 ∧ l0 ≤ 40 then
    let idx := (turnings lat).drop 1
    .ok (gather lon idx, gather lat idx, gather time idx)
  else .ok (lon, lat, time)

/-- `Orbit` (src/pyinterp/orbit.py:155-181), without the height and the spheroid. -/
structure Orbit (K : Type) where
  latitude : List K
  longitude : List K
  passTime : List Int
  time : List Int
  xAl : List K

/-- `cycle_duration` (src/pyinterp/orbit.py:183-185). -/
def Orbit.cycleDuration (o : Orbit K) : Out Int := pyGet o.time (-1)

/-- `passes_per_cycle` (src/pyinterp/orbit.py:187-189). -/
def Orbit.passesPerCycle (o : Orbit K) : Nat := o.passTime.length

/-- `orbit_duration` (src/pyinterp/orbit.py:191-196), in microseconds from a cycle in microseconds: the quotient of two
`timedelta64` is a number of double precision (simplification: not rounded here); `exn` is the division by zero (an infinity or NaN, that `int()` refuses). -/
def Orbit.orbitDuration (o : Orbit K) : Out Int := do
  let c ← o.cycleDuration
  let half := o.passesPerCycle / 2
  if half = 0 then .error .exn else .ok (trunc ((c.tdiv 1000 : Int) / (half : Int) : ℚ))

/-- `pass_duration` (src/pyinterp/orbit.py:205-220). -/
def Orbit.passDuration (o : Orbit K) (number : Int) : Out Int :=
  let n : Int := o.passesPerCycle
  if number < 1 ∨ number > n then .error .exn
  else if number = n then do
    let last ← pyGet o.time (-1)
    let p ← pyGet o.passTime (-1)
    let t1 ← pyGet o.time 1
    let t0 ← pyGet o.time 0
    .ok (last - p + t1 - t0)
  else do
    let b ← pyGet o.passTime number
    let a ← pyGet o.passTime (number - 1)
    .ok (b - a)

/-- `decode_absolute_pass_number` (src/pyinterp/orbit.py:222-233). `rd` is the rounding of the true division of two integers
to double precision. -/
def Orbit.decode (rd : ℚ → ℚ) (o : Orbit K) (number : Int) : Out (Int × Int) :=
  let number := number - 1
  let n : Int := o.passesPerCycle
  if n = 0 then .error .exn
  else .ok (trunc (rd ((number : ℚ) / (n : ℚ))) + 1, number.fmod n + 1)

/-- `encode_absolute_pass_number` (src/pyinterp/orbit.py:235-248). -/
def Orbit.encode (o : Orbit K) (cycle pass : Int) : Out Int :=
  let n : Int := o.passesPerCycle
  if ¬ (1 ≤ pass ∧ pass ≤ n) then .error .exn else .ok ((cycle - 1) * n + pass)

/-- The loop of `iterate` (src/pyinterp/orbit.py:279-290): the items received by a caller that asks for at most `k` items.
Simplification: the duration of the pass is computed with its item, not when the next one is asked for (it cannot fail). -/
def Orbit.iterateFrom (rd : ℚ → ℚ) (o : Orbit K) (last : Int) : Nat → Int → Int → Out (List (Int × Int × Int))
  | 0, _, _ => .ok []
  | k + 1, date, number =>
    if date ≤ last then do
      let cp ← o.decode rd number
      let d ← o.passDuration cp.2
      let rest ← Orbit.iterateFrom rd o last k (date + d) (number + 1)
      .ok ((cp.1, cp.2, date) :: rest)
    else .ok []

/-- `x or default` for a date (src/pyinterp/orbit.py:277-278): `None` and the date zero (1970-01-01, false for numpy) are
replaced. -/
def orDate (x : Option Int) (default : Int) : Int :=
  match x with
  | none => default
  | some v => if v = 0 then default else v

/-- `iterate` (src/pyinterp/orbit.py:258-290); `now` is the current date. -/
def Orbit.iterate (rd : ℚ → ℚ) (o : Orbit K) (now : Int) (first last : Option Int) (number : Int) (k : Nat) :
    Out (List (Int × Int × Int)) := do
  let c ← o.cycleDuration
  let date := orDate first now
  o.iterateFrom rd (orDate last (date + c)) k date number

/-- The indexes of the samples of a pass (src/pyinterp/orbit.py:541-547). -/
def Orbit.passIndexes (o : Orbit K) (number : Int) : Out (List Nat) := do
  let index := number - 1
  if index = (o.passTime.length : Int) - 1 then
    let a ← pyGet o.passTime (-1)
    .ok ((List.range o.time.length).filter fun k => decide (o.time.getD k 0 ≥ a))
  else
    let a ← pyGet o.passTime index
    let b ← pyGet o.passTime (index + 1)
    .ok ((List.range o.time.length).filter fun k => decide (o.time.getD k 0 ≥ a ∧ o.time.getD k 0 < b))

/-- `numpy.abs(lat).argmin()` (numpy, used at src/pyinterp/orbit.py:385): the first index of the smallest value. -/
def argminAbs (lat : List K) : Nat :=
  (List.range lat.length).foldl (fun b k => if |lat.getD k 0| < |lat.getD b 0| then k else b) 0

/-- The two samples of `_equator_properties` (src/pyinterp/orbit.py:384-388), for at least two samples. -/
def equatorIndexes (lat : List K) : Nat × Nat :=
  let i1 := argminAbs lat
  let i0 := if i1 > 0 then i1 - 1 else 1
  if lat.getD i0 0 * lat.getD i1 0 > 0 then
    if i1 < lat.length - 1 then (i1, i1 + 1) else (i1 - 1, i1)
  else (i0, i1)

/-- `a[i0:i1 + 1]` (Python language, used at src/pyinterp/orbit.py:389-390, 419) for indexes that are not negative. -/
def slice {T : Type} (l : List T) (i0 i1 : Nat) : List T := (l.take (i1 + 1)).drop i0

variable [FloorRing K]

/-- `numpy.interp(x, xp, fp)` for two nodes (numpy, used at src/pyinterp/orbit.py:418-419). -/
def interp2 (x x0 x1 f0 f1 : K) : K :=
  if x ≥ x1 then f1 else if x < x0 then f0 else f0 + (f1 - f0) / (x1 - x0) * (x - x0)

/-- `_equator_properties` (src/pyinterp/orbit.py:378-420). `meet lon lat` is the longitude of the first intersection of a
segment with the segment of the equator from `lon[0] - 0.5` to `lon[1] + 0.5`, `dist lon lat` the curvilinear distances
(Boost.Geometry); the result is the longitude and the time (`none`: undefined). -/
def equatorProperties (meet : List K → List K → Option K) (dist : List K → List K → List K)
    (lon lat : List K) (time : List Int) : Out (Option (K × Int)) :=
  if lon.length < 2 then .ok none
  else do
    let ij := equatorIndexes lat
    let lon1 := slice lon ij.1 ij.2
    let lat1 := slice lat ij.1 ij.2
    let _ ← pyGet lon1 0
    let _ ← pyGet lon1 1
    match meet lon1 lat1 with
    | none => .ok none
    | some x =>
      let d := dist [lon1.getD 0 0, x, lon1.getD 1 0] [lat1.getD 0 0, 0, lat1.getD 1 0]
      let t := slice time ij.1 ij.2
      .ok (some (x, trunc (interp2 (d.getD 1 0) (d.getD 0 0) (d.getD 2 0) ((t.getD 0 0 : Int) : K) ((t.getD 1 0 : Int) : K))))

/-- `Pass` (src/pyinterp/orbit.py:307-323). -/
structure Pass (K : Type) where
  lon : List K
  lat : List K
  time : List Int
  xAl : List K
  /-- the longitude and the time at the equator (`none`: undefined) -/
  equator : Option (K × Int)
  deriving DecidableEq

/-- `array[mask]` (numpy, used at src/pyinterp/orbit.py:563-566). -/
def select {T : Type} (mask : List Bool) (l : List T) : List T :=
  (l.zip mask).filterMap fun p => if p.2 then some p.1 else none

/-- The end of `calculate_pass`: the coordinates at the equator (src/pyinterp/orbit.py:568-570). -/
def finishPass (meet : List K → List K → Option K) (dist : List K → List K → List K)
    (lon lat : List K) (time : List Int) (xAl : List K) : Out (Option (Pass K)) := do
  let eq ← equatorProperties meet dist lon lat time
  .ok (some ⟨lon, lat, time, xAl, eq⟩)

/-- `calculate_pass` (src/pyinterp/orbit.py:525-570); `bbox` is `Box.covered_by`. -/
def calculatePass (meet : List K → List K → Option K) (dist : List K → List K → List K)
    (number : Int) (o : Orbit K) (bbox : Option (K → K → Bool)) : Out (Option (Pass K)) := do
  let idx ← o.passIndexes number
  if idx.length < 5 then .ok none
  else
    let lon := gather o.longitude idx
    let lat := gather o.latitude idx
    let time := gather o.time idx
    let xAl := gather o.xAl idx
    match bbox with
    | none => finishPass meet dist lon lat time xAl
    | some box =>
      let mask := List.zipWith box lon lat
      if mask.all (fun b => !b) then .ok none
      else if mask.any id then
        finishPass meet dist (select mask lon) (select mask lat) (select mask time) (select mask xAl)
      else finishPass meet dist lon lat time xAl

/-- The across track distances of `calculate_swath`, in kilometres (src/pyinterp/orbit.py:606-612): the number of pixels of a
half swath and the distances of a line. The arguments are the values after the defaults (`x or default`). `none`: a division
by zero. -/
def acrossTrack (acrossRes alongRes halfSwath halfGap : K) : Out (Int × List K) :=
  if acrossRes = 0 then .error .exn
  else
    let n := trunc ((halfSwath - halfGap) / acrossRes) + 1
    let x := (List.range n.toNat).map fun (j : Nat) => (j : K) * alongRes + halfGap
    .ok (n, (x.map fun v => -v).reverse ++ x)

/-- `x or default` for a number (Python language, used at src/pyinterp/orbit.py:601-604): `None` and zero are replaced. -/
def orNum (x : Option K) (default : K) : K :=
  match x with
  | none => default
  | some v => if v = 0 then default else v

/-- `Swath.mask` (src/pyinterp/orbit.py:336-352) for one across track distance: `none` is NaN. -/
def maskPixel (lo hi x : K) : Option K := if |x| ≥ lo ∧ |x| ≤ hi then some 1 else none

/-- `_insert` of `insert_central_pixel` (src/pyinterp/orbit.py:358-363) for a line of the array. -/
def insertLine {T : Type} (line : List T) (central : Nat) (v : T) : List T := line.take central ++ v :: line.drop central

/-- `central_pixel` (src/pyinterp/orbit.py:365-367). -/
def centralPixel (pixels : Nat) : Nat := (pixels + 1) / 2

end
end Pyinterp.Passes
