import Verif.Model.Base
import Verif.Model.Math
import Verif.Model.Shapes

/-
Model of src/pyinterp/core/include/pyinterp/detail/geometry/crossover.hpp (plane
branch), src/pyinterp/core/lib/geodetic/crossover.cpp and the bindings of
`calculate_crossover` and `calculate_crossover_list`
(src/pyinterp/core/module/geodetic.cpp:1912-1997).

A point is a pair (longitude, latitude), a half-orbit the list of its points.
The geometric functions of Boost are parameters of the model: the theorems hold
for all of them. They are
* `inter l1 l2`: `boost::geometry::intersection` of two lines, the list of the
  points found (plane or geodetic);
* `dist p q`: `geodetic::distance` for the strategy and the spheroid of the call;
  `none` is a NaN;
* `near l p`: the nearest point query of an R*Tree filled with the points of `l`
  (`none`: the tree returned nothing).
Simplifications: exact arithmetic in an ordered field; no NaN in the coordinates.
-/
namespace Pyinterp.Crossover

abbrev Pt (K : Type) := K × K
abbrev Line (K : Type) := List (Pt K)

section
variable {K : Type} [Field K] [LinearOrder K] [FloorRing K]

/-- `is_retrograde(x1, x2, x3)` (detail/geometry/crossover.hpp:24-31). -/
def isRetrograde (x1 x2 x3 : K) : Bool :=
  let delta := min (max (x1 - x2) (-180)) 180
  let delta := if |delta| = 180 then min (max (x2 - x3) (-180)) 180 else delta
  decide (0 < delta)

/-- `boost::geometry::comparable_distance` of two points of the plane: the square of the distance
(C++ library, called in detail/geometry/crossover.hpp:44). -/
def sqDist (p q : Pt K) : K := (p.1 - q.1) * (p.1 - q.1) + (p.2 - q.2) * (p.2 - q.2)

/-- `distance < min_distance` (detail/geometry/crossover.hpp:45); `none` is the initial
`numeric_limits::max()`. Simplification: every distance is smaller than it. -/
def closer (distance : K) (best : Option K) : Bool :=
  match best with
  | none => true
  | some b => decide (distance < b)

/-- The loop of `nearest_point` (detail/geometry/crossover.hpp:43-49): `ix` is the position of the
iterator, `best` the smallest distance so far and `index` its index. -/
def nearestLoop (point : Pt K) : Line K → Nat → Option K → Nat → Nat
  | [], _, _, index => index
  | p :: l, ix, best, index =>
    let distance := sqDist p point
    if closer distance best then
      nearestLoop point l (ix + 1) (some distance) ix
    else nearestLoop point l (ix + 1) best index

/-- `nearest_point(line, point)` (detail/geometry/crossover.hpp:38-51). -/
def nearestPoint (l : Line K) (point : Pt K) : Nat := nearestLoop point l 0 none 0

/-- The first pair of loops of `normalize_line_strings` (detail/geometry/crossover.hpp:86-95). -/
def shiftUp (crossing : K) (p : Pt K) : Pt K := if p.1 < crossing then (p.1 + 360, p.2) else p

/-- The second pair of loops of `normalize_line_strings` (detail/geometry/crossover.hpp:111-120). -/
def shiftDown (crossing : K) (p : Pt K) : Pt K := if crossing < p.1 then (p.1 - 360, p.2) else p

/-- Longitude of `l[i]` (`rd`: undefined behaviour outside the line; detail/geometry/crossover.hpp:64-68). -/
def lonAt (l : Line K) (i : Int) : Out K := do
  let p ← rd l i
  pure p.1

/-- `l.front().get<0>()` (detail/geometry/crossover.hpp:74). -/
def frontLon (l : Line K) : Out K := lonAt l 0

/-- `l.back().get<0>()` (detail/geometry/crossover.hpp:77). -/
def backLon (l : Line K) : Out K := lonAt l ((l.length : Int) - 1)

/-- `normalize_line_strings(l1, l2)` (detail/geometry/crossover.hpp:57-121). Line 74 compares
`l1.front()` with itself. -/
def normalize (l1 l2 : Line K) : Out (Line K × Line K) := do
  if l1.length < 3 ∨ l2.length < 3 then throw .exn
  let retrograde1 := isRetrograde (← lonAt l1 0) (← lonAt l1 1) (← lonAt l1 2)
  let retrograde2 := isRetrograde (← lonAt l2 0) (← lonAt l2 1) (← lonAt l2 2)
  let crossing ←
    if !retrograde1 && !retrograde2 then do pure (min (← frontLon l1) (← frontLon l1))
    else if !retrograde1 && retrograde2 then do pure (min (← frontLon l1) (← backLon l2))
    else if retrograde1 && !retrograde2 then do pure (min (← backLon l1) (← frontLon l2))
    else do pure (min (← backLon l1) (← backLon l2))
  let l1 := l1.map (shiftUp crossing)
  let l2 := l2.map (shiftUp crossing)
  let crossing ←
    if !retrograde1 && !retrograde2 then do pure (max (← backLon l1) (← backLon l2))
    else if !retrograde1 && retrograde2 then do pure (max (← backLon l1) (← frontLon l2))
    else if retrograde1 && !retrograde2 then do pure (max (← frontLon l1) (← backLon l2))
    else do pure (max (← frontLon l1) (← frontLon l2))
  pure (l1.map (shiftDown crossing), l2.map (shiftDown crossing))

/-- `Crossover<T>::search` and `Crossover::search` (detail/geometry/crossover.hpp:140-162,
lib/geodetic/crossover.cpp:53-75) on the list of the points of the intersection: nothing, the point,
or an exception if there are several different points (`std::set::size`). -/
def search (points : Line K) : Out (Option (Pt K)) :=
  match points with
  | [] => .ok none
  | p :: rest =>
    if rest.length + 1 ≠ 1 then
      if (List.dedup (p :: rest)).length ≠ 1 then .error .exn else .ok (some p)
    else .ok (some p)

/-- `distance > predicate` is false for a NaN (lib/geodetic/crossover.cpp:98, 103, 134, 138, 186, 190). -/
def far (d : Option K) (predicate : K) : Bool :=
  match d with
  | none => false
  | some d => decide (predicate < d)

/-- `geodetic::LineString(lon, lat)` and `detail::geometry::LineString(x, y)`
(lib/geodetic/line_string.cpp:15-21, detail/geometry/line_string.hpp:31-37). -/
def lineString (lon lat : List K) : Out (Line K) := do
  Shapes.checkEigen (lon.length, 1) (lat.length, 1)
  pure (lon.zip lat)

/-- The treatment of one point of the plane, after `nearest`
(lib/geodetic/crossover.cpp:129-142 and 181-194): `none` if it is discarded. -/
def planePoint (dist : Pt K → Pt K → Option K) (lon1 lat1 lon2 lat2 : List K) (predicate : K)
    (l1 l2 : Line K) (point : Pt K) : Out (Option (Pt K × Nat × Nat)) := do
  let ix1 := nearestPoint l1 point
  let ix2 := nearestPoint l2 point
  let geodetic : Pt K := (Math.normalizeAngleF point.1 (-180) 360, point.2)
  if far (dist geodetic (← rd lon1 ix1, ← rd lat1 ix1)) predicate then return none
  if far (dist geodetic (← rd lon2 ix2, ← rd lat2 ix2)) predicate then return none
  return some (geodetic, ix1, ix2)

/-- `NearestPoint(line)(point)` (lib/geodetic/crossover.cpp:19-40): `result[0]` of an empty vector is
undefined behaviour. -/
def treeNearest (near : Line K → Pt K → Option Nat) (l : Line K) (point : Pt K) : Out Nat :=
  match near l point with
  | none => .error .ub
  | some i => .ok i

/-- `Crossover::nearest` (lib/geodetic/crossover.cpp:93-108). -/
def nearest (near : Line K → Pt K → Option Nat) (dist : Pt K → Pt K → Option K) (l1 l2 : Line K)
    (point : Pt K) (predicate : K) : Out (Option (Nat × Nat)) := do
  let ix1 ← treeNearest near l1 point
  if far (dist (← rd l1 ix1) point) predicate then return none
  let ix2 ← treeNearest near l2 point
  if far (dist (← rd l2 ix2) point) predicate then return none
  return some (ix1, ix2)

/-- The treatment of one point on the ellipsoid (lib/geodetic/crossover.cpp:150-154 and 207-211). -/
def geodeticPoint (near : Line K → Pt K → Option Nat) (dist : Pt K → Pt K → Option K) (l1 l2 : Line K)
    (predicate : K) (point : Pt K) : Out (Option (Pt K × Nat × Nat)) := do
  match ← nearest near dist l1 l2 point predicate with
  | none => return none
  | some (i, j) => return some (point, i, j)

/-- `crossover` (lib/geodetic/crossover.cpp:110-155), `calculate_crossover` with the predicate
given (module/geodetic.cpp:1912-1925; the default predicate is 40 075 000 m).
`interP` is the intersection in the plane, `interG` on the ellipsoid. -/
def crossover (interP interG : Line K → Line K → Line K) (near : Line K → Pt K → Option Nat)
    (dist : Pt K → Pt K → Option K) (lon1 lat1 lon2 lat2 : List K) (predicate : K) (cartesian : Bool) :
    Out (Option (Pt K × Nat × Nat)) := do
  Shapes.checkSize lon1.length lat1.length
  Shapes.checkSize lon2.length lat2.length
  let l1 ← lineString lon1 lat1
  let l2 ← lineString lon2 lat2
  if cartesian then do
    let (l1, l2) ← normalize l1 l2
    match ← search (interP l1 l2) with
    | none => return none
    | some point => planePoint dist lon1 lat1 lon2 lat2 predicate l1 l2 point
  else do
    match ← search (interG l1 l2) with
    | none => return none
    | some point => geodeticPoint near dist l1 l2 predicate point

/-- The loops of `crossover_list` (lib/geodetic/crossover.cpp:180-195 and 206-212): the points that
are not discarded, in the order of the intersection. -/
def collect (f : Pt K → Out (Option (Pt K × Nat × Nat))) : Line K → Out (List (Pt K × Nat × Nat))
  | [] => .ok []
  | p :: l => do
    let r ← f p
    let rest ← collect f l
    match r with
    | none => return rest
    | some x => return x :: rest

/-- `crossover_list` (lib/geodetic/crossover.cpp:157-214), `calculate_crossover_list`
(module/geodetic.cpp:1951-1964). -/
def crossoverList (interP interG : Line K → Line K → Line K) (near : Line K → Pt K → Option Nat)
    (dist : Pt K → Pt K → Option K) (lon1 lat1 lon2 lat2 : List K) (predicate : K) (cartesian : Bool) :
    Out (List (Pt K × Nat × Nat)) := do
  Shapes.checkSize lon1.length lat1.length
  Shapes.checkSize lon2.length lat2.length
  let l1 ← lineString lon1 lat1
  let l2 ← lineString lon2 lat2
  if cartesian then do
    let (l1, l2) ← normalize l1 l2
    collect (planePoint dist lon1 lat1 lon2 lat2 predicate l1 l2) (interP l1 l2)
  else
    collect (geodeticPoint near dist l1 l2 predicate) (interG l1 l2)

end

end Pyinterp.Crossover
