import Verif.Model.Crossover
import Verif.Model.Thread

/-
Model of the geometric objects of pyinterp.geodetic:
src/pyinterp/core/include/pyinterp/geodetic/{point,line_string,polygon,multipolygon,box}.hpp,
src/pyinterp/core/lib/geodetic/{line_string,polygon,multipolygon,box}.cpp, the functions on arrays of
src/pyinterp/core/include/pyinterp/geodetic/algorithm.hpp and the bindings of
src/pyinterp/core/module/geodetic.cpp.

`F` is the type of the coordinates; for the construction, the states and the GeoJSON forms it is any type
(double, NaN included). A Python list of numbers is a `List F`, and so on. The casts of Python objects are
not modelled: the lists are assumed to have the depth required.
-/
namespace Pyinterp.Geometry

section
variable {F : Type}

abbrev Point (F : Type) := F × F

/-- `Point::from_geojson` (geodetic/point.hpp:33-38). -/
def Point.fromGeojson (data : List F) : Out (Point F) :=
  match data with
  | [lon, lat] => .ok (lon, lat)
  | _ => .error .exn

/-- `Point::coordinates` (geodetic/point.hpp:41-46). -/
def Point.coordinates (p : Point F) : List F := [p.1, p.2]

/-- `Point::getstate` (geodetic/point.hpp:82-84). -/
def Point.getstate (p : Point F) : List F := [p.1, p.2]

/-- `Point::setstate` (geodetic/point.hpp:88-93). -/
def Point.setstate (state : List F) : Out (Point F) :=
  match state with
  | [lon, lat] => .ok (lon, lat)
  | _ => .error .exn

/-- `geodetic::LineString`: a vector of points (geodetic/line_string.hpp:25). -/
abbrev LineString (F : Type) := List (Point F)

/-- `LineString(lon, lat)` (lib/geodetic/line_string.cpp:15-21). -/
def LineString.ofArrays (lon lat : List F) : Out (LineString F) := do
  Shapes.checkEigen (lon.length, 1) (lat.length, 1)
  pure (lon.zip lat)

/-- `LineString::append` (geodetic/line_string.hpp:54). -/
def LineString.append (l : LineString F) (p : Point F) : LineString F := l ++ [p]

/-- `LineString::operator()` = `__getitem__` (geodetic/line_string.hpp:85-90). -/
def LineString.getitem (l : LineString F) (index : Nat) : Out (Point F) :=
  if l.length ≤ index then .error .exn else rd l index

/-- `LineString::from_geojson` (lib/geodetic/line_string.cpp:23-30). -/
def LineString.fromGeojson : List (List F) → Out (LineString F)
  | [] => .ok []
  | point :: array => do
    let p ← Point.fromGeojson point
    let rest ← LineString.fromGeojson array
    pure (p :: rest)

/-- `LineString::to_geojson()["coordinates"]` (lib/geodetic/line_string.cpp:100-109). -/
def LineString.coordinates (l : LineString F) : List (List F) := l.map Point.coordinates

/-- `LineString::getstate` (lib/geodetic/line_string.cpp:74-86). -/
def LineString.getstate (l : LineString F) : List F × List F := (l.map Prod.fst, l.map Prod.snd)

/-- `LineString::setstate` (lib/geodetic/line_string.cpp:88-98). -/
def LineString.setstate (state : List F × List F) : Out (LineString F) := LineString.ofArrays state.1 state.2

/-- `Polygon`: outer and inner rings (geodetic/polygon.hpp:25). -/
structure Polygon (F : Type) where
  outer : List (Point F)
  inners : List (List (Point F))
  deriving DecidableEq

/-- `Polygon(outer, inners)` (lib/geodetic/polygon.cpp:15-43, module/geodetic.cpp:367-371). -/
def Polygon.make (outer : List (Point F)) (inners : Option (List (List (Point F)))) : Polygon F :=
  { outer := outer, inners := inners.getD [] }

/-- `Polygon::coordinates` (lib/geodetic/polygon.cpp:75-92): the outer ring, then the inner ones. -/
def Polygon.coordinates (p : Polygon F) : List (List (List F)) :=
  p.outer.map Point.coordinates :: p.inners.map fun r => r.map Point.coordinates

/-- The loop over the inner rings of `Polygon::from_geojson` (lib/geodetic/polygon.cpp:55-64): an
empty ring is skipped. -/
def Polygon.innersOf : List (List (List F)) → Out (List (List (Point F)))
  | [] => .ok []
  | inner :: data =>
    if inner.isEmpty then Polygon.innersOf data
    else do
      let ring ← LineString.fromGeojson inner
      let rest ← Polygon.innersOf data
      pure (ring :: rest)

/-- `Polygon::from_geojson` (lib/geodetic/polygon.cpp:45-66). -/
def Polygon.fromGeojson (data : List (List (List F))) : Out (Polygon F) :=
  match data with
  | [] => .ok { outer := [], inners := [] }
  | outer :: inners => do
    let o ← LineString.fromGeojson outer
    let i ← Polygon.innersOf inners
    pure { outer := o, inners := i }

/-- `Polygon::getstate` (geodetic/polygon.hpp:150-152). -/
def Polygon.getstate (p : Polygon F) : List (List (List F)) := p.coordinates

/-- `Polygon::setstate` (geodetic/polygon.hpp:156-161). -/
def Polygon.setstate (state : List (List (List F))) : Out (Polygon F) := Polygon.fromGeojson state

abbrev MultiPolygon (F : Type) := List (Polygon F)

/-- `MultiPolygon::coordinates` (lib/geodetic/multipolygon.cpp:44-50). -/
def MultiPolygon.coordinates (m : MultiPolygon F) : List (List (List (List F))) := m.map Polygon.coordinates

/-- `MultiPolygon::from_geojson` (lib/geodetic/multipolygon.cpp:28-35). -/
def MultiPolygon.fromGeojson : List (List (List (List F))) → Out (MultiPolygon F)
  | [] => .ok []
  | item :: data => do
    let p ← Polygon.fromGeojson item
    let rest ← MultiPolygon.fromGeojson data
    pure (p :: rest)

/-- `MultiPolygon::getstate` and `setstate` (geodetic/multipolygon.hpp:187-199). -/
def MultiPolygon.getstate (m : MultiPolygon F) : List (List (List (List F))) := m.coordinates
def MultiPolygon.setstate (state : List (List (List (List F)))) : Out (MultiPolygon F) := MultiPolygon.fromGeojson state

/-- `MultiPolygon::operator()` = `__getitem__` (geodetic/multipolygon.hpp:150-156). -/
def MultiPolygon.getitem (m : MultiPolygon F) (index : Nat) : Out (Polygon F) :=
  if m.length ≤ index then .error .exn else rd m index

/-- `MultiPolygon::append` (geodetic/multipolygon.hpp:38). -/
def MultiPolygon.append (m : MultiPolygon F) (p : Polygon F) : MultiPolygon F := m ++ [p]

/-- `MultiPolygon::operator+=` = `__iadd__` (geodetic/multipolygon.hpp:41-44). `self` tells that `other` is the
object itself (`m += m`): `std::vector::insert` does not accept iterators into the vector itself. -/
def MultiPolygon.iadd (m other : MultiPolygon F) (self : Bool) : Out (MultiPolygon F) :=
  if self then .error .ub else .ok (m ++ other)

/-- `MultiPolygon::contains` = `__contains__` (geodetic/multipolygon.hpp:92-99); `eq` is `boost::geometry::equals`. -/
def MultiPolygon.contains (eq : Polygon F → Polygon F → Bool) (m : MultiPolygon F) (p : Polygon F) : Bool :=
  m.any fun item => eq item p

/-- `num_interior_rings` (geodetic/polygon.hpp:63-65, geodetic/multipolygon.hpp:162-164). -/
def MultiPolygon.numInteriorRings (m : MultiPolygon F) : Nat := (m.map fun p => p.inners.length).sum

end

section
variable {K : Type} [Field K] [LinearOrder K]

/-- `curvilinear_distance_impl` from the second point (lib/geodetic/line_string.cpp:117-124). -/
def curviLoop (dist : Point K → Point K → K) (previous : Point K) (total : K) : LineString K → List K
  | [] => []
  | p :: l => (total + dist previous p) :: curviLoop dist p (total + dist previous p) l

/-- `LineString::curvilinear_distance` (lib/geodetic/line_string.cpp:111-155). -/
def LineString.curvilinearDistance (dist : Point K → Point K → K) (l : LineString K) : List K :=
  match l with
  | [] => []
  | p :: rest => 0 :: curviLoop dist p 0 rest

/-- One iteration of the workers of `closest_point` on arrays (lib/geodetic/line_string.cpp:232-236 and
245-249): the reads of `lon`, `lat` and the write in `result_lat` (of the size of `lat`) are not checked. -/
def closestAt (closest : LineString K → Point K → Out (Point K)) (l : LineString K) (lon lat : List K) (ix : Nat) :
    Out (Point K) := do
  let x ← rd lon ix
  let y ← rd lat ix
  closest l (x, y)

/-- The state of `closest_point(lon, lat)` after a schedule of the threads (lib/geodetic/line_string.cpp:220-255).
The sizes of `lon` and `lat` are not compared. -/
def closestRun (closest : LineString K → Point K → Out (Point K)) (l : LineString K) (lon lat : List K)
    (sl : List (Nat × Nat)) (schedule : List Nat) : Thread.State (Point K) Err :=
  Thread.run (closestAt closest l lon lat) (Thread.init sl) schedule

/-- One iteration of the workers of `coordinate_distances` (geodetic/algorithm.hpp:166-171). -/
def distanceAt (dist : Point K → Point K → Out K) (lon1 lat1 lon2 lat2 : List K) (ix : Nat) : Out K := do
  let x1 ← rd lon1 ix
  let y1 ← rd lat1 ix
  let x2 ← rd lon2 ix
  let y2 ← rd lat2 ix
  dist (x1, y1) (x2, y2)

/-- `coordinate_distances` (geodetic/algorithm.hpp:145-216): the sizes are checked, then the slices. -/
def distancesRun (hw : Nat) (dist : Point K → Point K → Out K) (lon1 lat1 lon2 lat2 : List K) (numThreads : Nat)
    (schedule : List Nat) : Out (Thread.State K Err) := do
  Shapes.checkEigenAll (lon1.length, 1) [(lat1.length, 1), (lon2.length, 1), (lat2.length, 1)]
  let sl ← Thread.slices hw lon1.length numThreads
  pure (Thread.run (distanceAt dist lon1 lat1 lon2 lat2) (Thread.init sl) schedule)

/-- One iteration of the workers of `covered_by` on arrays (geodetic/algorithm.hpp:91-95). -/
def coveredAt (covered : Point K → Out Bool) (lon lat : List K) (ix : Nat) : Out Bool := do
  let x ← rd lon ix
  let y ← rd lat ix
  covered (x, y)

/-- `covered_by` on arrays (geodetic/algorithm.hpp:70-107). -/
def coveredRun (hw : Nat) (covered : Point K → Out Bool) (lon lat : List K) (numThreads : Nat)
    (schedule : List Nat) : Out (Thread.State Bool Err) := do
  Shapes.checkEigen (lon.length, 1) (lat.length, 1)
  let sl ← Thread.slices hw lon.length numThreads
  pure (Thread.run (coveredAt covered lon lat) (Thread.init sl) schedule)

/-- `Box`: two corners (geodetic/box.hpp:27). -/
structure Box (K : Type) where
  minCorner : Point K
  maxCorner : Point K
  deriving DecidableEq

/-- `Box(min_corner, max_corner)` in C++ (geodetic/box.hpp:36-46). -/
def Box.make (mn mx : Point K) : Out (Box K) :=
  if 180 < mn.1 ∨ 180 < mx.1 ∨ mn.1 < -180 ∨ mx.1 < -180 then .error .exn
  else if mx.1 < mn.1 then .error .exn
  else .ok { minCorner := mn, maxCorner := mx }

/-- `Box(min_corner, max_corner)` in Python (module/geodetic.cpp:176-182): the corners are swapped if the first is
east of the second. -/
def Box.makePy (mn mx : Point K) : Out (Box K) :=
  if mx.1 < mn.1 then Box.make mx mn else Box.make mn mx

/-- `Box::from_geojson` (geodetic/box.hpp:48-54). -/
def Box.fromGeojson (data : List K) : Out (Box K) :=
  match data with
  | [a, b, c, d] => Box.make (a, b) (c, d)
  | _ => .error .exn

/-- `Box::whole_earth` (geodetic/box.hpp:57-59). -/
def Box.wholeEarth : Out (Box K) := Box.make (-180, -90) (180, 90)

/-- `Box::getstate` (geodetic/box.hpp:133-136). -/
def Box.getstate (b : Box K) : List K × List K := (Point.getstate b.minCorner, Point.getstate b.maxCorner)

/-- `Box::setstate` (geodetic/box.hpp:140-146). -/
def Box.setstate (state : List K × List K) : Out (Box K) := do
  let mn ← Point.setstate state.1
  let mx ← Point.setstate state.2
  Box.make mn mx

/-- The setters of `min_corner` and `max_corner` (module/geodetic.cpp:192-205): nothing is checked. -/
def Box.setMinCorner (b : Box K) (p : Point K) : Box K := { b with minCorner := p }
def Box.setMaxCorner (b : Box K) (p : Point K) : Box K := { b with maxCorner := p }

/-- `Crossover::getstate` and `setstate` (geodetic/crossover.hpp:69-83). -/
def crossoverGetstate {F : Type} (c : LineString F × LineString F) : (List F × List F) × (List F × List F) :=
  (LineString.getstate c.1, LineString.getstate c.2)
def crossoverSetstate {F : Type} (s : (List F × List F) × (List F × List F)) : Out (LineString F × LineString F) := do
  let a ← LineString.setstate s.1
  let b ← LineString.setstate s.2
  pure (a, b)

end

end Pyinterp.Geometry
