import Verif.Model.Geohash

/-
Model of the functions of src/pyinterp/core/lib/geohash/string.cpp on arrays: `where`, `bounding_boxes` of a polygon, `encode` and
`decode` of arrays; and of `GeoHash.grid` (src/pyinterp/_geohash.py).

The intersection of a cell with a polygon and the envelope of a polygon are Boost: parameters.
-/
namespace Pyinterp.Geohash
open Pyinterp

/-! ### Arrays of codes -/

/-- What pybind11 and numpy tell about an array of codes: the number of dimensions, the flag `C_CONTIGUOUS`, the kind of the
elements (is it 'S'?), the shape, the strides in bytes, and the memory from the first element on. `itemsize` is the size of
the elements; the code does not read it. The strides are those of the buffer protocol (`hash.request()`), which numpy
computes from the shape when the array is contiguous. -/
structure CodeArray where
  contiguous : Bool
  ndim : Nat
  bytes : Bool
  shape : Nat × Nat
  strides : Nat × Nat
  itemsize : Nat
  mem : List Char

/-- The array of one dimension that holds texts of `n` bytes: `Array` (include/pyinterp/geohash/string.hpp:25-66), what `encode` and
`bounding_boxes` return. -/
def arrayOf (n : Nat) (codes : List (List Char)) : CodeArray where
  contiguous := true
  ndim := 1
  bytes := true
  shape := (codes.length, 0)
  strides := (n, 0)
  itemsize := n
  mem := codes.flatten

/-- `Array::get_info(hash, 1)` (string.cpp:20-39): `shape.1` and `strides.1` are those of the only dimension. -/
def getInfo1 (a : CodeArray) : Out Unit :=
  if !a.contiguous then .error .exn
  else if a.ndim ≠ 1 then .error .exn
  else if !a.bytes then .error .exn
  else if 12 < a.strides.1 then .error .exn
  else .ok ()

/-- `Array::get_info(hash, 2)` (string.cpp:20-27, 40-52). -/
def getInfo2 (a : CodeArray) : Out Unit :=
  if !a.contiguous then .error .exn
  else if a.ndim ≠ 2 then .error .exn
  else if a.strides.1 ≠ a.shape.2 * a.strides.2 ∨ a.bytes = false then .error .exn
  else if 12 < a.strides.2 then .error .exn
  else .ok ()

/-- The `count` bytes from `ptr` on. -/
def CodeArray.read (a : CodeArray) (ptr count : Nat) : List Char := (a.mem.drop ptr).take count

section
variable {K : Type} [Field K] [LinearOrder K] [IsStrictOrderedRing K] [FloorRing K]

/-- `string::encode(lon, lat, precision)` (string.cpp:80-98), called from Python after `check_range` (module/geohash/string.cpp:20-25,
28-36): precisions above 12 are refused, 0 is not. -/
def encodeArray (cpu : Cpu) (lon lat : List K) (precision : Nat) : Out (List (List Char)) :=
  if 12 < precision then .error .exn
  else if lon.length ≠ lat.length then .error .exn
  else (lon.zip lat).mapM fun p => strEncodeLonLat cpu p.1 p.2 precision

/-- `string::decode(hash, round)` (string.cpp:124-143). -/
def decodeArray (cpu : Cpu) (a : CodeArray) (round : Bool) : Out (List (Point K)) := do
  let _ ← getInfo1 a
  let count := a.strides.1
  (List.range a.shape.1).mapM fun ix => strDecode cpu (a.read (ix * count) count) round

end

/-! ### `where` -/

/-- First and last rows, first and last columns. -/
abbrev Range2 := (Int × Int) × (Int × Int)

/-- `shift_row` and `shift_col` (string.cpp:344-347). -/
def shifts : List (Int × Int) :=
  [-1, -1, -1, 0, 1, 0, 1, 1].zip [-1, 1, 0, -1, -1, 1, 0, 1]

/-- The update of the ranges by the neighbour (i, j) (string.cpp:385-391). -/
def widen (r : Range2) (i j : Int) : Range2 :=
  ((min r.1.1 i, max r.1.2 i), (min r.2.1 j, max r.2.2 j))

/-- The code of the cell (i, j): `ptr + (i * cols + j) * chars` (string.cpp:368, 383). -/
def cellCode (a : CodeArray) (i j : Int) : List Char :=
  a.read ((i * a.shape.2 + j) * a.strides.2).toNat a.strides.2

/-- The loop over the neighbours (string.cpp:378-394). -/
def scanNeighbors (a : CodeArray) (ix jx : Int) (r : Range2) : Range2 :=
  shifts.foldl (fun r s =>
    let i := ix + s.1
    let j := jx + s.2
    if 0 ≤ i ∧ i < a.shape.1 ∧ 0 ≤ j ∧ j < a.shape.2 then
      if cellCode a ix jx = cellCode a i j then widen r i j else r
    else r) r

/-- The body of the loop of `where` (string.cpp:368-394): the dictionary is a list of keys and values. -/
def scanCell (a : CodeArray) (m : List (List Char × Range2)) (p : Int × Int) : List (List Char × Range2) :=
  let code := cellCode a p.1 p.2
  if (m.lookup code).isNone then m ++ [(code, ((p.1, p.1), (p.2, p.2)))]
  else m.map fun e => if e.1 = code then (e.1, scanNeighbors a p.1 p.2 e.2) else e

/-- The order of the visits (string.cpp:366-367). -/
def positions (rows cols : Nat) : List (Int × Int) :=
  (List.range rows).flatMap fun (i : Nat) => (List.range cols).map fun (j : Nat) => ((i : Int), (j : Int))

/-- `where` (string.cpp:340-399). -/
def «where» (a : CodeArray) : Out (List (List Char × Range2)) := do
  let _ ← getInfo2 a
  pure ((positions a.shape.1 a.shape.2).foldl (scanCell a) [])

/-! ### `bounding_boxes` of a polygon -/

section
variable {K : Type} [Field K] [LinearOrder K] [IsStrictOrderedRing K] [FloorRing K]

/-- `mask_cell` (string.cpp:225-258): `result(lon, lat)`; the list is indexed by `lat` first. `intersects` is
`boost::geometry::intersects(cell, geometry)`. The threads (slices of the latitudes) are those of C29. -/
def maskCell (cpu : Cpu) (intersects : Box K → Bool) (err : K × K) (sw : Point K) (lonStep latStep bits : Nat) :
    Out (List (List Bool)) :=
  (List.range latStep).mapM fun (lat : Nat) =>
    (List.range lonStep).mapM fun (lon : Nat) => do
      let code ← encode cpu ⟨sw.lon + (lon : K) * err.1, sw.lat + (lat : K) * err.2⟩ bits
      let box : Box K ← boundingBox cpu code bits
      pure (intersects box)

/-- One cell of the second loop of `select_cell` (string.cpp:284-292). -/
def selectOne (cpu : Cpu) (err : K × K) (sw : Point K) (bits precision : Nat) (mask : List (List Bool)) (lat lon : Nat) :
    Out (List (List Char)) :=
  if (mask.getD lat []).getD lon false then do
    let code ← encode cpu ⟨sw.lon + (lon : K) * err.1, sw.lat + (lat : K) * err.2⟩ bits
    pure [encode32 code precision]
  else .ok []

/-- `select_cell` (string.cpp:262-296). -/
def selectCell (cpu : Cpu) (err : K × K) (sw : Point K) (lonStep latStep bits precision : Nat) (mask : List (List Bool)) :
    Out (List (List Char)) := do
  let rows ← (List.range latStep).mapM fun (lat : Nat) =>
    (List.range lonStep).mapM fun (lon : Nat) => selectOne cpu err sw bits precision mask lat lon
  return rows.flatten.flatten

/-- `bounding_boxes(geometry, precision)` (string.cpp:299-337) called from Python after `check_range`
(module/geohash/string.cpp:105-111, 131-137). -/
def geometryBoxes (cpu : Cpu) (envelope : Box K) (intersects : Box K → Bool) (precision : Nat) : Out (List (List Char)) :=
  if 12 < precision then .error .exn
  else do
    let bits := precision * 5
    let err : K × K := errorWithPrecision bits
    let (hashSw, lonStep, latStep) ← gridProperties cpu envelope bits
    let sw : Point K ← decode cpu hashSw bits false
    let mask ← maskCell cpu intersects err sw lonStep latStep bits
    selectCell cpu err sw lonStep latStep bits precision mask

/-! ### The grid of the codes -/

/-- `numpy.ndarray.reshape((nlat, nlon))`: the rows. -/
def reshape {α : Type} (nlat nlon : Nat) (l : List α) : List (List α) :=
  (List.range nlat).map fun i => (l.drop (i * nlon)).take nlon

/-- The dataset returned by `GeoHash.grid`. -/
structure CodeGrid (K : Type) where
  codes : List (List (List Char))
  lon : List K
  lat : List K
  lonUnits : String
  latUnits : String

/-- The second half of `GeoHash.grid` (_geohash.py:60-84): `reshape` refuses another number of codes; `grid[-1, :]` and
`grid[:, 0]` are IndexErrors on an empty grid. -/
def codeGridOf (cpu : Cpu) (nlon nlat : Nat) (codes : List (List Char)) : Out (CodeGrid K) :=
  if codes.length ≠ nlat * nlon then .error .exn
  else if nlat = 0 ∨ nlon = 0 then .error .exn
  else do
    let grid := (reshape nlat nlon codes).reverse
    let lons ← (grid.getLastD []).mapM fun s => (strDecode cpu s false : Out (Point K))
    let lats ← (grid.map fun r => r.headD []).mapM fun s => (strDecode cpu s false : Out (Point K))
    pure { codes := grid, lon := lons.map Point.lon, lat := lats.map Point.lat,
           lonUnits := "degrees_north", latUnits := "degrees_east" }

/-- `core.geohash.bounding_boxes(box, precision)`: `check_range`, then the codes (module/geohash/string.cpp:20-25, 84-90). -/
def checkedBoxes (cpu : Cpu) (box : Option (Box K)) (precision : Nat) : Out (List (List Char)) :=
  if 12 < precision then .error .exn else strBoundingBoxes cpu box precision

/-- `GeoHash.grid` (_geohash.py:44-84). The number of cells in longitude and latitude is that of `GeoHash::grid_properties`
(geohash.hpp:143-153). `check_range` comes with `bounding_boxes`. -/
def codeGrid (cpu : Cpu) (box : Option (Box K)) (precision : Nat) : Out (CodeGrid K) := do
  let bbox := box.getD ⟨⟨-180, -90⟩, ⟨180, 90⟩⟩
  let p ← gridProperties cpu bbox (precision * 5)
  let codes ← checkedBoxes cpu (some bbox) precision
  codeGridOf cpu p.2.1 p.2.2 codes

end
end Pyinterp.Geohash
