import Mathlib.Algebra.Order.Field.Basic
import Mathlib.Algebra.Order.Floor.Ring
import Mathlib.Data.Int.Log
import Batteries.Data.BitVec
import Verif.Model.Base
import Verif.Model.Math

/-
Model of the geohash code: src/pyinterp/core/lib/geohash/{int64,string,base32}.cpp
and src/pyinterp/core/include/pyinterp/{geohash.hpp,geohash/*.hpp}, and of the
part of src/pyinterp/core/include/pyinterp/geodetic/box.hpp that it uses.

`uint32_t` / `uint64_t` are `BitVec 32` / `BitVec 64`. Coordinates are exact
numbers of an ordered field `K` instead of `double`.
-/
namespace Pyinterp.Geohash

/-- `geodetic::Point` (geodetic/point.hpp:20-64): longitude and latitude. -/
structure Point (K : Type) where
  lon : K
  lat : K
  deriving DecidableEq

/-- `geodetic::Box` (geodetic/box.hpp:27-44): two corners. -/
structure Box (K : Type) where
  minCorner : Point K
  maxCorner : Point K
  deriving DecidableEq

/-! ### Bits -/

/-- `codec::spread` (int64.cpp:40-48). -/
def spread (x : BitVec 32) : BitVec 64 :=
  let r := x.setWidth 64
  let r := (r ||| (r <<< 16)) &&& 0x0000FFFF0000FFFF#64
  let r := (r ||| (r <<< 8)) &&& 0x00FF00FF00FF00FF#64
  let r := (r ||| (r <<< 4)) &&& 0x0F0F0F0F0F0F0F0F#64
  let r := (r ||| (r <<< 2)) &&& 0x3333333333333333#64
  (r ||| (r <<< 1)) &&& 0x5555555555555555#64

/-- `codec::squash` (int64.cpp:52-60). -/
def squash (x : BitVec 64) : BitVec 32 :=
  let x := x &&& 0x5555555555555555#64
  let x := (x ||| (x >>> 1)) &&& 0x3333333333333333#64
  let x := (x ||| (x >>> 2)) &&& 0x0F0F0F0F0F0F0F0F#64
  let x := (x ||| (x >>> 4)) &&& 0x00FF00FF00FF00FF#64
  let x := (x ||| (x >>> 8)) &&& 0x0000FFFF0000FFFF#64
  let x := (x ||| (x >>> 16)) &&& 0x00000000FFFFFFFF#64
  x.setWidth 32

/-- `codec::interleave` (int64.cpp:64-66). -/
def interleave (x y : BitVec 32) : BitVec 64 := spread x ||| (spread y <<< 1)

/-- `codec::deinterleave` (int64.cpp:70-72). -/
def deinterleave (x : BitVec 64) : BitVec 32 × BitVec 32 := (squash x, squash (x >>> 1))

/-- number of bits set in `mask` strictly below position `i` -/
def rank (mask : BitVec 64) : Nat → Nat
  | 0 => 0
  | i + 1 => rank mask i + (if mask.getLsbD i then 1 else 0)

/-- position of the `k`-th bit set in `mask` (64 when there is none), searched
from position `i` on `fuel` positions -/
def select (mask : BitVec 64) (k : Nat) : Nat → Nat → Nat
  | _, 0 => 64
  | i, fuel + 1 =>
    if mask.getLsbD i && rank mask i == k then i else select mask k (i + 1) fuel

/-- The x86 instruction PDEP called by `codec::pdepq` (int64.cpp:119-135): the low
bits of `x` go to the positions of the bits set in `mask`. -/
def pdepq (x mask : BitVec 64) : BitVec 64 :=
  BitVec.ofFnLE fun i : Fin 64 => mask.getLsbD i && x.getLsbD (rank mask i)

/-- The x86 instruction PEXT called by `codec::pextq` (int64.cpp:140-156): the bits
of `x` selected by `mask` are gathered in the low bits. -/
def pextq (x mask : BitVec 64) : BitVec 64 :=
  BitVec.ofFnLE fun k : Fin 64 => x.getLsbD (select mask k 0 64)

/-- `codec::deinterleave_bim2` (int64.cpp:172-179). -/
def deinterleaveBim2 (x : BitVec 64) : BitVec 32 × BitVec 32 :=
  ((pextq x 0x5555555555555555#64).setWidth 32, (pextq x 0xAAAAAAAAAAAAAAAA#64).setWidth 32)

/-- The CPU has the BMI2 instructions (`have_bim2`, int64.cpp:190). -/
inductive Cpu where
  | bmi2
  | portable
  deriving DecidableEq

/-- `deinterleaver` (int64.cpp:194-195). -/
def deinterleaver : Cpu → BitVec 64 → BitVec 32 × BitVec 32
  | .bmi2 => deinterleaveBim2
  | .portable => deinterleave

section
variable {K : Type} [Field K] [LinearOrder K] [IsStrictOrderedRing K] [FloorRing K]

/-! ### Coordinates to integers -/

/-- Conversion of a `double` to `uint32_t`: truncation, undefined when the
truncated value does not fit. -/
def castU32 (v : K) : Out (BitVec 32) :=
  if v ≤ -1 ∨ 4294967296 ≤ v then .error .ub
  else .ok (BitVec.ofInt 32 (if 0 ≤ v then ⌊v⌋ else ⌈v⌉))

/-- `codec::encode_range` (int64.cpp:75-81). -/
def encodeRange (x r : K) : Out (BitVec 32) :=
  if r ≤ x then .ok 0xFFFFFFFF#32
  else castU32 ((x + r) / (2 * r) * 4294967296)

/-- `codec::decode_range` (int64.cpp:84-90). -/
def decodeRange (x : BitVec 32) (r : K) : K :=
  if x = 0xFFFFFFFF#32 then r
  else 2 * r * ((x.toNat : K) * (1 / 4294967296)) - r

/-- `codec::encode` (int64.cpp:93-95). -/
def encodePortable (lat lon : K) : Out (BitVec 64) := do
  let y ← encodeRange lat 90
  let x ← encodeRange lon 180
  return interleave y x

/-- `codec::shrq` (int64.cpp:98-114): the IEEE 754 representation of the `double`
shifted right by 20 bits, i.e. sign, biased exponent and 32 leading bits of the
fraction. Simplification: exact numbers, no subnormal number. -/
def shrq (v : K) : BitVec 64 :=
  if v = 0 then 0#64
  else
    let e := Int.log 2 |v|
    BitVec.ofInt 64
      ((if v < 0 then 2 ^ 43 else 0) + (e + 1023) * 2 ^ 32 + ⌊(|v| / 2 ^ e - 1) * 2 ^ 32⌋)

/-- `codec::encode_bim2` (int64.cpp:160-168). Simplification: the decimal constants
0.005555555555555556 and 0.002777777777777778 are 1/180 and 1/360. -/
def encodeBim2 (lat lon : K) : BitVec 64 :=
  let y := pdepq (if lat = 90 then 0x3FFFFFFFFFF#64 else shrq (3 / 2 + lat * (1 / 180)))
    0x5555555555555555#64
  let x := pdepq (if lon = 180 then 0x3FFFFFFFFFF#64 else shrq (3 / 2 + lon * (1 / 360)))
    0x5555555555555555#64
  (x <<< 1) ||| y

/-- `encoder` (int64.cpp:193). -/
def encoder : Cpu → K → K → Out (BitVec 64)
  | .bmi2, lat, lon => .ok (encodeBim2 lat lon)
  | .portable, lat, lon => encodePortable lat lon

/-- `int64::encode(point, precision)` (int64.cpp:246-253). A shift by 64 bits or
more has no defined behaviour. -/
def encode (cpu : Cpu) (p : Point K) (precision : Nat) : Out (BitVec 64) := do
  let r ← encoder cpu p.lat p.lon
  if precision = 0 ∨ 64 < precision then .error .ub
  else return r >>> (64 - precision)

/-- `int64::encode(lon, lat, precision)` for one element of the vectors
(geohash/int64.hpp:47-61), the function called from Python: the longitude is first
normalized in [-180, 180[. -/
def encodeLonLat (cpu : Cpu) (lon lat : K) (precision : Nat) : Out (BitVec 64) :=
  encode cpu ⟨Math.normalizeAngleF lon (-180) 360, lat⟩ precision

/-- `int64::error_with_precision` (geohash/int64.hpp:29-36): (longitude, latitude). -/
def errorWithPrecision (precision : Nat) : K × K :=
  let latBits := precision >>> 1
  let lngBits := precision - latBits
  (360 * (1 / 2 ^ lngBits), 180 * (1 / 2 ^ latBits))

/-! ### Boxes -/

/-- Constructor of `geodetic::Box` (geodetic/box.hpp:36-44). -/
def Box.make (mn mx : Point K) : Out (Box K) :=
  if 180 < mn.lon ∨ 180 < mx.lon ∨ mn.lon < -180 ∨ mx.lon < -180 then .error .exn
  else if mx.lon < mn.lon then .error .exn
  else .ok ⟨mn, mx⟩

/-- `Box::centroid` (geodetic/box.hpp:62-64): boost::geometry returns the mean of
the two corners of a box. -/
def Box.centroid (b : Box K) : Point K :=
  ⟨(b.minCorner.lon + b.maxCorner.lon) / 2, (b.minCorner.lat + b.maxCorner.lat) / 2⟩

/-- `Box::delta(false)` (geodetic/box.hpp:67-76). -/
def Box.delta (b : Box K) : K × K :=
  (b.maxCorner.lon - b.minCorner.lon, b.maxCorner.lat - b.minCorner.lat)

/-- `Box::max_decimal_power` (geodetic/box.hpp:155-158). -/
def maxDecimalPower (x : K) : K := 10 ^ Int.log 10 x

/-- `Box::round` (geodetic/box.hpp:80-86). -/
def Box.round (b : Box K) : Point K :=
  let x := maxDecimalPower b.delta.1
  let y := maxDecimalPower b.delta.2
  ⟨(⌈b.minCorner.lon / x⌉ : K) * x, (⌈b.minCorner.lat / y⌉ : K) * y⟩

/-- `int64::bounding_box` (int64.cpp:256-268). -/
def boundingBox (cpu : Cpu) (hash : BitVec 64) (precision : Nat) : Out (Box K) :=
  if precision = 0 ∨ 64 < precision then .error .ub
  else
    let fullHash := hash <<< (64 - precision)
    let latLng := deinterleaver cpu fullHash
    let lat := decodeRange latLng.1 90
    let lon := decodeRange latLng.2 180
    let err := errorWithPrecision precision
    Box.make ⟨lon, lat⟩ ⟨lon + err.1, lat + err.2⟩

/-- `int64::decode` (geohash/int64.hpp:70-74). -/
def decode (cpu : Cpu) (hash : BitVec 64) (precision : Nat) (round : Bool) : Out (Point K) := do
  let bbox ← boundingBox cpu hash precision
  return if round then bbox.round else bbox.centroid

/-- `int64::neighbors` (int64.cpp:271-299): N, NE, E, SE, S, SW, W, NW. `K` is the
type of the coordinates of the intermediate points. -/
def neighbors (K : Type) [Field K] [LinearOrder K] [IsStrictOrderedRing K] [FloorRing K]
    (cpu : Cpu) (hash : BitVec 64) (precision : Nat) : Out (List (BitVec 64)) := do
  let box : Box K ← boundingBox cpu hash precision
  let c := box.centroid
  let dlon := box.delta.1
  let dlat := box.delta.2
  let n ← encode cpu ⟨c.lon, c.lat + dlat⟩ precision
  let ne ← encode cpu ⟨c.lon + dlon, c.lat + dlat⟩ precision
  let e ← encode cpu ⟨c.lon + dlon, c.lat⟩ precision
  let se ← encode cpu ⟨c.lon + dlon, c.lat - dlat⟩ precision
  let s ← encode cpu ⟨c.lon, c.lat - dlat⟩ precision
  let sw ← encode cpu ⟨c.lon - dlon, c.lat - dlat⟩ precision
  let w ← encode cpu ⟨c.lon - dlon, c.lat⟩ precision
  let nw ← encode cpu ⟨c.lon - dlon, c.lat + dlat⟩ precision
  return [n, ne, e, se, s, sw, w, nw]

/-- Conversion of the result of `std::round` to `size_t`: a negative value has no
defined behaviour. -/
def castSize (v : Int) : Out Nat := if v < 0 then .error .ub else .ok v.toNat

/-- `int64::grid_properties` (int64.cpp:302-325). Simplification: the comparison of
two boxes is exact (boost::geometry compares with a relative tolerance). -/
def gridProperties (cpu : Cpu) (box : Box K) (precision : Nat) :
    Out (BitVec 64 × Nat × Nat) := do
  let hashSw ← encode cpu box.minCorner precision
  let boxSw : Box K ← boundingBox cpu hashSw precision
  let hashNe ← encode cpu box.maxCorner precision
  let boxNe : Box K ← boundingBox cpu hashNe precision
  if boxSw = boxNe then return (hashSw, 1, 1)
  else
    let lonOffset := if box.maxCorner.lon = 180 then 1 else 0
    let latOffset := if box.maxCorner.lat = 90 then 1 else 0
    let err : K × K := errorWithPrecision precision
    let lonStep ← castSize (Math.roundAway ((boxNe.minCorner.lon - boxSw.minCorner.lon) / err.1))
    let latStep ← castSize (Math.roundAway ((boxNe.minCorner.lat - boxSw.minCorner.lat) / err.2))
    return (hashSw, lonStep + lonOffset, latStep + latOffset)

/-- `int64::bounding_boxes` (int64.cpp:328-351): row by row from the south-west. -/
def boundingBoxes (cpu : Cpu) (box : Box K) (precision : Nat) : Out (List (BitVec 64)) := do
  let err : K × K := errorWithPrecision precision
  let (hashSw, lonStep, latStep) ← gridProperties cpu box precision
  let sw : Point K ← decode cpu hashSw precision false
  let rows ← (List.range latStep).mapM fun (lat : Nat) =>
    (List.range lonStep).mapM fun (lon : Nat) =>
      encode cpu ⟨sw.lon + (lon : K) * err.1, sw.lat + (lat : K) * err.2⟩ precision
  return rows.flatten

end

/-! ### Base 32 text -/

/-- `Base32::encode_` (base32.cpp:13-16). -/
def alphabet : List Char :=
  ['0', '1', '2', '3', '4', '5', '6', '7', '8', '9', 'b', 'c', 'd', 'e', 'f', 'g', 'h', 'j', 'k',
   'm', 'n', 'p', 'q', 'r', 's', 't', 'u', 'v', 'w', 'x', 'y', 'z']

/-- `Base32::decode_` (base32.hpp:20-25, 70-71): the rank of the character in the
alphabet; `none` stands for `kInvalid_`. -/
def digit (c : Char) : Option Nat := alphabet.idxOf? c

/-- `Base32::validate` (base32.hpp:28-37). A `char` buffer of `count` bytes is the
list of its characters. -/
def validate : List Char → Bool
  | [] => true
  | c :: s =>
    if c = '\x00' then true
    else if (digit c).isNone then false
    else validate s

/-- The loop of `Base32::decode` (base32.hpp:41-55): accumulated hash and number of
characters read. -/
def decode32Go : List Char → BitVec 64 → Nat → Out (BitVec 64 × Nat)
  | [], hash, n => .ok (hash, n)
  | c :: s, hash, n =>
    if c = '\x00' then .ok (hash, n)
    else match digit c with
      | none => .error .exn
      | some d => decode32Go s ((hash <<< 5) ||| BitVec.ofNat 64 d) (n + 1)

/-- `Base32::decode` (base32.hpp:41-55). -/
def decode32 (s : List Char) : Out (BitVec 64 × Nat) := decode32Go s 0#64 0

/-- `Base32::encode` (base32.hpp:58-65): `count` characters, the last one from the
low five bits. -/
def encode32 (hash : BitVec 64) : Nat → List Char
  | 0 => []
  | n + 1 => encode32 (hash >>> 5) n ++ [alphabet.getD (hash &&& 0x1f#64).toNat '\x00']

/-! ### Text geohash -/

section
variable {K : Type} [Field K] [LinearOrder K] [IsStrictOrderedRing K] [FloorRing K]

/-- `string::encode(point, buffer, precision)` (string.cpp:74-77). -/
def strEncode (cpu : Cpu) (p : Point K) (precision : Nat) : Out (List Char) := do
  let h ← encode cpu p (5 * precision)
  return encode32 h precision

/-- `string::encode(lon, lat, precision)` for one element (string.cpp:80-98). -/
def strEncodeLonLat (cpu : Cpu) (lon lat : K) (precision : Nat) : Out (List Char) :=
  strEncode cpu ⟨Math.normalizeAngleF lon (-180) 360, lat⟩ precision

/-- `string::bounding_box` and `decode_bounding_box` (string.cpp:101-114). -/
def strBoundingBox (cpu : Cpu) (s : List Char) : Out (Box K) := do
  let (h, chars) ← decode32 s
  boundingBox cpu h (5 * chars)

/-- `string::decode` (string.cpp:117-121). -/
def strDecode (cpu : Cpu) (s : List Char) (round : Bool) : Out (Point K) := do
  let bbox ← strBoundingBox cpu s
  return if round then bbox.round else bbox.centroid

/-- `string::bounding_boxes(box, precision)` (string.cpp:186-220). -/
def strBoundingBoxes (cpu : Cpu) (box : Option (Box K)) (precision : Nat) :
    Out (List (List Char)) := do
  let codes ← boundingBoxes cpu (box.getD ⟨⟨-180, -90⟩, ⟨180, 90⟩⟩) (5 * precision)
  return codes.map fun h => encode32 h precision

/-- `zoom_in` (string.cpp:402-429): `codes` are the elements of the array, all of
`fromPrecision` bytes. The result array has room for `size * 2^(5 (to - from))`
codes: writing more is undefined behaviour, the room left is filled with NUL. -/
def zoomIn (K : Type) [Field K] [LinearOrder K] [IsStrictOrderedRing K] [FloorRing K]
    (cpu : Cpu) (codes : List (List Char)) (fromPrecision toPrecision : Nat) :
    Out (List (List Char)) := do
  let room := codes.length * 2 ^ (5 * (toPrecision - fromPrecision))
  let parts ← codes.mapM fun s => do
    let box : Box K ← strBoundingBox cpu s
    let hs ← boundingBoxes cpu box (toPrecision * 5)
    return hs.map fun h => encode32 h toPrecision
  let out := parts.flatten
  if room < out.length then .error .ub
  else return out ++ List.replicate (room - out.length) (List.replicate toPrecision '\x00')

/-- Insertion in a `std::set<std::string>`: sorted, without duplicates. -/
def setInsert (s : List Char) : List (List Char) → List (List Char)
  | [] => [s]
  | t :: l => if s = t then t :: l else if s < t then s :: t :: l else t :: setInsert s l

/-- `zoom_out` (string.cpp:432-456). -/
def zoomOut (K : Type) [Field K] [LinearOrder K] [IsStrictOrderedRing K] [FloorRing K]
    (cpu : Cpu) (codes : List (List Char)) (toPrecision : Nat) : Out (List (List Char)) := do
  let out ← codes.mapM fun s => do
    let p : Point K ← strDecode cpu s false
    strEncode cpu p toPrecision
  return out.foldl (fun set s => setInsert s set) []

/-- `transform` (string.cpp:459-474) called from Python
(module/geohash/string.cpp:177-183): an array of strings of `fromPrecision` bytes. -/
def transform (K : Type) [Field K] [LinearOrder K] [IsStrictOrderedRing K] [FloorRing K]
    (cpu : Cpu) (codes : List (List Char)) (fromPrecision precision : Nat) :
    Out (List (List Char)) :=
  if 12 < precision then .error .exn
  else if 12 < fromPrecision then .error .exn
  else if fromPrecision = precision then .ok codes
  else if precision < fromPrecision then zoomOut K cpu codes precision
  else zoomIn K cpu codes fromPrecision precision

/-! ### class GeoHash -/

/-- Constructor `GeoHash(longitude, latitude, precision)` (geohash.hpp:54-63); a
`GeoHash` is its `code_`. -/
def GeoHash.make (cpu : Cpu) (lon lat : K) (precision : Nat) : Out (List Char) :=
  if 12 < precision then .error .exn
  else strEncode cpu ⟨Math.normalizeAngleF lon (-180) 360, lat⟩ precision

/-- `GeoHash::from_string` (geohash.hpp:71-84). -/
def GeoHash.fromString (K : Type) [Field K] [LinearOrder K] [IsStrictOrderedRing K] [FloorRing K]
    (cpu : Cpu) (code : List Char) (round : Bool) : Out (List Char) :=
  if 12 < code.length then .error .exn
  else if !validate code then .error .exn
  else do
    let p : Point K ← strDecode cpu code round
    strEncode cpu p code.length

/-- `GeoHash::integer_value` (geohash.hpp:111-114). -/
def GeoHash.integerValue (K : Type) [Field K] [LinearOrder K] [IsStrictOrderedRing K]
    [FloorRing K] (cpu : Cpu) (code : List Char) (round : Bool) : Out (BitVec 64) := do
  let p : Point K ← strDecode cpu code round
  encode cpu p (code.length * 5)

/-- `GeoHash::neighbors` (geohash.hpp:119-129). -/
def GeoHash.neighbors (K : Type) [Field K] [LinearOrder K] [IsStrictOrderedRing K] [FloorRing K]
    (cpu : Cpu) (code : List Char) : Out (List (List Char)) := do
  let h ← GeoHash.integerValue K cpu code false
  let ns ← Geohash.neighbors K cpu h (code.length * 5)
  ns.mapM fun n => GeoHash.fromString K cpu (encode32 n code.length) false

/-- `GeoHash::reduce` (geohash.hpp:164-167): the arguments given back to the
constructor when the object is unpickled. -/
def GeoHash.reduce (cpu : Cpu) (code : List Char) : Out (K × K × Nat) := do
  let b : Box K ← strBoundingBox cpu code
  return (b.centroid.lon, b.centroid.lat, code.length)

end

end Pyinterp.Geohash
