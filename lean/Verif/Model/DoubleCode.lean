import Verif.Model.Double
import Verif.Model.Geohash

/-
Functions of the library on doubles: the same lines as in `Model/Math.lean` and `Model/Geohash.lean`, with the rounding
of every operation (no fused operations).
-/
namespace Pyinterp.Double

open Pyinterp

/-- `remainder<double>` (detail/math.hpp:108-115). -/
def remainder (x y : ℚ) : ℚ :=
  let result := stdRemainder x y
  if result < 0 then add result y else result

/-- `normalize_angle<double>` (detail/math.hpp:123-127). -/
def normalizeAngle (x mn circle : ℚ) : ℚ := add (remainder (sub x mn) circle) mn

/-- `codec::encode_range` (geohash/int64.cpp:75-81). -/
def encodeRange (x r : ℚ) : Out (BitVec 32) :=
  if r ≤ x then .ok 0xFFFFFFFF#32
  else Geohash.castU32 (mul (div (add x r) (mul 2 r)) 4294967296)

/-- `codec::decode_range` (geohash/int64.cpp:84-90); `inv_exp232` is exact. -/
def decodeRange (x : BitVec 32) (r : ℚ) : ℚ :=
  if x = 0xFFFFFFFF#32 then r
  else sub (mul (mul 2 r) (mul (x.toNat : ℚ) (1 / 4294967296))) r

/-- `codec::encode` (geohash/int64.cpp:93-95). -/
def encodePortable (lat lon : ℚ) : Out (BitVec 64) := do
  let y ← encodeRange lat 90
  let x ← encodeRange lon 180
  return Geohash.interleave y x

/-- `codec::encode_bim2` (geohash/int64.cpp:160-168), with the two constants of the code. -/
def encodeBim2 (lat lon : ℚ) : BitVec 64 :=
  let y := Geohash.pdepq (if lat = 90 then 0x3FFFFFFFFFF#64
    else Geohash.shrq (add (3 / 2) (mul lat (fl 0.005555555555555556)))) 0x5555555555555555#64
  let x := Geohash.pdepq (if lon = 180 then 0x3FFFFFFFFFF#64
    else Geohash.shrq (add (3 / 2) (mul lon (fl 0.002777777777777778)))) 0x5555555555555555#64
  (x <<< 1) ||| y

/-- `encoder` (geohash/int64.cpp:193). -/
def encoder : Geohash.Cpu → ℚ → ℚ → Out (BitVec 64)
  | .bmi2, lat, lon => .ok (encodeBim2 lat lon)
  | .portable, lat, lon => encodePortable lat lon

/-- `int64::encode(point, precision)` (geohash/int64.cpp:246-253). -/
def encode (cpu : Geohash.Cpu) (p : Geohash.Point ℚ) (precision : Nat) : Out (BitVec 64) := do
  let r ← encoder cpu p.lat p.lon
  if precision = 0 ∨ 64 < precision then .error .ub
  else return r >>> (64 - precision)

/-- `int64::encode(lon, lat, precision)` for one element of the vectors (geohash/int64.hpp:47-61), the function called from
Python. -/
def encodeLonLat (cpu : Geohash.Cpu) (lon lat : ℚ) (precision : Nat) : Out (BitVec 64) :=
  encode cpu ⟨normalizeAngle lon (-180) 360, lat⟩ precision

end Pyinterp.Double
