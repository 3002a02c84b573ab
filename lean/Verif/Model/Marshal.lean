import Mathlib.Data.Int.DivMod
import Verif.Model.StreamingHistogram
import Verif.Model.Binning

/-
Model of the binary format of the histograms: the stream of
src/pyinterp/core/include/pyinterp/detail/isviewstream.hpp, the conversions of
src/pyinterp/core/include/pyinterp/detail/math/streaming_histogram.hpp:98-131, and `marshal`,
`unmarshal`, `getstate`, `setstate` of src/pyinterp/core/include/pyinterp/streaming_histogram.hpp
and src/pyinterp/core/include/pyinterp/histogram2d.hpp.

The bytes of the integers are those of a 64 bit little endian machine. The bytes of a
floating point number are an argument (`Codec`).
-/
namespace Pyinterp.Marshal
open Pyinterp.Streaming

/-- The `n` low bytes of an integer, as written by `ss.write(reinterpret_cast<const char *>(&size), sizeof(size))`
(detail/math/streaming_histogram.hpp:121-128) on a little endian machine. -/
def leBytes : Nat → Nat → List UInt8
  | 0, _ => []
  | n + 1, v => UInt8.ofNat (v % 256) :: leBytes n (v / 256)

/-- The integer read by `ss.read(reinterpret_cast<char *>(&size), sizeof(size))` (detail/math/streaming_histogram.hpp:105-110). -/
def leValue : List UInt8 → Nat
  | [] => 0
  | b :: l => b.toNat + 256 * leValue l

/-- The bytes of a floating point number (`reinterpret_cast<const char *>(&min_)`, `sizeof(T)`,
detail/math/streaming_histogram.hpp:123): any block of `size` bytes is a number, and the block of a number of the type `T` (`rep`) is
that number. -/
structure Codec (K : Type) where
  size : Nat
  rep : K → Prop
  enc : K → List UInt8
  dec : List UInt8 → K
  enc_length : ∀ x, (enc x).length = size
  dec_enc : ∀ x, rep x → dec (enc x) = x

/-- `isviewstream` (detail/isviewstream.hpp:57-74): the bytes of the view, and the distance of `gptr()` to `eback()`. -/
structure IStream where
  data : List UInt8
  pos : Int
  deriving DecidableEq

/-- Constructor (detail/isviewstream.hpp:59-60). -/
def IStream.open (data : List UInt8) : IStream := ⟨data, 0⟩

/-- `std::istream::read` with `exceptions(failbit)` (detail/math/streaming_histogram.hpp:105-112): less than `n` bytes raise an exception, turned into
`invalid_argument` by the callers; no defined behaviour when the pointer is outside of the view. -/
def IStream.read (n : Nat) (s : IStream) : Out (List UInt8 × IStream) :=
  if s.pos < 0 ∨ (s.data.length : Int) < s.pos then .error .ub
  else
    let avail := s.data.drop s.pos.toNat
    if avail.length < n then .error .exn
    else .ok (avail.take n, ⟨s.data, s.pos + n⟩)

/-- `static_cast<int>(off)` (detail/isviewstream.hpp:27): the value modulo 2^32 with a sign. -/
def toInt (n : Int) : Int := Int.bmod n (2 ^ 32)

/-- `isviewstream::readview` (detail/isviewstream.hpp:63-73), `count` being the `std::streamsize`. A negative count
gives `string_view(gptr(), count)`, a view of about 2^64 bytes. -/
def IStream.readview (count : Int) (s : IStream) : Out (List UInt8 × IStream) :=
  if s.pos < 0 ∨ (s.data.length : Int) < s.pos then .error .ub
  else if count < 0 then .error .ub
  else
    let avail := s.data.drop s.pos.toNat
    let size : Int := min count avail.length
    if (avail.length : Int) < count then .error .exn
    else .ok (avail.take size.toNat, ⟨s.data, s.pos + toInt size⟩)

variable {K : Type}

/-- The bins, written as one block (detail/math/streaming_histogram.hpp:127-128). -/
def encodeBins (c : Codec K) (l : List (Bin K)) : List UInt8 := l.flatMap fun b => c.enc b.value ++ c.enc b.weight

/-- The bins, read as one block (detail/math/streaming_histogram.hpp:111-112). -/
def decodeBins (c : Codec K) : Nat → List UInt8 → List (Bin K)
  | 0, _ => []
  | n + 1, l => ⟨c.dec (l.take c.size), c.dec ((l.drop c.size).take c.size)⟩ :: decodeBins c n (l.drop (2 * c.size))

/-- `operator std::string` (detail/math/streaming_histogram.hpp:118-131). -/
def encode (c : Codec K) (h : Hist K) : List UInt8 :=
  leBytes 1 (if h.weightedDiff then 1 else 0) ++ (leBytes 8 h.binCount ++ (leBytes 8 h.count ++ (c.enc h.min ++ (c.enc h.max ++
    (leBytes 8 h.bins.length ++ encodeBins c h.bins)))))

/-- A byte read into a `bool` (detail/math/streaming_histogram.hpp:105): only 0 and 1 are values of the type. -/
def toBool (l : List UInt8) : Out Bool :=
  match leValue l with
  | 0 => .ok false
  | 1 => .ok true
  | _ => .error .ub

/-- `StreamingHistogram(const std::string_view &state)` (detail/math/streaming_histogram.hpp:98-115), reading the stream `s`. `maxAlloc` is
the largest number of bins that can be allocated: beyond, `bins_.resize(size)` raises. -/
def decodeFrom (c : Codec K) (maxAlloc : Nat) (s : IStream) : Out (Hist K × IStream) := do
  let (w, s) ← s.read 1
  let weighted ← toBool w
  let (binCount, s) ← s.read 8
  let (count, s) ← s.read 8
  let (mn, s) ← s.read c.size
  let (mx, s) ← s.read c.size
  let (size, s) ← s.read 8
  if maxAlloc < leValue size then .error .exn
  else do
    let (bins, s) ← s.read (leValue size * (2 * c.size))
    return (⟨weighted, leValue binCount, leValue count, c.dec mn, c.dec mx, decodeBins c (leValue size) bins⟩, s)

/-- `StreamingHistogram(state)` (detail/math/streaming_histogram.hpp:98-115). -/
def decode (c : Codec K) (maxAlloc : Nat) (state : List UInt8) : Out (Hist K) := do
  let (h, _) ← decodeFrom c maxAlloc (IStream.open state)
  return h

/-- One element of `marshal` (streaming_histogram.hpp:305-308, histogram2d.hpp:294-297). -/
def encodeItem (c : Codec K) (h : Hist K) : List UInt8 := leBytes 8 (encode c h).length ++ encode c h

/-- The conversion of the `size_t` read to `std::streamsize` (streaming_histogram.hpp:328, histogram2d.hpp:324). -/
def toStreamsize (n : Nat) : Int := Int.bmod n (2 ^ 64)

/-- One turn of the loop of `unmarshal` (streaming_histogram.hpp:325-328, histogram2d.hpp:321-324). -/
def decodeItem (c : Codec K) (maxAlloc : Nat) (s : IStream) : Out (Hist K × IStream) := do
  let (size, s) ← s.read 8
  let (view, s) ← s.readview (toStreamsize (leValue size))
  let h ← decode c maxAlloc view
  return (h, s)

/-- The loop of `unmarshal` (streaming_histogram.hpp:324-329, histogram2d.hpp:319-326). Simplification: `int ix` does not overflow. -/
def decodeItems (c : Codec K) (maxAlloc : Nat) : Nat → IStream → Out (List (Hist K) × IStream)
  | 0, s => .ok ([], s)
  | n + 1, s => do
    let (h, s) ← decodeItem c maxAlloc s
    let (l, s) ← decodeItems c maxAlloc n s
    return (h :: l, s)

/-- `StreamingHistogram<T>::marshal` (streaming_histogram.hpp:297-313). -/
def marshal (c : Codec K) (l : List (Hist K)) : List UInt8 := leBytes 8 l.length ++ l.flatMap (encodeItem c)

/-- `StreamingHistogram<T>::unmarshal` (streaming_histogram.hpp:315-334). The size of an Eigen vector must not be negative
(precondition of `Vector<Accumulators>(size)`); one that is too large raises `std::bad_alloc`. -/
def unmarshal (c : Codec K) (maxAlloc : Nat) (data : List UInt8) : Out (List (Hist K)) := do
  let (size, s) ← (IStream.open data).read 8
  if toStreamsize (leValue size) < 0 then .error .ub
  else if maxAlloc < leValue size then .error .exn
  else do
    let (l, _) ← decodeItems c maxAlloc (leValue size) s
    return l

/-- `StreamingHistogram<T>` (streaming_histogram.hpp:199-201): the accumulators and the shape of the results. -/
structure Streams (K : Type) where
  accumulators : List (Hist K)
  shape : List Nat

/-- `getstate` (streaming_histogram.hpp:180-182). -/
def Streams.getstate (c : Codec K) (h : Streams K) : List Nat × List UInt8 := (h.shape, marshal c h.accumulators)

/-- `setstate` (streaming_histogram.hpp:185-196), for a tuple of two elements. -/
def Streams.setstate (c : Codec K) (maxAlloc : Nat) (state : List Nat × List UInt8) : Out (Streams K) := do
  let l ← unmarshal c maxAlloc state.2
  return ⟨l, state.1⟩

/-- `calculate_statistics` (streaming_histogram.hpp:281-295): `result.size()` is the product of the shape, and the
accumulators are read without check. -/
def Streams.statistics {A : Type} (h : Streams K) (f : Hist K → Out A) : Out (List A) :=
  (List.range h.shape.prod).mapM fun (k : Nat) => do
    let a ← rd h.accumulators k
    f a

/-- `Histogram2D<T>::marshal` (histogram2d.hpp:283-303); `rows` and `cols` are the sizes of the axes, the cells are in the
order of the loops. -/
def marshal2D (c : Codec K) (rows cols : Nat) (cells : List (Hist K)) : List UInt8 :=
  leBytes 8 rows ++ (leBytes 8 cols ++ cells.flatMap (encodeItem c))

/-- `Histogram2D<T>::unmarshal` (histogram2d.hpp:305-331), the target having `rows` and `cols`. The comparison is made with
signed integers; the sizes of the target are not negative. -/
def unmarshal2D (c : Codec K) (maxAlloc : Nat) (rows cols : Nat) (data : List UInt8) : Out (List (Hist K)) := do
  let (r, s) ← (IStream.open data).read 8
  let (q, s) ← s.read 8
  if toStreamsize (leValue r) ≠ (rows : Int) ∨ toStreamsize (leValue q) ≠ (cols : Int) then .error .exn
  else do
    let (l, _) ← decodeItems c maxAlloc (rows * cols) s
    return l

/-- The tuple of `Histogram2D<T>::getstate` (histogram2d.hpp:174-176). -/
structure HistState (K : Type) where
  x : AxisState K
  y : AxisState K
  data : List UInt8

section
variable [LinearOrder K] [AddCommGroup K] [AxisNum K]

/-- `Histogram2D<T>::getstate` (histogram2d.hpp:174-176): the matrix has the sizes of the axes (histogram2d.hpp:62-70). -/
def getstate2D (c : Codec K) (h : Bin2D.Histogram K) : Out (HistState K) := do
  let x ← h.x.getstate
  let y ← h.y.getstate
  return ⟨x, y, marshal2D c h.x.size.toNat h.y.size.toNat h.cells⟩

/-- `Histogram2D<T>::setstate` (histogram2d.hpp:179-199), for a tuple of three elements. -/
def setstate2D (c : Codec K) (maxAlloc : Nat) (s : HistState K) : Out (Bin2D.Histogram K) := do
  let x ← Axis.setstate s.x
  let y ← Axis.setstate s.y
  let cells ← unmarshal2D c maxAlloc x.size.toNat y.size.toNat s.data
  return ⟨x, y, cells⟩

end

end Pyinterp.Marshal
