import Verif.Lemmas.GeohashCells
import Verif.Props.C01_Angle
import Mathlib.Data.Rat.Floor

/-
C23, C24, C25: integer geohashes.
-/
namespace Pyinterp
open Geohash Spec

/-! ### C23 -/

/-- C23: bit `2i` of the interleaved word is bit `i` of the first coordinate and bit
`2i+1` is bit `i` of the second one. -/
theorem C23_interleave_bits (x y : BitVec 32) (i : Nat) (h : i < 32) :
    (interleave x y).getLsbD (2 * i) = x.getLsbD i ∧
    (interleave x y).getLsbD (2 * i + 1) = y.getLsbD i :=
  ⟨getLsbD_interleave_even x y i h, getLsbD_interleave_odd x y i h⟩

example : interleave 0b11#32 0b01#32 = 0b0111#64 := by decide

/-- C23: interleaving is a bijection whose inverse is the deinterleaving. -/
theorem C23_bijection :
    (∀ x y, deinterleave (interleave x y) = (x, y)) ∧
    (∀ z, interleave (deinterleave z).1 (deinterleave z).2 = z) ∧
    Function.Bijective (fun w : BitVec 32 × BitVec 32 => interleave w.1 w.2) := by
  refine ⟨deinterleave_interleave, interleave_deinterleave, ?_, ?_⟩
  · intro a b h
    have := congrArg deinterleave h
    simpa only [deinterleave_interleave] using this
  · intro z
    exact ⟨deinterleave z, interleave_deinterleave z⟩

/-- C23: the BMI2 and the portable deinterleaving agree on every word. -/
theorem C23_deinterleave_agree (x : BitVec 64) :
    deinterleaver .bmi2 x = deinterleaver .portable x := deinterleaveBim2_eq x

variable {K : Type} [Field K] [LinearOrder K] [IsStrictOrderedRing K] [FloorRing K]

/-- C23: the BMI2 and the portable encoders agree on every point of the Earth. -/
theorem C23_encode_agree (pt : Point K) (h : OnEarth pt) (p : Nat) :
    encode .bmi2 pt p = encode .portable pt p := by
  obtain ⟨i, j, hi, hj⟩ := onEarth_lies (p := 64) h
  unfold encode
  rw [encoder_of_lies .bmi2 hi hj, encoder_of_lies .portable hi hj]

example : OnEarth (⟨179, -33⟩ : Point ℚ) ∧
    encode .bmi2 (⟨179, -33⟩ : Point ℚ) 10 = .ok 750#64 := by
  refine ⟨by unfold OnEarth; norm_num, by decide +kernel⟩

/-- C23, where the agreement stops: outside of the longitudes [-180, 180] the BMI2
encoder wraps around, the portable one is undefined on the west side and returns the
last column on the east side. -/
theorem C23_encode_disagree_outside :
    encode .bmi2 (⟨-190, 0⟩ : Point ℚ) 2 = .ok 3#64 ∧
    encode .portable (⟨-190, 0⟩ : Point ℚ) 2 = .error .ub ∧
    encode .bmi2 (⟨190, 0⟩ : Point ℚ) 2 = .ok 1#64 ∧
    encode .portable (⟨190, 0⟩ : Point ℚ) 2 = .ok 3#64 := by
  refine ⟨by decide +kernel, by decide +kernel, by decide +kernel, by decide +kernel⟩

/-! ### C24 -/

/-- C24: the cell of the hash of a point contains the point; the cell has
`2^-(number of bits)` of the range in each direction, the centre is within half a
cell. -/
theorem C24_cell_contains_point (cpu : Cpu) (pt : Point K) (h : OnEarth pt) (p : Nat)
    (hp1 : 1 ≤ p) (hp : p ≤ 62) :
    ∃ hash b, encode cpu pt p = .ok hash ∧ boundingBox cpu hash p = .ok b ∧ InCell b pt ∧
      b.maxCorner.lon - b.minCorner.lon = 360 / 2 ^ ((p + 1) / 2) ∧
      b.maxCorner.lat - b.minCorner.lat = 180 / 2 ^ (p / 2) ∧
      ∃ c, decode cpu hash p false = .ok c ∧
        2 * |pt.lon - c.lon| ≤ 360 / 2 ^ ((p + 1) / 2) ∧
        2 * |pt.lat - c.lat| ≤ 180 / 2 ^ (p / 2) := by
  obtain ⟨i, j, hi, hj⟩ := onEarth_lies (p := p) h
  have hbox := boundingBox_mkHash (K := K) cpu hp1 hp hi.1 hj.1
  have hin := (inCell_cellBox hi.1 hj.1 pt).2 ⟨hi, hj⟩
  have e : lonBits p = (p + 1) / 2 := by unfold lonBits; omega
  have w1 : (cellBox p i j : Box K).maxCorner.lon - (cellBox p i j : Box K).minCorner.lon =
      360 / 2 ^ ((p + 1) / 2) := by
    unfold cellBox; rw [← e]; ring
  have w2 : (cellBox p i j : Box K).maxCorner.lat - (cellBox p i j : Box K).minCorner.lat =
      180 / 2 ^ (p / 2) := by
    unfold cellBox latBits; ring
  refine ⟨_, _, encode_of_lies cpu hp1 (by omega) hi hj, hbox, hin, w1, w2,
    (cellBox p i j : Box K).centroid, ?_, ?_, ?_⟩
  · unfold decode
    rw [hbox]
    rfl
  · obtain ⟨h1, h2, h3, h4⟩ := hin
    have h2' : pt.lon ≤ (cellBox p i j : Box K).maxCorner.lon := by
      rcases h2 with h2 | ⟨h2, h2'⟩
      · exact h2.le
      · rw [h2, h2']
    rw [← w1]
    unfold Box.centroid
    simp only
    rcases abs_cases (pt.lon - ((cellBox p i j : Box K).minCorner.lon +
      (cellBox p i j : Box K).maxCorner.lon) / 2) with ⟨q, _⟩ | ⟨q, _⟩ <;> rw [q] <;> linarith
  · obtain ⟨h1, h2, h3, h4⟩ := hin
    have h4' : pt.lat ≤ (cellBox p i j : Box K).maxCorner.lat := by
      rcases h4 with h2 | ⟨h2, h2'⟩
      · exact h2.le
      · rw [h2, h2']
    rw [← w2]
    unfold Box.centroid
    simp only
    rcases abs_cases (pt.lat - ((cellBox p i j : Box K).minCorner.lat +
      (cellBox p i j : Box K).maxCorner.lat) / 2) with ⟨q, _⟩ | ⟨q, _⟩ <;> rw [q] <;> linarith

example : OnEarth (⟨180, 90⟩ : Point ℚ) ∧ OnEarth (⟨-180, 12⟩ : Point ℚ) := by
  constructor <;> unfold OnEarth <;> norm_num

/-- C24 for `geohash.int64.encode`, which accepts any longitude: the cell contains the
point once its longitude is brought back to [-180, 180[. -/
theorem C24_any_longitude (cpu : Cpu) (lon lat : K) (h0 : -90 ≤ lat) (h1 : lat ≤ 90) (p : Nat)
    (hp1 : 1 ≤ p) (hp : p ≤ 62) :
    ∃ hash b, encodeLonLat cpu lon lat p = .ok hash ∧ boundingBox cpu hash p = .ok b ∧
      ∃ k : ℤ, -180 ≤ lon + (k : K) * 360 ∧ lon + (k : K) * 360 < 180 ∧
        InCell b ⟨lon + (k : K) * 360, lat⟩ := by
  obtain ⟨a, b, k, hk⟩ := Math.C01_normalize_angle lon (-180) 360 (by norm_num)
  have hE : OnEarth (⟨Math.normalizeAngleF lon (-180) 360, lat⟩ : Point K) :=
    ⟨a, by simp only; linarith, h0, h1⟩
  obtain ⟨hash, bx, e1, e2, e3, _⟩ := C24_cell_contains_point cpu _ hE p hp1 hp
  refine ⟨hash, bx, e1, e2, k, ?_, ?_, ?_⟩
  · rw [← hk]; exact a
  · rw [← hk]; linarith
  · rw [← hk]; exact e3

example : encodeLonLat .bmi2 (365 : ℚ) 10 6 = encode .bmi2 (⟨5, 10⟩ : Point ℚ) 6 ∧
    encodeLonLat .bmi2 (365 : ℚ) 10 6 = .ok 48#64 := by
  constructor <;> decide +kernel

/-- C24 does not hold at 63 and 64 bits, the default precision of the Python functions:
the last column is decoded as the longitude 180 and its box is refused. -/
theorem C24_false_at_64_bits :
    ∃ pt : Point ℚ, OnEarth pt ∧ pt.lon < 180 ∧
      (∃ h, encode .bmi2 pt 64 = .ok h ∧ (boundingBox .bmi2 h 64 : Out (Box ℚ)) = .error .exn) ∧
      (∃ h, encode .portable pt 63 = .ok h ∧
        (boundingBox .portable h 63 : Out (Box ℚ)) = .error .exn) := by
  refine ⟨⟨180 - 1 / 4294967296, 0⟩, by unfold OnEarth; norm_num, by norm_num, ?_, ?_⟩
  · exact ⟨0xEAAAAAAAAAAAAAAA#64, by decide +kernel, by decide +kernel⟩
  · exact ⟨0x7555555555555555#64, by decide +kernel, by decide +kernel⟩

/-! ### C25 -/

/-- C25: the hash with fewer bits is the prefix of the hash with more bits. -/
theorem C25_prefix (cpu : Cpu) (pt : Point K) (h : OnEarth pt) (p q : Nat) (hq1 : 1 ≤ q)
    (hqp : q ≤ p) (hp : p ≤ 64) :
    ∃ hash, encode cpu pt p = .ok hash ∧ encode cpu pt q = .ok (hash >>> (p - q)) := by
  obtain ⟨i, j, hi, hj⟩ := onEarth_lies (p := p) h
  refine ⟨_, encode_of_lies cpu (by omega) hp hi hj, ?_⟩
  rw [mkHash_shift hq1 hqp hp hi.1 hj.1]
  have a := lies_coarse (c := lonBits q) (by norm_num) (by unfold lonBits; omega) hi
  have b := lies_coarse (c := latBits q) (by norm_num) (by unfold latBits; omega) hj
  exact encode_of_lies cpu hq1 (by omega) a b

example : encode .bmi2 (⟨5, 10⟩ : Point ℚ) 6 = .ok 48#64 ∧
    encode .bmi2 (⟨5, 10⟩ : Point ℚ) 4 = .ok 12#64 := by
  constructor <;> decide +kernel

theorem div_cast_le (k b c : Nat) (hcb : c ≤ b) :
    ((k / 2 ^ (b - c) : ℕ) : K) / 2 ^ c ≤ (k : K) / 2 ^ b ∧
    ((k : K) + 1) / 2 ^ b ≤ (((k / 2 ^ (b - c) : ℕ) : K) + 1) / 2 ^ c := by
  have hpos : (0 : K) < 2 ^ b := by positivity
  have hposc : (0 : K) < 2 ^ c := by positivity
  have hsplit : (2 : K) ^ b = 2 ^ c * 2 ^ (b - c) := by
    rw [← pow_add, show c + (b - c) = b by omega]
  constructor
  · have e : ((k / 2 ^ (b - c) : ℕ) : K) * 2 ^ (b - c) ≤ k := by
      have h5 : ((k / 2 ^ (b - c) * 2 ^ (b - c) : ℕ) : K) ≤ (k : K) :=
        Nat.cast_le.2 (Nat.div_mul_le_self k _)
      push_cast at h5 ⊢
      exact h5
    rw [div_le_div_iff₀ hposc hpos, hsplit]
    nlinarith [mul_le_mul_of_nonneg_right e hposc.le]
  · have e : (k : K) + 1 ≤ (((k / 2 ^ (b - c) : ℕ) : K) + 1) * 2 ^ (b - c) := by
      have := Nat.lt_div_mul_add (a := k) (b := 2 ^ (b - c)) (by positivity)
      have h6 : k + 1 ≤ (k / 2 ^ (b - c) + 1) * 2 ^ (b - c) := by
        rw [Nat.add_mul, Nat.one_mul]; omega
      have h5 : ((k + 1 : ℕ) : K) ≤ (((k / 2 ^ (b - c) + 1) * 2 ^ (b - c) : ℕ) : K) :=
        Nat.cast_le.2 h6
      push_cast at h5 ⊢
      exact h5
    rw [div_le_div_iff₀ hpos hposc, hsplit]
    nlinarith [mul_le_mul_of_nonneg_right e hposc.le]

/-- C25: the cell of a hash is included in the cell of each of its prefixes. -/
theorem C25_nested (cpu : Cpu) (hash : BitVec 64) (p q : Nat) (hq1 : 1 ≤ q) (hqp : q ≤ p)
    (hp : p ≤ 62) (hh : hash.toNat < 2 ^ p) :
    ∃ a b : Box K, boundingBox cpu hash p = .ok a ∧
      boundingBox cpu (hash >>> (p - q)) q = .ok b ∧ BoxSubset a b := by
  obtain ⟨i, j, hi, hj, rfl⟩ := exists_mkHash p hash (by omega) (by omega) hh
  have hLq : lonBits q ≤ lonBits p := by unfold lonBits; omega
  have hBq : latBits q ≤ latBits p := by unfold latBits; omega
  refine ⟨_, cellBox q (i / 2 ^ (lonBits p - lonBits q)) (j / 2 ^ (latBits p - latBits q)),
    boundingBox_mkHash cpu (by omega) hp hi hj, ?_, ?_⟩
  · rw [mkHash_shift hq1 hqp (by omega) hi hj]
    apply boundingBox_mkHash cpu hq1 (by omega)
    · apply Nat.div_lt_of_lt_mul
      rw [← pow_add, show lonBits p - lonBits q + lonBits q = lonBits p by omega]; exact hi
    · apply Nat.div_lt_of_lt_mul
      rw [← pow_add, show latBits p - latBits q + latBits q = latBits p by omega]; exact hj
  · obtain ⟨a1, a2⟩ := div_cast_le (K := K) i (lonBits p) (lonBits q) hLq
    obtain ⟨b1, b2⟩ := div_cast_le (K := K) j (latBits p) (latBits q) hBq
    unfold BoxSubset cellBox
    simp only
    refine ⟨?_, ?_, ?_, ?_⟩ <;> linarith

example : (boundingBox .bmi2 48#64 6 : Out (Box ℚ)) = .ok ⟨⟨0, 0⟩, ⟨45, 45 / 2⟩⟩ ∧
    (boundingBox .bmi2 12#64 4 : Out (Box ℚ)) = .ok ⟨⟨0, 0⟩, ⟨90, 45⟩⟩ := by
  constructor <;> decide +kernel

/-- C25: every point of the Earth is in exactly one cell of each precision, the cell
of its hash: cells with different codes do not overlap. -/
theorem C25_partition (cpu : Cpu) (pt : Point K) (h : OnEarth pt) (p : Nat) (hp1 : 1 ≤ p)
    (hp : p ≤ 62) (hash : BitVec 64) (hh : hash.toNat < 2 ^ p) (b : Box K)
    (hb : boundingBox cpu hash p = .ok b) :
    InCell b pt ↔ encode cpu pt p = .ok hash := by
  obtain ⟨i, j, hi, hj, rfl⟩ := exists_mkHash p hash (by omega) (by omega) hh
  rw [boundingBox_mkHash cpu hp1 hp hi hj] at hb
  obtain rfl := Except.ok.inj hb
  rw [inCell_cellBox hi hj]
  constructor
  · rintro ⟨a, b⟩
    exact encode_of_lies cpu hp1 (by omega) a b
  · intro e
    obtain ⟨i', j', hi', hj'⟩ := onEarth_lies (p := p) h
    rw [encode_of_lies cpu hp1 (by omega) hi' hj'] at e
    obtain ⟨rfl, rfl⟩ := mkHash_inj hp1 (by omega) hi'.1 hj'.1 hi hj (Except.ok.inj e)
    exact ⟨hi', hj'⟩

example : ∃ b : Box ℚ, boundingBox .bmi2 48#64 6 = .ok b ∧ InCell b ⟨5, 10⟩ :=
  ⟨⟨⟨0, 0⟩, ⟨45, 45 / 2⟩⟩, by decide +kernel, by unfold InCell; norm_num⟩

/-- C25: two cells of the same precision that share a point have the same code. -/
theorem C25_disjoint (cpu : Cpu) (p : Nat) (hp1 : 1 ≤ p) (hp : p ≤ 62) (h1 h2 : BitVec 64)
    (hh1 : h1.toNat < 2 ^ p) (hh2 : h2.toNat < 2 ^ p) (b1 b2 : Box K)
    (e1 : boundingBox cpu h1 p = .ok b1) (e2 : boundingBox cpu h2 p = .ok b2) (pt : Point K)
    (i1 : InCell b1 pt) (i2 : InCell b2 pt) : h1 = h2 := by
  obtain ⟨i, j, hi, hj, rfl⟩ := exists_mkHash p h1 (by omega) (by omega) hh1
  obtain ⟨i', j', hi', hj', rfl⟩ := exists_mkHash p h2 (by omega) (by omega) hh2
  rw [boundingBox_mkHash cpu hp1 hp hi hj] at e1
  rw [boundingBox_mkHash cpu hp1 hp hi' hj'] at e2
  obtain rfl := Except.ok.inj e1
  obtain rfl := Except.ok.inj e2
  obtain ⟨a, b⟩ := (inCell_cellBox hi hj pt).1 i1
  obtain ⟨c, d⟩ := (inCell_cellBox hi' hj' pt).1 i2
  rw [lies_unique (by norm_num) a c, lies_unique (by norm_num) b d]

end Pyinterp
