import Verif.Lemmas.GeohashBits
import Verif.Spec.Geohash
import Mathlib.Tactic.Linarith
import Mathlib.Tactic.FieldSimp
import Mathlib.Tactic.Ring
import Mathlib.Tactic.NormNum
import Mathlib.Tactic.Positivity

/-
Cells of the geohash grid.
-/
namespace Pyinterp.Geohash

/-! ### Bits -/

/-- number of bits of the latitude / of the longitude -/
abbrev latBits (p : Nat) : Nat := p / 2
abbrev lonBits (p : Nat) : Nat := p - p / 2

/-- The hash of the cell in column `i` and row `j`. -/
def mkHash (p i j : Nat) : BitVec 64 :=
  interleave (BitVec.ofNat 32 (j * 2 ^ (32 - latBits p)))
    (BitVec.ofNat 32 (i * 2 ^ (32 - lonBits p))) >>> (64 - p)

theorem getLsbD_interleave (x y : BitVec 32) (i : Nat) (h : i < 64) :
    (interleave x y).getLsbD i = if i % 2 = 0 then x.getLsbD (i / 2) else y.getLsbD (i / 2) := by
  rcases Nat.even_or_odd' i with ⟨k, rfl | rfl⟩
  · rw [getLsbD_interleave_even _ _ _ (by omega)]; simp
  · rw [getLsbD_interleave_odd _ _ _ (by omega)]
    simp [show (2 * k + 1) % 2 = 1 by omega, show (2 * k + 1) / 2 = k by omega]

theorem getLsbD_trunc (x : BitVec 32) (t i : Nat) :
    (BitVec.ofNat 32 (x.toNat / 2 ^ t * 2 ^ t)).getLsbD i = (decide (t ≤ i) && x.getLsbD i) := by
  rw [BitVec.getLsbD_ofNat, Nat.testBit_mul_two_pow]
  by_cases h32 : i < 32
  · by_cases hti : t ≤ i
    · simp only [h32, hti, decide_true, Bool.true_and, Nat.testBit_div_two_pow]
      rw [Nat.sub_add_cancel hti]
      rfl
    · simp [hti]
  · have : x.getLsbD i = false := BitVec.getLsbD_of_ge x i (by omega)
    simp [h32, this]

/-- Shifting an interleaved word only keeps the leading bits of each part. -/
theorem interleave_shift (y x : BitVec 32) (p : Nat) (hp : p ≤ 64) :
    interleave y x >>> (64 - p) =
      mkHash p (x.toNat / 2 ^ (32 - lonBits p)) (y.toNat / 2 ^ (32 - latBits p)) := by
  unfold mkHash
  apply BitVec.eq_of_getLsbD_eq
  intro i hi
  rw [BitVec.getLsbD_ushiftRight, BitVec.getLsbD_ushiftRight]
  by_cases hb : 64 - p + i < 64
  · rw [getLsbD_interleave _ _ _ hb, getLsbD_interleave _ _ _ hb,
      getLsbD_trunc, getLsbD_trunc]
    unfold latBits lonBits
    split
    · rw [decide_eq_true (by omega), Bool.true_and]
    · rw [decide_eq_true (by omega), Bool.true_and]
  · rw [BitVec.getLsbD_of_ge _ _ (by omega), BitVec.getLsbD_of_ge _ _ (by omega)]

theorem deinterleave_shift_shift (p i j : Nat) (hp1 : 1 ≤ p) (hp : p ≤ 64) :
    deinterleave (mkHash p i j <<< (64 - p)) =
      (BitVec.ofNat 32 (j * 2 ^ (32 - latBits p)), BitVec.ofNat 32 (i * 2 ^ (32 - lonBits p))) := by
  rw [← deinterleave_interleave (BitVec.ofNat 32 (j * 2 ^ (32 - latBits p)))
    (BitVec.ofNat 32 (i * 2 ^ (32 - lonBits p)))]
  congr 1
  unfold mkHash
  apply BitVec.eq_of_getLsbD_eq
  intro k hk
  rw [BitVec.getLsbD_shiftLeft, BitVec.getLsbD_ushiftRight]
  by_cases hb : k < 64 - p
  · rw [getLsbD_interleave _ _ _ hk, BitVec.getLsbD_ofNat, BitVec.getLsbD_ofNat,
      Nat.testBit_mul_two_pow, Nat.testBit_mul_two_pow]
    unfold latBits lonBits
    split
    · simp [hb]; intros; omega
    · simp [hb]; intros; omega
  · simp [hb, hk]
    rw [show 64 - p + (k - (64 - p)) = k by omega, BitVec.getLsbD_eq_getElem]

theorem pow_split (b : Nat) (hb : b ≤ 32) : 2 ^ b * 2 ^ (32 - b) = 4294967296 := by
  rw [← pow_add, show b + (32 - b) = 32 by omega]; norm_num

theorem mul_lt_word {i b : Nat} (hb : b ≤ 32) (hi : i < 2 ^ b) :
    i * 2 ^ (32 - b) < 4294967296 := by
  have := pow_split b hb
  calc i * 2 ^ (32 - b) < 2 ^ b * 2 ^ (32 - b) :=
        Nat.mul_lt_mul_of_pos_right hi (by positivity)
    _ = _ := this

theorem mkHash_inj {p i j i' j' : Nat} (hp1 : 1 ≤ p) (hp : p ≤ 64) (hi : i < 2 ^ lonBits p)
    (hj : j < 2 ^ latBits p) (hi' : i' < 2 ^ lonBits p) (hj' : j' < 2 ^ latBits p)
    (h : mkHash p i j = mkHash p i' j') : i = i' ∧ j = j' := by
  have h1 := deinterleave_shift_shift p i j hp1 hp
  have h2 := deinterleave_shift_shift p i' j' hp1 hp
  rw [h, h2] at h1
  have hL : lonBits p ≤ 32 := by unfold lonBits; omega
  have hB : latBits p ≤ 32 := by unfold latBits; omega
  have e1 := congrArg BitVec.toNat (congrArg Prod.fst h1)
  have e2 := congrArg BitVec.toNat (congrArg Prod.snd h1)
  simp only [BitVec.toNat_ofNat] at e1 e2
  rw [Nat.mod_eq_of_lt (mul_lt_word hB hj), Nat.mod_eq_of_lt (mul_lt_word hB hj')] at e1
  rw [Nat.mod_eq_of_lt (mul_lt_word hL hi), Nat.mod_eq_of_lt (mul_lt_word hL hi')] at e2
  exact ⟨(Nat.eq_of_mul_eq_mul_right (by positivity) e2).symm,
    (Nat.eq_of_mul_eq_mul_right (by positivity) e1).symm⟩

theorem shift_mkHash_lt (p i j : Nat) (hp : p ≤ 64) : (mkHash p i j).toNat < 2 ^ p := by
  unfold mkHash
  rw [BitVec.toNat_ushiftRight, Nat.shiftRight_eq_div_pow]
  apply Nat.div_lt_of_lt_mul
  rw [← pow_add, show 64 - p + p = 64 by omega]
  exact BitVec.isLt _

/-- Every hash of `p` bits is the hash of one cell. -/
theorem exists_mkHash (p : Nat) (h : BitVec 64) (hp1 : 1 ≤ p) (hp : p ≤ 64) (hh : h.toNat < 2 ^ p) :
    ∃ i j, i < 2 ^ lonBits p ∧ j < 2 ^ latBits p ∧ h = mkHash p i j := by
  have hL : lonBits p ≤ 32 := by unfold lonBits; omega
  have hB : latBits p ≤ 32 := by unfold latBits; omega
  have key : h = (h <<< (64 - p)) >>> (64 - p) := by
    apply BitVec.eq_of_toNat_eq
    rw [BitVec.toNat_ushiftRight, BitVec.toNat_shiftLeft, Nat.shiftLeft_eq,
      Nat.shiftRight_eq_div_pow, Nat.mod_eq_of_lt, Nat.mul_div_cancel _ (by positivity)]
    calc h.toNat * 2 ^ (64 - p) < 2 ^ p * 2 ^ (64 - p) :=
          Nat.mul_lt_mul_of_pos_right hh (by positivity)
      _ = 2 ^ 64 := by rw [← pow_add, show p + (64 - p) = 64 by omega]
  refine ⟨(deinterleave (h <<< (64 - p))).2.toNat / 2 ^ (32 - lonBits p),
    (deinterleave (h <<< (64 - p))).1.toNat / 2 ^ (32 - latBits p), ?_, ?_, ?_⟩
  · apply Nat.div_lt_of_lt_mul
    rw [Nat.mul_comm, pow_split _ hL]; exact BitVec.isLt _
  · apply Nat.div_lt_of_lt_mul
    rw [Nat.mul_comm, pow_split _ hB]; exact BitVec.isLt _
  · rw [← interleave_shift _ _ _ hp, interleave_deinterleave]; exact key

/-- Removing the last bits of a hash gives the cell that contains the cell. -/
theorem mkHash_shift {p q i j : Nat} (hq1 : 1 ≤ q) (hqp : q ≤ p) (hp : p ≤ 64)
    (hi : i < 2 ^ lonBits p) (hj : j < 2 ^ latBits p) :
    mkHash p i j >>> (p - q) =
      mkHash q (i / 2 ^ (lonBits p - lonBits q)) (j / 2 ^ (latBits p - latBits q)) := by
  have hL : lonBits p ≤ 32 := by unfold lonBits; omega
  have hB : latBits p ≤ 32 := by unfold latBits; omega
  have hLq : lonBits q ≤ lonBits p := by unfold lonBits; omega
  have hBq : latBits q ≤ latBits p := by unfold latBits; omega
  have h1 : mkHash p i j >>> (p - q) = interleave (BitVec.ofNat 32 (j * 2 ^ (32 - latBits p)))
      (BitVec.ofNat 32 (i * 2 ^ (32 - lonBits p))) >>> (64 - q) := by
    unfold mkHash
    rw [← BitVec.shiftRight_add, show 64 - p + (p - q) = 64 - q by omega]
  rw [h1, interleave_shift _ _ _ (by omega)]
  simp only [BitVec.toNat_ofNat]
  rw [Nat.mod_eq_of_lt (mul_lt_word hL hi), Nat.mod_eq_of_lt (mul_lt_word hB hj)]
  congr 1
  · rw [show 32 - lonBits q = (lonBits p - lonBits q) + (32 - lonBits p) by omega, pow_add,
      Nat.mul_div_mul_right _ _ (by positivity)]
  · rw [show 32 - latBits q = (latBits p - latBits q) + (32 - latBits p) by omega, pow_add,
      Nat.mul_div_mul_right _ _ (by positivity)]


/-! ### Positions -/

section
variable {K : Type} [Field K] [LinearOrder K] [IsStrictOrderedRing K] [FloorRing K]

/-- `x` lies in the `k`-th of the `2^b` equal intervals of `[-r, r]`: closed on the
left, open on the right, except the last one which contains `r`. -/
def Lies (x r : K) (b k : Nat) : Prop :=
  k < 2 ^ b ∧ -r + 2 * r * ((k : K) / 2 ^ b) ≤ x ∧
    (x < -r + 2 * r * (((k : K) + 1) / 2 ^ b) ∨ (x = r ∧ k + 1 = 2 ^ b))

theorem lies_unique {x r : K} {b k k' : Nat} (hr : 0 < r) (h : Lies x r b k) (h' : Lies x r b k') :
    k = k' := by
  obtain ⟨h1, h2, h3⟩ := h
  obtain ⟨h1', h2', h3'⟩ := h'
  have hpos : (0 : K) < 2 ^ b := by positivity
  have aux : ∀ m n : Nat, n < 2 ^ b → -r + 2 * r * ((n : K) / 2 ^ b) ≤ x →
      (x < -r + 2 * r * (((m : K) + 1) / 2 ^ b) ∨ (x = r ∧ m + 1 = 2 ^ b)) → n ≤ m := by
    intro m n hn hle hor
    rcases hor with hlt | ⟨_, hm⟩
    · have h4 := lt_of_le_of_lt hle hlt
      have h5 : (n : K) / 2 ^ b < ((m : K) + 1) / 2 ^ b := by
        have : 2 * r * ((n : K) / 2 ^ b) < 2 * r * (((m : K) + 1) / 2 ^ b) := by linarith
        exact lt_of_mul_lt_mul_left this (by positivity)
      have h6 : (n : K) < (m : K) + 1 := (div_lt_div_iff_of_pos_right hpos).1 h5
      have : (n : K) < ((m + 1 : ℕ) : K) := by push_cast; exact h6
      have := Nat.cast_lt.1 this
      omega
    · omega
  exact le_antisymm (aux k' k h1 h2 h3') (aux k k' h1' h2' h3)

theorem lies_exists {x r : K} (b : Nat) (hr : 0 < r) (h0 : -r ≤ x) (h1 : x ≤ r) :
    ∃ k, Lies x r b k := by
  have hpos : (0 : K) < 2 ^ b := by positivity
  rcases eq_or_lt_of_le h1 with rfl | hlt
  · refine ⟨2 ^ b - 1, by have : 0 < 2 ^ b := by positivity
                          omega, ?_, Or.inr ⟨rfl, by have : 0 < 2 ^ b := by positivity
                                                     omega⟩⟩
    have : ((2 ^ b - 1 : ℕ) : K) / 2 ^ b ≤ 1 := by
      rw [div_le_one hpos]
      have : ((2 ^ b - 1 : ℕ) : K) ≤ ((2 ^ b : ℕ) : K) := Nat.cast_le.2 (Nat.sub_le _ _)
      push_cast at this
      exact this
    have := mul_le_mul_of_nonneg_left this (by positivity : (0 : K) ≤ 2 * x)
    linarith
  · have hz0 : (0 : K) ≤ (x + r) / (2 * r) * 2 ^ b :=
      mul_nonneg (div_nonneg (by linarith) (by linarith)) hpos.le
    have hz1 : (x + r) / (2 * r) * 2 ^ b < 2 ^ b := by
      have : (x + r) / (2 * r) < 1 := by rw [div_lt_one (by positivity)]; linarith
      exact (mul_lt_iff_lt_one_left hpos).2 this
    have hx : x = -r + 2 * r * (((x + r) / (2 * r) * 2 ^ b) / 2 ^ b) := by field_simp; ring
    refine ⟨⌊(x + r) / (2 * r) * 2 ^ b⌋₊, ?_, ?_, Or.inl ?_⟩
    · rw [Nat.floor_lt hz0]; push_cast; exact hz1
    · have := Nat.floor_le hz0
      have h2 := div_le_div_of_nonneg_right this hpos.le
      have h3 := mul_le_mul_of_nonneg_left h2 (by positivity : (0 : K) ≤ 2 * r)
      linarith
    · have := Nat.lt_floor_add_one ((x + r) / (2 * r) * 2 ^ b)
      have h2 := (div_lt_div_iff_of_pos_right hpos).2 this
      have h3 := mul_lt_mul_of_pos_left h2 (by positivity : (0 : K) < 2 * r)
      linarith

/-- The interval with fewer bits. -/
theorem lies_coarse {x r : K} {b c k : Nat} (hr : 0 < r) (hcb : c ≤ b) (h : Lies x r b k) :
    Lies x r c (k / 2 ^ (b - c)) := by
  obtain ⟨h1, h2, h3⟩ := h
  have hpos : (0 : K) < 2 ^ b := by positivity
  have hposc : (0 : K) < 2 ^ c := by positivity
  have hposd : (0 : K) < 2 ^ (b - c) := by positivity
  have hsplit : (2 : K) ^ b = 2 ^ c * 2 ^ (b - c) := by
    rw [← pow_add, show c + (b - c) = b by omega]
  have hsplitN : 2 ^ b = 2 ^ c * 2 ^ (b - c) := by
    rw [← pow_add, show c + (b - c) = b by omega]
  have hdN : 0 < 2 ^ (b - c) := by positivity
  refine ⟨Nat.div_lt_of_lt_mul (by rw [Nat.mul_comm, ← hsplitN]; exact h1), ?_, ?_⟩
  · have e : ((k / 2 ^ (b - c) : ℕ) : K) * 2 ^ (b - c) ≤ k := by
      have := Nat.div_mul_le_self k (2 ^ (b - c))
      have h5 : ((k / 2 ^ (b - c) * 2 ^ (b - c) : ℕ) : K) ≤ (k : K) := Nat.cast_le.2 this
      push_cast at h5 ⊢
      exact h5
    have e2 : ((k / 2 ^ (b - c) : ℕ) : K) / 2 ^ c ≤ (k : K) / 2 ^ b := by
      rw [div_le_div_iff₀ hposc hpos, hsplit]
      nlinarith [mul_le_mul_of_nonneg_right e hposc.le]
    have e3 := mul_le_mul_of_nonneg_left e2 (by positivity : (0 : K) ≤ 2 * r)
    linarith
  · rcases h3 with h3 | ⟨h3, h4⟩
    · left
      have e : (k : K) + 1 ≤ (((k / 2 ^ (b - c) : ℕ) : K) + 1) * 2 ^ (b - c) := by
        have := Nat.lt_div_mul_add (a := k) hdN
        have h6 : k + 1 ≤ (k / 2 ^ (b - c) + 1) * 2 ^ (b - c) := by
          rw [Nat.add_mul, Nat.one_mul]; omega
        have h5 : ((k + 1 : ℕ) : K) ≤ (((k / 2 ^ (b - c) + 1) * 2 ^ (b - c) : ℕ) : K) :=
          Nat.cast_le.2 h6
        push_cast at h5 ⊢
        exact h5
      have e2 : ((k : K) + 1) / 2 ^ b ≤ (((k / 2 ^ (b - c) : ℕ) : K) + 1) / 2 ^ c := by
        rw [div_le_div_iff₀ hpos hposc, hsplit]
        nlinarith [mul_le_mul_of_nonneg_right e hposc.le]
      have e3 := mul_le_mul_of_nonneg_left e2 (by positivity : (0 : K) ≤ 2 * r)
      linarith
    · right
      refine ⟨h3, ?_⟩
      have hk : k = 2 ^ c * 2 ^ (b - c) - 1 := by omega
      have hc : 0 < 2 ^ c := by positivity
      have : k / 2 ^ (b - c) = 2 ^ c - 1 := by
        rw [Nat.div_eq_iff hdN]
        obtain ⟨c', hc'⟩ : ∃ c', 2 ^ c = c' + 1 := ⟨2 ^ c - 1, by omega⟩
        rw [hk, hc']
        simp only [Nat.add_mul, Nat.one_mul, Nat.add_sub_cancel]
        omega
      omega

theorem lies_range {x r : K} {b k : Nat} (hr : 0 < r) (h : Lies x r b k) : -r ≤ x ∧ x ≤ r := by
  obtain ⟨h1, h2, h3⟩ := h
  have hpos : (0 : K) < 2 ^ b := by positivity
  have hk : (0 : K) ≤ 2 * r * ((k : K) / 2 ^ b) := by positivity
  refine ⟨by linarith, ?_⟩
  rcases h3 with h3 | h3
  · have : ((k : K) + 1) / 2 ^ b ≤ 1 := by
      rw [div_le_one hpos]
      have : ((k + 1 : ℕ) : K) ≤ ((2 ^ b : ℕ) : K) := Nat.cast_le.2 h1
      push_cast at this
      exact this
    have := mul_le_mul_of_nonneg_left this (by positivity : (0 : K) ≤ 2 * r)
    linarith
  · exact h3.1.le

theorem floor_of_lies {x r : K} {k : Nat} (hr : 0 < r) (hx : x < r) (h : Lies x r 32 k) :
    ⌊(x + r) / (2 * r) * 4294967296⌋ = (k : ℤ) := by
  obtain ⟨h1, h2, h3⟩ := h
  rcases h3 with h3 | ⟨h3, _⟩
  · have e : (2 : K) ^ 32 = 4294967296 := by norm_num
    rw [e] at h2 h3
    rw [Int.floor_eq_iff]
    push_cast
    have ex : (x + r) / (2 * r) * 4294967296 = (x + r) * (4294967296 / (2 * r)) := by ring
    constructor
    · have : (k : K) = 2 * r * ((k : K) / 4294967296) * (4294967296 / (2 * r)) := by field_simp
      rw [ex, this]
      exact mul_le_mul_of_nonneg_right (by linarith) (by positivity)
    · have : (k : K) + 1 = 2 * r * (((k : K) + 1) / 4294967296) * (4294967296 / (2 * r)) := by
        field_simp
      rw [ex, this]
      exact mul_lt_mul_of_pos_right (by linarith) (by positivity)
  · exact absurd h3 hx.ne

theorem encodeRange_of_lies {x r : K} {k : Nat} (hr : 0 < r) (h : Lies x r 32 k) :
    encodeRange x r = .ok (BitVec.ofNat 32 k) := by
  unfold encodeRange
  obtain ⟨hx0, hx1⟩ := lies_range hr h
  by_cases hx : r ≤ x
  · have e : x = r := le_antisymm hx1 hx
    obtain ⟨h1, h2, h3⟩ := h
    rw [if_pos hx]
    rcases h3 with h3 | ⟨_, h3⟩
    · exfalso
      have hh : ((k : K) + 1) / 2 ^ 32 ≤ 1 := by
        rw [div_le_one (by positivity)]
        have : ((k + 1 : ℕ) : K) ≤ ((2 ^ 32 : ℕ) : K) := Nat.cast_le.2 h1
        push_cast at this ⊢
        norm_num
        exact this
      have := mul_le_mul_of_nonneg_left hh (by positivity : (0 : K) ≤ 2 * r)
      linarith
    · have : k = 4294967295 := by omega
      rw [this]
  · rw [if_neg hx]
    push Not at hx
    have hf := floor_of_lies hr hx h
    have hz0 : (0 : K) ≤ (x + r) / (2 * r) * 4294967296 :=
      mul_nonneg (div_nonneg (by linarith) (by linarith)) (by norm_num)
    have hz1 : (x + r) / (2 * r) * 4294967296 < 4294967296 := by
      have : (x + r) / (2 * r) < 1 := by rw [div_lt_one (by positivity)]; linarith
      exact (mul_lt_iff_lt_one_left (by norm_num)).2 this
    unfold castU32
    rw [if_neg (by push Not; exact ⟨by linarith, hz1⟩), if_pos hz0, hf]
    rfl

theorem log_eq_of {v : K} {e : ℤ} (h0 : (2 : K) ^ e ≤ v) (h1 : v < (2 : K) ^ (e + 1)) :
    Int.log 2 v = e := by
  have hv : 0 < v := lt_of_lt_of_le (zpow_pos (by norm_num) _) h0
  have a := (Int.zpow_le_iff_le_log (b := 2) (by norm_num) hv (x := e)).1 (by exact_mod_cast h0)
  have b := (Int.lt_zpow_iff_log_lt (b := 2) (by norm_num) hv (x := e + 1)).1 (by exact_mod_cast h1)
  omega

/-- The low word of the representation of a number. -/
theorem shrq_low {v : K} {e : ℤ} {k : Nat} (hk : k < 4294967296) (h0 : (2 : K) ^ e ≤ v)
    (h1 : v < (2 : K) ^ (e + 1)) (hf : ⌊(v / 2 ^ e - 1) * 2 ^ 32⌋ = (k : ℤ)) :
    (shrq v).setWidth 32 = BitVec.ofNat 32 k := by
  have hv : 0 < v := lt_of_lt_of_le (zpow_pos (by norm_num) _) h0
  unfold shrq
  rw [if_neg hv.ne', abs_of_pos hv, log_eq_of h0 h1]
  simp only [if_neg (not_lt.2 hv.le), hf]
  apply BitVec.eq_of_toNat_eq
  simp only [BitVec.toNat_setWidth, BitVec.toNat_ofInt, BitVec.toNat_ofNat]
  omega

/-- The index computed by the BMI2 version. -/
theorem bmi_of_lies {x r : K} {k : Nat} (hr : 0 < r) (h : Lies x r 32 k) :
    (if x = r then 0x3FFFFFFFFFF#64 else shrq (3 / 2 + x * (1 / (2 * r)))).setWidth 32 =
      BitVec.ofNat 32 k := by
  obtain ⟨hx0, hx1⟩ := lies_range hr h
  by_cases hx : x = r
  · have h' := encodeRange_of_lies hr h
    rw [if_pos hx]
    unfold encodeRange at h'
    rw [if_pos hx.ge] at h'
    have := Except.ok.inj h'
    rw [← this]
    decide
  · rw [if_neg hx]
    have hlt := lt_of_le_of_ne hx1 hx
    have hf := floor_of_lies hr hlt h
    have e : x * (1 / (2 * r)) = (x + r) / (2 * r) - 1 / 2 := by field_simp; ring
    have g0 : 0 ≤ (x + r) / (2 * r) := div_nonneg (by linarith) (by linarith)
    have g1 : (x + r) / (2 * r) < 1 := by rw [div_lt_one (by positivity)]; linarith
    apply shrq_low (e := 0) (by have := h.1; norm_num at this; exact this)
    · rw [e]; norm_num; linarith
    · rw [e]; norm_num; linarith
    · rw [e, ← hf]
      congr 1
      norm_num
      ring

theorem encoder_of_lies (cpu : Cpu) {lon lat : K} {i j : Nat} (hi : Lies lon 180 32 i)
    (hj : Lies lat 90 32 j) :
    encoder cpu lat lon = .ok (interleave (BitVec.ofNat 32 j) (BitVec.ofNat 32 i)) := by
  cases cpu
  · unfold encoder encodeBim2 interleave
    simp only [pdep_eq_spread]
    have a := bmi_of_lies (by norm_num) hi
    have b := bmi_of_lies (by norm_num) hj
    rw [show (1 : K) / 180 = 1 / (2 * 90) by norm_num, show (1 : K) / 360 = 1 / (2 * 180) by norm_num,
      a, b, BitVec.or_comm]
  · unfold encoder encodePortable
    simp only [encodeRange_of_lies (by norm_num : (0 : K) < 180) hi,
      encodeRange_of_lies (by norm_num : (0 : K) < 90) hj]
    rfl

/-- A point is encoded by the cell where it lies. -/
theorem encode_of_lies (cpu : Cpu) {lon lat : K} {p i j : Nat} (hp1 : 1 ≤ p) (hp : p ≤ 64)
    (hi : Lies lon 180 (lonBits p) i) (hj : Lies lat 90 (latBits p) j) :
    encode cpu ⟨lon, lat⟩ p = .ok (mkHash p i j) := by
  have hr1 : (0 : K) < 180 := by norm_num
  have hr2 : (0 : K) < 90 := by norm_num
  have hL : lonBits p ≤ 32 := by unfold lonBits; omega
  have hB : latBits p ≤ 32 := by unfold latBits; omega
  obtain ⟨a, b⟩ := lies_range hr1 hi
  obtain ⟨c, d⟩ := lies_range hr2 hj
  obtain ⟨x, hx⟩ := lies_exists 32 hr1 a b
  obtain ⟨y, hy⟩ := lies_exists 32 hr2 c d
  unfold encode
  rw [encoder_of_lies cpu hx hy]
  have hne : ¬ (p = 0 ∨ 64 < p) := by omega
  simp only [bind, Except.bind, pure, Except.pure, hne, if_false]
  rw [interleave_shift _ _ _ hp]
  simp only [BitVec.toNat_ofNat]
  rw [Nat.mod_eq_of_lt (by exact hx.1), Nat.mod_eq_of_lt (by exact hy.1)]
  rw [lies_unique hr1 (lies_coarse hr1 hL hx) hi, lies_unique hr2 (lies_coarse hr2 hB hy) hj]

/-- The box of a cell. -/
def cellBox (p i j : Nat) : Box K :=
  ⟨⟨-180 + 360 * ((i : K) / 2 ^ lonBits p), -90 + 180 * ((j : K) / 2 ^ latBits p)⟩,
   ⟨-180 + 360 * (((i : K) + 1) / 2 ^ lonBits p), -90 + 180 * (((j : K) + 1) / 2 ^ latBits p)⟩⟩

theorem decodeRange_of {b k : Nat} (r : K) (hb : b ≤ 31) (hk : k < 2 ^ b) :
    decodeRange (BitVec.ofNat 32 (k * 2 ^ (32 - b))) r = -r + 2 * r * ((k : K) / 2 ^ b) := by
  unfold decodeRange
  have hlt := mul_lt_word (by omega : b ≤ 32) hk
  rw [if_neg]
  · rw [BitVec.toNat_ofNat, Nat.mod_eq_of_lt hlt]
    have h1 : ((2 : K) ^ b) * 2 ^ (32 - b) = 4294967296 := by
      have := pow_split b (by omega)
      exact_mod_cast this
    push_cast
    rw [← h1]
    field_simp
    ring
  · intro h
    have := congrArg BitVec.toNat h
    rw [BitVec.toNat_ofNat, Nat.mod_eq_of_lt hlt] at this
    have h2 : 2 ^ (32 - b) = 2 * 2 ^ (31 - b) := by
      rw [← pow_succ']; congr 1; omega
    rw [h2] at this
    have h3 : (4294967295#32).toNat = 4294967295 := rfl
    rw [h3, show k * (2 * 2 ^ (31 - b)) = 2 * (k * 2 ^ (31 - b)) by ring] at this
    omega

theorem boundingBox_mkHash (cpu : Cpu) {p i j : Nat} (hp1 : 1 ≤ p) (hp : p ≤ 62)
    (hi : i < 2 ^ lonBits p) (hj : j < 2 ^ latBits p) :
    boundingBox cpu (mkHash p i j) p = .ok (cellBox p i j : Box K) := by
  have hL : lonBits p ≤ 31 := by unfold lonBits; omega
  have hB : latBits p ≤ 31 := by unfold latBits; omega
  have hne : ¬ (p = 0 ∨ 64 < p) := by omega
  unfold boundingBox
  rw [if_neg hne]
  simp only [deinterleaver_eq, deinterleave_shift_shift p i j hp1 (by omega),
    decodeRange_of _ hL hi, decodeRange_of _ hB hj]
  have hposL : (0 : K) < 2 ^ lonBits p := by positivity
  have e1 : (errorWithPrecision p : K × K) =
      (360 * (1 / 2 ^ lonBits p), 180 * (1 / 2 ^ latBits p)) := by
    unfold errorWithPrecision
    simp [Nat.shiftRight_eq_div_pow, latBits, lonBits]
  have a : (0 : K) ≤ (i : K) / 2 ^ lonBits p := by positivity
  have b : ((i : K) + 1) / 2 ^ lonBits p ≤ 1 := by
    rw [div_le_one hposL]
    have : ((i + 1 : ℕ) : K) ≤ ((2 ^ lonBits p : ℕ) : K) := Nat.cast_le.2 hi
    push_cast at this
    exact this
  have c : ((i : K) + 1) / 2 ^ lonBits p = (i : K) / 2 ^ lonBits p + 1 / 2 ^ lonBits p := by ring
  have d : (0 : K) < 1 / 2 ^ lonBits p := by positivity
  unfold Box.make
  rw [e1]
  simp only
  rw [if_neg, if_neg]
  · unfold cellBox
    congr 1
    congr 1 <;> congr 1 <;> ring
  · push Not; linarith
  · push Not
    refine ⟨?_, ?_, ?_, ?_⟩ <;> linarith

end

end Pyinterp.Geohash

namespace Pyinterp.Geohash
open Pyinterp.Spec
section
variable {K : Type} [Field K] [LinearOrder K] [IsStrictOrderedRing K] [FloorRing K]

theorem edge_iff {b k : Nat} {r : K} (hr : 0 < r) :
    (-r + 2 * r * (((k : K) + 1) / 2 ^ b) = r) ↔ k + 1 = 2 ^ b := by
  have hpos : (0 : K) < 2 ^ b := by positivity
  constructor
  · intro h
    have h2 : ((k : K) + 1) / 2 ^ b = 1 := by
      have : 2 * r * (((k : K) + 1) / 2 ^ b) = 2 * r * 1 := by linarith
      exact mul_left_cancel₀ (by positivity) this
    rw [div_eq_one_iff_eq hpos.ne'] at h2
    exact_mod_cast h2
  · intro h
    have : (k : K) + 1 = 2 ^ b := by exact_mod_cast h
    rw [this, div_self hpos.ne']; ring

/-- Lying in a cell in terms of the box. -/
theorem inCell_cellBox {p i j : Nat} (hi : i < 2 ^ lonBits p) (hj : j < 2 ^ latBits p)
    (pt : Point K) :
    InCell (cellBox p i j) pt ↔ Lies pt.lon 180 (lonBits p) i ∧ Lies pt.lat 90 (latBits p) j := by
  have e1 : (360 : K) = 2 * 180 := by norm_num
  have e2 : (180 : K) = 2 * 90 := by norm_num
  have a := edge_iff (b := lonBits p) (k := i) (r := (180 : K)) (by norm_num)
  have b := edge_iff (b := latBits p) (k := j) (r := (90 : K)) (by norm_num)
  have e1' : (2 : K) * 180 = 360 := by norm_num
  have e2' : (2 : K) * 90 = 180 := by norm_num
  rw [e1'] at a
  rw [e2'] at b
  unfold InCell cellBox Lies
  simp only [e1', e2']
  rw [a, b]
  constructor
  · rintro ⟨h1, h2, h3, h4⟩
    exact ⟨⟨hi, h1, h2⟩, hj, h3, h4⟩
  · rintro ⟨⟨_, h1, h2⟩, _, h3, h4⟩
    exact ⟨h1, h2, h3, h4⟩

theorem onEarth_lies {p : Nat} {pt : Point K} (h : OnEarth pt) :
    ∃ i j, Lies pt.lon 180 (lonBits p) i ∧ Lies pt.lat 90 (latBits p) j := by
  obtain ⟨a, b, c, d⟩ := h
  obtain ⟨i, hi⟩ := lies_exists (lonBits p) (by norm_num : (0 : K) < 180) a b
  obtain ⟨j, hj⟩ := lies_exists (latBits p) (by norm_num : (0 : K) < 90) c d
  exact ⟨i, j, hi, hj⟩

end
end Pyinterp.Geohash
