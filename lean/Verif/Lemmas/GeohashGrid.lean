import Verif.Lemmas.GeohashCells
import Verif.Lemmas.Base32
import Verif.Lemmas.Math
import Mathlib.Algebra.Order.Floor.Semifield

/-
Neighbours and grids of cells.
-/
namespace Pyinterp.Geohash
open Pyinterp.Spec

section
variable {K : Type} [Field K] [LinearOrder K] [IsStrictOrderedRing K] [FloorRing K]

/-- centre of the `k`-th interval -/
def mid (r : K) (b : Nat) (k : K) : K := -r + 2 * r * ((k + 1 / 2) / 2 ^ b)

theorem mid_lies {r : K} {b k : Nat} (hr : 0 < r) (hk : k < 2 ^ b) : Lies (mid r b k) r b k := by
  have hpos : (0 : K) < 2 ^ b := by positivity
  refine ⟨hk, ?_, Or.inl ?_⟩
  · unfold mid
    have : (k : K) / 2 ^ b ≤ ((k : K) + 1 / 2) / 2 ^ b :=
      div_le_div_of_nonneg_right (by linarith) hpos.le
    have := mul_le_mul_of_nonneg_left this (by positivity : (0 : K) ≤ 2 * r)
    linarith
  · unfold mid
    have : ((k : K) + 1 / 2) / 2 ^ b < ((k : K) + 1) / 2 ^ b :=
      (div_lt_div_iff_of_pos_right hpos).2 (by linarith)
    have := mul_lt_mul_of_pos_left this (by positivity : (0 : K) < 2 * r)
    linarith

/-- index of `x` with `b` bits computed by the BMI2 code -/
def BmiAt (x r : K) (b k : Nat) : Prop :=
  ∃ a, a < 4294967296 ∧
    (if x = r then 0x3FFFFFFFFFF#64 else shrq (3 / 2 + x * (1 / (2 * r)))).setWidth 32 =
      BitVec.ofNat 32 a ∧ a / 2 ^ (32 - b) = k

theorem bmiAt_of_lies {x r : K} {b k : Nat} (hr : 0 < r) (hb : b ≤ 32) (h : Lies x r b k) :
    BmiAt x r b k := by
  obtain ⟨h0, h1⟩ := lies_range hr h
  obtain ⟨a, ha⟩ := lies_exists 32 hr h0 h1
  exact ⟨a, by have := ha.1; norm_num at this; exact this, bmi_of_lies hr ha,
    lies_unique hr (lies_coarse hr hb ha) h⟩

theorem bmiAt_east {r : K} {b k : Nat} (hr : 0 < r) (hb : b ≤ 31) (hk : k + 1 = 2 ^ b) :
    BmiAt (mid r b ((k : K) + 1)) r b 0 := by
  have hpos : (0 : K) < 2 ^ b := by positivity
  have hk' : (k : K) + 1 = 2 ^ b := by exact_mod_cast hk
  have hx : mid r b ((k : K) + 1) = r + 2 * r * (1 / 2 / 2 ^ b) := by
    unfold mid; rw [hk']; field_simp; ring
  have hd : (0 : K) < 1 / 2 / 2 ^ b := by positivity
  have hd1 : (1 : K) / 2 / 2 ^ b ≤ 1 / 2 := div_le_self (by norm_num) (one_le_pow₀ (by norm_num))
  refine ⟨2 ^ (31 - b) / 2, ?_, ?_, ?_⟩
  · have : 2 ^ (31 - b) ≤ 2 ^ 31 := Nat.pow_le_pow_right (by norm_num) (by omega)
    omega
  · have hne : mid r b ((k : K) + 1) ≠ r := by
      rw [hx]
      have : 0 < 2 * r * (1 / 2 / 2 ^ b) := by positivity
      intro h; linarith
    rw [if_neg hne]
    have e : 3 / 2 + mid r b ((k : K) + 1) * (1 / (2 * r)) = 2 + 1 / 2 / 2 ^ b := by
      rw [hx]; field_simp; ring
    rw [e]
    apply shrq_low (e := 1)
    · have : 2 ^ (31 - b) ≤ 2 ^ 31 := Nat.pow_le_pow_right (by norm_num) (by omega)
      omega
    · rw [zpow_one]; linarith
    · norm_num
      norm_num at hd1
      linarith
    · have h32 : (2 : K) ^ 32 = 2 ^ b * (2 * 2 ^ (31 - b)) := by
        rw [← pow_succ', ← pow_add]; congr 1; omega
      have e2 : ((2 + 1 / 2 / 2 ^ b) / 2 ^ (1 : ℤ) - 1) * (2 : K) ^ 32 =
          ((2 ^ (31 - b) : ℕ) : K) / ((2 : ℕ) : K) := by
        rw [h32]; push_cast; rw [zpow_one]; field_simp; ring
      rw [e2]
      have := Nat.floor_div_eq_div (K := K) (2 ^ (31 - b)) 2
      rw [← this]
      symm
      exact Int.natCast_floor_eq_floor (by positivity)
  · apply Nat.div_eq_of_lt
    have e : 2 ^ (32 - b) = 2 * 2 ^ (31 - b) := by rw [← pow_succ']; congr 1; omega
    have : 0 < 2 ^ (31 - b) := by positivity
    omega

theorem bmiAt_west {r : K} {b : Nat} (hr : 0 < r) (hb : b ≤ 31) :
    BmiAt (mid r b (-1)) r b (2 ^ b - 1) := by
  have hpos : (0 : K) < 2 ^ b := by positivity
  have hx : mid r b (-1) = -r - 2 * r * (1 / 2 / 2 ^ b) := by
    unfold mid; field_simp; ring
  have hd : (0 : K) < 1 / 2 / 2 ^ b := by positivity
  have hd1 : (1 : K) / 2 / 2 ^ b ≤ 1 / 2 := div_le_self (by norm_num) (one_le_pow₀ (by norm_num))
  have hs := pow_split b (by omega)
  have hp1 : 0 < 2 ^ (32 - b) := by positivity
  have hp2 : 0 < 2 ^ b := by positivity
  refine ⟨(2 ^ b - 1) * 2 ^ (32 - b), mul_lt_word (by omega) (by omega), ?_, ?_⟩
  · have hne : mid r b (-1) ≠ r := by
      rw [hx]
      have : 0 < 2 * r * (1 / 2 / 2 ^ b) := by positivity
      intro h; linarith
    rw [if_neg hne]
    have e : 3 / 2 + mid r b (-1) * (1 / (2 * r)) = 1 - 1 / 2 / 2 ^ b := by
      rw [hx]; field_simp; ring
    rw [e]
    apply shrq_low (e := -1)
    · exact mul_lt_word (by omega) (by omega)
    · norm_num
      norm_num at hd1
      linarith
    · norm_num
    · have h32 : (2 : K) ^ 32 = 2 ^ b * 2 ^ (32 - b) := by
        rw [← pow_add]; congr 1; omega
      have e2 : ((1 - 1 / 2 / 2 ^ b) / 2 ^ (-1 : ℤ) - 1) * (2 : K) ^ 32 =
          (((2 ^ b - 1) * 2 ^ (32 - b) : ℕ) : K) := by
        rw [h32]; push_cast [Nat.one_le_two_pow]; rw [zpow_neg_one]; field_simp; ring
      rw [e2]
      exact Int.floor_natCast _
  · exact Nat.mul_div_cancel _ hp1

theorem encode_bmi {lon lat : K} {p i j : Nat} (hp1 : 1 ≤ p) (hp : p ≤ 64)
    (hi : BmiAt lon 180 (lonBits p) i) (hj : BmiAt lat 90 (latBits p) j) :
    encode .bmi2 ⟨lon, lat⟩ p = .ok (mkHash p i j) := by
  obtain ⟨a, ha, ea, rfl⟩ := hi
  obtain ⟨c, hc, ec, rfl⟩ := hj
  unfold encode encoder encodeBim2
  have hne : ¬ (p = 0 ∨ 64 < p) := by omega
  simp only [bind, Except.bind, pure, Except.pure, hne, if_false, pdep_eq_spread]
  rw [show (1 : K) / 180 = 1 / (2 * 90) by norm_num, show (1 : K) / 360 = 1 / (2 * 180) by norm_num,
    ea, ec]
  have := interleave_shift (BitVec.ofNat 32 c) (BitVec.ofNat 32 a) p hp
  unfold interleave at this
  rw [BitVec.or_comm, this]
  simp only [BitVec.toNat_ofNat]
  rw [Nat.mod_eq_of_lt ha, Nat.mod_eq_of_lt hc]

/-- index of the interval next to `k`, around the circle -/
def step (b k : Nat) (d : ℤ) : Nat := (((k : ℤ) + d) % 2 ^ b).toNat

theorem step_lt (b k : Nat) (d : ℤ) : step b k d < 2 ^ b := by
  unfold step
  have h1 : (0 : ℤ) < 2 ^ b := by positivity
  have h2 := Int.emod_lt_of_pos ((k : ℤ) + d) h1
  have h3 := Int.emod_nonneg ((k : ℤ) + d) h1.ne'
  have : ((((k : ℤ) + d) % 2 ^ b).toNat : ℤ) < ((2 ^ b : ℕ) : ℤ) := by
    rw [Int.toNat_of_nonneg h3]; push_cast; exact h2
  exact_mod_cast this

theorem step_in {b k : Nat} {d : ℤ} (h0 : 0 ≤ (k : ℤ) + d) (h1 : (k : ℤ) + d < 2 ^ b) :
    (step b k d : ℤ) = k + d := by
  unfold step
  have e : ((k : ℤ) + d) % 2 ^ b = k + d := Int.emod_eq_of_lt h0 h1
  rw [e, Int.toNat_of_nonneg h0]

theorem mid_add (r : K) (b k : Nat) (d : ℤ) :
    mid r b ((k : K) + (d : K)) = mid r b k + (d : K) * (2 * r / 2 ^ b) := by
  unfold mid; ring

theorem lies_step {r : K} {b k : Nat} {d : ℤ} (hr : 0 < r) (h0 : 0 ≤ (k : ℤ) + d)
    (h1 : (k : ℤ) + d < 2 ^ b) :
    Lies (mid r b k + (d : K) * (2 * r / 2 ^ b)) r b (step b k d) := by
  rw [← mid_add]
  have e := step_in h0 h1
  have e' : ((step b k d : ℕ) : K) = (k : K) + (d : K) := by exact_mod_cast congrArg (Int.cast (R := K)) e
  rw [← e']
  exact mid_lies hr (step_lt b k d)

theorem bmiAt_step {r : K} {b k : Nat} {d : ℤ} (hr : 0 < r) (hb : b ≤ 31) (hk : k < 2 ^ b)
    (hd : d = -1 ∨ d = 0 ∨ d = 1) :
    BmiAt (mid r b k + (d : K) * (2 * r / 2 ^ b)) r b (step b k d) := by
  by_cases h0 : 0 ≤ (k : ℤ) + d
  · by_cases h1 : (k : ℤ) + d < 2 ^ b
    · exact bmiAt_of_lies hr (by omega) (lies_step hr h0 h1)
    · have hk' : (k : ℤ) < 2 ^ b := by exact_mod_cast hk
      have hd1 : d = 1 := by
        rcases hd with rfl | rfl | rfl
        · omega
        · omega
        · rfl
      subst hd1
      have hk2 : k + 1 = 2 ^ b := by
        have : (k : ℤ) + 1 = 2 ^ b := by omega
        exact_mod_cast this
      have := bmiAt_east (b := b) (k := k) hr hb hk2
      rw [← mid_add]
      have e : step b k 1 = 0 := by
        unfold step
        have : (k : ℤ) + 1 = 2 ^ b := by omega
        rw [this]
        rw [Int.emod_self]; rfl
      rw [e]
      push_cast
      exact this
  · have hd1 : d = -1 := by omega
    have hk0 : k = 0 := by omega
    subst hd1 hk0
    rw [← mid_add]
    have := bmiAt_west (r := r) (b := b) hr hb
    have e : step b 0 (-1) = 2 ^ b - 1 := by
      unfold step
      have h2 : ((0 : ℕ) : ℤ) + -1 = (2 ^ b - 1) + 2 ^ b * (-1) := by push_cast; ring
      rw [h2]
      have h3 : (0 : ℤ) < 2 ^ b := by positivity
      rw [Int.add_mul_emod_self_left, Int.emod_eq_of_lt (by omega) (by omega)]
      have : (((2 : ℕ) ^ b - 1 : ℕ) : ℤ) = 2 ^ b - 1 := by push_cast [Nat.one_le_two_pow]; rfl
      rw [← this]; rfl
    rw [e]
    push_cast
    rw [zero_add]
    exact this

theorem cellBox_centroid (p i j : Nat) :
    (cellBox p i j : Box K).centroid = ⟨mid 180 (lonBits p) i, mid 90 (latBits p) j⟩ := by
  unfold cellBox Box.centroid mid
  congr 1 <;> ring

theorem cellBox_delta (p i j : Nat) :
    (cellBox p i j : Box K).delta = (2 * 180 / 2 ^ lonBits p, 2 * 90 / 2 ^ latBits p) := by
  unfold cellBox Box.delta
  congr 1 <;> ring

/-- the eight directions -/
def dirs : List (ℤ × ℤ) :=
  [(0, 1), (1, 1), (1, 0), (1, -1), (0, -1), (-1, -1), (-1, 0), (-1, 1)]

theorem neighbors_of (cpu : Cpu) {p i j : Nat} (hp1 : 1 ≤ p) (hp : p ≤ 62)
    (hi : i < 2 ^ lonBits p) (hj : j < 2 ^ latBits p)
    (H : ∀ dx dy : ℤ, (dx = -1 ∨ dx = 0 ∨ dx = 1) → (dy = -1 ∨ dy = 0 ∨ dy = 1) →
      encode cpu (⟨mid 180 (lonBits p) (i : K) + (dx : K) * (2 * 180 / 2 ^ lonBits p),
        mid 90 (latBits p) (j : K) + (dy : K) * (2 * 90 / 2 ^ latBits p)⟩ : Point K) p =
      .ok (mkHash p (step (lonBits p) i dx) (step (latBits p) j dy))) :
    neighbors K cpu (mkHash p i j) p = .ok (dirs.map fun d =>
      mkHash p (step (lonBits p) i d.1) (step (latBits p) j d.2)) := by
  unfold neighbors
  rw [boundingBox_mkHash cpu hp1 hp hi hj]
  simp only [bind, Except.bind, pure, Except.pure, cellBox_centroid, cellBox_delta]
  have h1 := H 0 1 (by simp) (by simp)
  have h2 := H 1 1 (by simp) (by simp)
  have h3 := H 1 0 (by simp) (by simp)
  have h4 := H 1 (-1) (by simp) (by simp)
  have h5 := H 0 (-1) (by simp) (by simp)
  have h6 := H (-1) (-1) (by simp) (by simp)
  have h7 := H (-1) 0 (by simp) (by simp)
  have h8 := H (-1) 1 (by simp) (by simp)
  simp only [Int.cast_zero, Int.cast_one, Int.cast_neg, zero_mul, one_mul, add_zero, neg_mul,
    ← sub_eq_add_neg] at h1 h2 h3 h4 h5 h6 h7 h8
  rw [h1, h2, h3, h4, h5, h6, h7, h8]
  rfl

theorem neighbors_bmi {p i j : Nat} (hp1 : 1 ≤ p) (hp : p ≤ 62)
    (hi : i < 2 ^ lonBits p) (hj : j < 2 ^ latBits p) :
    neighbors K .bmi2 (mkHash p i j) p = .ok (dirs.map fun d =>
      mkHash p (step (lonBits p) i d.1) (step (latBits p) j d.2)) := by
  apply neighbors_of _ hp1 hp hi hj
  intro dx dy hdx hdy
  exact encode_bmi hp1 (by omega)
    (bmiAt_step (by norm_num) (by unfold lonBits; omega) hi hdx)
    (bmiAt_step (by norm_num) (by unfold latBits; omega) hj hdy)

theorem neighbors_interior (cpu : Cpu) {p i j : Nat} (hp1 : 1 ≤ p) (hp : p ≤ 62)
    (hi0 : 0 < i) (hi : i + 1 < 2 ^ lonBits p) (hj0 : 0 < j) (hj : j + 1 < 2 ^ latBits p) :
    neighbors K cpu (mkHash p i j) p = .ok (dirs.map fun d =>
      mkHash p (step (lonBits p) i d.1) (step (latBits p) j d.2)) := by
  apply neighbors_of _ hp1 hp (by omega) (by omega)
  intro dx dy hdx hdy
  have hi' : (i : ℤ) + 1 < 2 ^ lonBits p := by exact_mod_cast hi
  have hj' : (j : ℤ) + 1 < 2 ^ latBits p := by exact_mod_cast hj
  exact encode_of_lies cpu hp1 (by omega)
    (lies_step (by norm_num) (by omega) (by omega))
    (lies_step (by norm_num) (by omega) (by omega))

/-! ### Grids of cells -/

theorem roundAway_natCast (n : Nat) : Math.roundAway ((n : K)) = (n : ℤ) := by
  unfold Math.roundAway
  rw [if_pos (by positivity), Int.floor_eq_iff]
  push_cast
  constructor <;> linarith

/-- Step counted by `gridProperties` between two cells of the same precision. -/
theorem step_count {r : K} {b a c : Nat} (hr : 0 < r) (hac : a ≤ c) :
    castSize (Math.roundAway ((-r + 2 * r * ((c : K) / 2 ^ b) - (-r + 2 * r * ((a : K) / 2 ^ b))) /
      (2 * r * (1 / 2 ^ b)))) = .ok (c - a) := by
  have hpos : (0 : K) < 2 ^ b := by positivity
  have e : (-r + 2 * r * ((c : K) / 2 ^ b) - (-r + 2 * r * ((a : K) / 2 ^ b))) /
      (2 * r * (1 / 2 ^ b)) = ((c - a : ℕ) : K) := by
    rw [Nat.cast_sub hac]; field_simp; ring
  rw [e, roundAway_natCast]
  unfold castSize
  rw [if_neg (by omega), Int.toNat_natCast]

theorem mapM_ok {α β : Type} (f : α → Out β) (g : α → β) (l : List α)
    (h : ∀ a ∈ l, f a = .ok (g a)) : l.mapM f = .ok (l.map g) := by
  induction l with
  | nil => rfl
  | cons a l ih =>
    rw [List.mapM_cons, h a (by simp), ih fun b hb => h b (by simp [hb])]
    rfl

theorem errorWithPrecision_eq (p : Nat) : (errorWithPrecision p : K × K) =
    (2 * 180 * (1 / 2 ^ lonBits p), 2 * 90 * (1 / 2 ^ latBits p)) := by
  unfold errorWithPrecision
  norm_num [Nat.shiftRight_eq_div_pow, latBits, lonBits]

/-- The grid enumerated from a cell. -/
def gridCells (p i0 j0 ni nj : Nat) : List (BitVec 64) :=
  ((List.range nj).map fun lat => (List.range ni).map fun lon => mkHash p (i0 + lon) (j0 + lat)).flatten

theorem boundingBoxes_of {cpu : Cpu} {box : Box K} {p i j ni nj : Nat} (hp1 : 1 ≤ p) (hp : p ≤ 62)
    (hg : gridProperties cpu box p = .ok (mkHash p i j, ni, nj))
    (hi : i < 2 ^ lonBits p) (hj : j < 2 ^ latBits p)
    (hni : i + ni ≤ 2 ^ lonBits p) (hnj : j + nj ≤ 2 ^ latBits p) :
    boundingBoxes cpu box p = .ok (gridCells p i j ni nj) := by
  unfold boundingBoxes decode
  rw [hg]
  simp only [bind, Except.bind, boundingBox_mkHash (K := K) cpu hp1 hp hi hj, pure, Except.pure]
  simp only [cellBox_centroid, errorWithPrecision_eq, Bool.false_eq_true, if_false]
  rw [mapM_ok _ (fun lat => (List.range ni).map fun lon => mkHash p (i + lon) (j + lat))]
  · rfl
  · intro lat hlat
    rw [List.mem_range] at hlat
    apply mapM_ok
    intro lon hlon
    rw [List.mem_range] at hlon
    apply encode_of_lies cpu hp1 (by omega)
    · have : mid 180 (lonBits p) (i : K) + (lon : K) * (2 * 180 * (1 / 2 ^ lonBits p)) =
          mid 180 (lonBits p) ((i + lon : ℕ) : K) := by unfold mid; push_cast; ring
      rw [this]
      exact mid_lies (by norm_num) (by omega)
    · have : mid 90 (latBits p) (j : K) + (lat : K) * (2 * 90 * (1 / 2 ^ latBits p)) =
          mid 90 (latBits p) ((j + lat : ℕ) : K) := by unfold mid; push_cast; ring
      rw [this]
      exact mid_lies (by norm_num) (by omega)

theorem cellBox_inj {p i j i' j' : Nat} (h : (cellBox p i j : Box K) = cellBox p i' j') :
    i = i' ∧ j = j' := by
  have h1 := congrArg (fun b => b.minCorner.lon) h
  have h2 := congrArg (fun b => b.minCorner.lat) h
  unfold cellBox at h1 h2
  simp only at h1 h2
  have hL : (0 : K) < 2 ^ lonBits p := by positivity
  have hB : (0 : K) < 2 ^ latBits p := by positivity
  constructor
  · have : (360 : K) * (i / 2 ^ lonBits p) = 360 * (i' / 2 ^ lonBits p) := by linarith
    have := mul_left_cancel₀ (by norm_num) this
    rw [div_left_inj' hL.ne'] at this
    exact_mod_cast this
  · have : (180 : K) * (j / 2 ^ latBits p) = 180 * (j' / 2 ^ latBits p) := by linarith
    have := mul_left_cancel₀ (by norm_num) this
    rw [div_left_inj' hB.ne'] at this
    exact_mod_cast this

/-- Properties of the grid that covers a box whose corners lie in given cells. -/
theorem gridProperties_of (cpu : Cpu) (box : Box K) {p i j i' j' : Nat} (hp1 : 1 ≤ p) (hp : p ≤ 62)
    (a : Lies box.minCorner.lon 180 (lonBits p) i) (b : Lies box.minCorner.lat 90 (latBits p) j)
    (c : Lies box.maxCorner.lon 180 (lonBits p) i') (d : Lies box.maxCorner.lat 90 (latBits p) j')
    (hii : i ≤ i') (hjj : j ≤ j') :
    gridProperties cpu box p = .ok (mkHash p i j,
      if i = i' ∧ j = j' then (1, 1)
      else (i' - i + (if box.maxCorner.lon = 180 then 1 else 0),
        j' - j + (if box.maxCorner.lat = 90 then 1 else 0))) := by
  unfold gridProperties
  have e1 : encode cpu box.minCorner p = _ := encode_of_lies cpu hp1 (by omega) a b
  have e2 : encode cpu box.maxCorner p = _ := encode_of_lies cpu hp1 (by omega) c d
  rw [e1, e2]
  simp only [bind, Except.bind, pure, Except.pure, boundingBox_mkHash (K := K) cpu hp1 hp a.1 b.1,
    boundingBox_mkHash (K := K) cpu hp1 hp c.1 d.1]
  by_cases h : i = i' ∧ j = j'
  · obtain ⟨rfl, rfl⟩ := h
    simp
  · rw [if_neg, if_neg h]
    · rw [errorWithPrecision_eq]
      have s1 := step_count (K := K) (r := 180) (b := lonBits p) (by norm_num) hii
      have s2 := step_count (K := K) (r := 90) (b := latBits p) (by norm_num) hjj
      unfold cellBox
      simp only
      rw [show (2 : K) * 180 = 360 by norm_num] at s1 ⊢
      rw [show (2 : K) * 90 = 180 by norm_num] at s2 ⊢
      rw [s1, s2]
    · intro e
      exact h (cellBox_inj e)

/-- Edges of an interval in a finer partition. -/
theorem lies_edges {r : K} {b c k : Nat} (hr : 0 < r) (hbc : b ≤ c) (hk : k < 2 ^ b) :
    Lies (-r + 2 * r * ((k : K) / 2 ^ b)) r c (k * 2 ^ (c - b)) ∧
    (k + 1 < 2 ^ b →
      Lies (-r + 2 * r * (((k : K) + 1) / 2 ^ b)) r c ((k + 1) * 2 ^ (c - b))) ∧
    (k + 1 = 2 ^ b → Lies r r c ((k + 1) * 2 ^ (c - b) - 1)) := by
  have hposb : (0 : K) < 2 ^ b := by positivity
  have hposc : (0 : K) < 2 ^ c := by positivity
  have hd : 0 < 2 ^ (c - b) := by positivity
  have hsN : 2 ^ c = 2 ^ b * 2 ^ (c - b) := by rw [← pow_add]; congr 1; omega
  have hs : (2 : K) ^ c = 2 ^ b * 2 ^ (c - b) := by rw [← pow_add]; congr 1; omega
  have aux : ∀ m : Nat, m < 2 ^ b → Lies (-r + 2 * r * ((m : K) / 2 ^ b)) r c (m * 2 ^ (c - b)) := by
    intro m hm
    have e : ((m * 2 ^ (c - b) : ℕ) : K) / 2 ^ c = (m : K) / 2 ^ b := by
      rw [hs]; push_cast; field_simp
    refine ⟨?_, ?_, Or.inl ?_⟩
    · rw [hsN]; exact Nat.mul_lt_mul_of_pos_right hm hd
    · rw [e]
    · have : (m : K) / 2 ^ b < (((m * 2 ^ (c - b) : ℕ) : K) + 1) / 2 ^ c := by
        rw [← e]; exact (div_lt_div_iff_of_pos_right hposc).2 (by linarith)
      have := mul_lt_mul_of_pos_left this (by positivity : (0 : K) < 2 * r)
      linarith
  refine ⟨aux k hk, ?_, ?_⟩
  · intro h
    have := aux (k + 1) h
    push_cast at this ⊢
    exact this
  · intro h
    obtain ⟨m, hm⟩ := lies_exists c hr (by linarith : -r ≤ r) le_rfl
    have hm1 : m + 1 = 2 ^ c := by
      rcases hm.2.2 with h3 | h3
      · exfalso
        have hh : ((m : K) + 1) / 2 ^ c ≤ 1 := by
          rw [div_le_one hposc]
          have : ((m + 1 : ℕ) : K) ≤ ((2 ^ c : ℕ) : K) := Nat.cast_le.2 hm.1
          push_cast at this
          exact this
        have := mul_le_mul_of_nonneg_left hh (by positivity : (0 : K) ≤ 2 * r)
        linarith
      · exact h3.2
    rw [h, ← hsN, ← hm1]
    simpa using hm

/-- The grid of a cell at a finer precision. -/
theorem gridProperties_cell (cpu : Cpu) {q p i j : Nat} (hq1 : 1 ≤ q) (hqp : q < p) (hp : p ≤ 62)
    (hi : i < 2 ^ lonBits q) (hj : j < 2 ^ latBits q) :
    gridProperties cpu (cellBox q i j : Box K) p =
      .ok (mkHash p (i * 2 ^ (lonBits p - lonBits q)) (j * 2 ^ (latBits p - latBits q)),
        2 ^ (lonBits p - lonBits q), 2 ^ (latBits p - latBits q)) := by
  have hL : lonBits q ≤ lonBits p := by unfold lonBits; omega
  have hB : latBits q ≤ latBits p := by unfold latBits; omega
  have hdL : 0 < 2 ^ (lonBits p - lonBits q) := by positivity
  have hdB : 0 < 2 ^ (latBits p - latBits q) := by positivity
  obtain ⟨a1, a2, a3⟩ := lies_edges (r := (180 : K)) (by norm_num) hL hi
  obtain ⟨b1, b2, b3⟩ := lies_edges (r := (90 : K)) (by norm_num) hB hj
  have ex := edge_iff (b := lonBits q) (k := i) (r := (180 : K)) (by norm_num)
  have ey := edge_iff (b := latBits q) (k := j) (r := (90 : K)) (by norm_num)
  rw [show (2 : K) * 180 = 360 by norm_num] at a1 a2 ex
  rw [show (2 : K) * 90 = 180 by norm_num] at b1 b2 ey
  -- cell of the maximum corner
  obtain ⟨i', ci, ni⟩ : ∃ i', Lies (cellBox q i j : Box K).maxCorner.lon 180 (lonBits p) i' ∧
      i' + (if (cellBox q i j : Box K).maxCorner.lon = 180 then 1 else 0) =
        (i + 1) * 2 ^ (lonBits p - lonBits q) := by
    by_cases h : i + 1 = 2 ^ lonBits q
    · have h' : (cellBox q i j : Box K).maxCorner.lon = 180 := ex.2 h
      refine ⟨_, by rw [h']; exact a3 h, ?_⟩
      rw [if_pos h']
      have : 0 < (i + 1) * 2 ^ (lonBits p - lonBits q) := by positivity
      omega
    · have h' : (cellBox q i j : Box K).maxCorner.lon ≠ 180 := fun e => h (ex.1 e)
      exact ⟨_, a2 (by omega), by rw [if_neg h']; rfl⟩
  obtain ⟨j', cj, nj⟩ : ∃ j', Lies (cellBox q i j : Box K).maxCorner.lat 90 (latBits p) j' ∧
      j' + (if (cellBox q i j : Box K).maxCorner.lat = 90 then 1 else 0) =
        (j + 1) * 2 ^ (latBits p - latBits q) := by
    by_cases h : j + 1 = 2 ^ latBits q
    · have h' : (cellBox q i j : Box K).maxCorner.lat = 90 := ey.2 h
      refine ⟨_, by rw [h']; exact b3 h, ?_⟩
      rw [if_pos h']
      have : 0 < (j + 1) * 2 ^ (latBits p - latBits q) := by positivity
      omega
    · have h' : (cellBox q i j : Box K).maxCorner.lat ≠ 90 := fun e => h (ey.1 e)
      exact ⟨_, b2 (by omega), by rw [if_neg h']; rfl⟩
  rw [Nat.add_mul, Nat.one_mul] at ni nj
  have hii : i * 2 ^ (lonBits p - lonBits q) ≤ i' := by
    split at ni <;> omega
  have hjj : j * 2 ^ (latBits p - latBits q) ≤ j' := by
    split at nj <;> omega
  rw [gridProperties_of cpu _ (by omega) hp a1 b1 ci cj hii hjj, if_neg]
  · congr 3
    · omega
    · omega
  · rintro ⟨e1, e2⟩
    by_cases hcase : lonBits q < lonBits p
    · have : 2 ≤ 2 ^ (lonBits p - lonBits q) := by
        calc 2 = 2 ^ 1 := rfl
          _ ≤ _ := Nat.pow_le_pow_right (by norm_num) (by omega)
      split at ni <;> omega
    · have hcase' : latBits q < latBits p := by
        unfold lonBits latBits at *; omega
      have : 2 ≤ 2 ^ (latBits p - latBits q) := by
        calc 2 = 2 ^ 1 := rfl
          _ ≤ _ := Nat.pow_le_pow_right (by norm_num) (by omega)
      split at nj <;> omega

theorem boundingBoxes_cell (cpu : Cpu) {q p i j : Nat} (hq1 : 1 ≤ q) (hqp : q < p) (hp : p ≤ 62)
    (hi : i < 2 ^ lonBits q) (hj : j < 2 ^ latBits q) :
    boundingBoxes cpu (cellBox q i j : Box K) p =
      .ok (gridCells p (i * 2 ^ (lonBits p - lonBits q)) (j * 2 ^ (latBits p - latBits q))
        (2 ^ (lonBits p - lonBits q)) (2 ^ (latBits p - latBits q))) := by
  have hL : lonBits q ≤ lonBits p := by unfold lonBits; omega
  have hB : latBits q ≤ latBits p := by unfold latBits; omega
  have hsL : 2 ^ lonBits p = 2 ^ lonBits q * 2 ^ (lonBits p - lonBits q) := by
    rw [← pow_add]; congr 1; omega
  have hsB : 2 ^ latBits p = 2 ^ latBits q * 2 ^ (latBits p - latBits q) := by
    rw [← pow_add]; congr 1; omega
  have hdL : 0 < 2 ^ (lonBits p - lonBits q) := by positivity
  have hdB : 0 < 2 ^ (latBits p - latBits q) := by positivity
  apply boundingBoxes_of (by omega) hp (gridProperties_cell cpu hq1 hqp hp hi hj)
  · rw [hsL]; exact Nat.mul_lt_mul_of_pos_right hi hdL
  · rw [hsB]; exact Nat.mul_lt_mul_of_pos_right hj hdB
  · rw [hsL, ← Nat.succ_mul]; exact Nat.mul_le_mul_right _ hi
  · rw [hsB, ← Nat.succ_mul]; exact Nat.mul_le_mul_right _ hj

end

theorem mem_gridCells {p i0 j0 ni nj : Nat} {h : BitVec 64} :
    h ∈ gridCells p i0 j0 ni nj ↔
      ∃ x y, i0 ≤ x ∧ x < i0 + ni ∧ j0 ≤ y ∧ y < j0 + nj ∧ h = mkHash p x y := by
  unfold gridCells
  simp only [List.mem_flatten, List.mem_map, List.mem_range]
  constructor
  · rintro ⟨_, ⟨lat, hlat, rfl⟩, hm⟩
    rw [List.mem_map] at hm
    obtain ⟨lon, hlon, rfl⟩ := hm
    rw [List.mem_range] at hlon
    exact ⟨i0 + lon, j0 + lat, by omega, by omega, by omega, by omega, rfl⟩
  · rintro ⟨x, y, h1, h2, h3, h4, rfl⟩
    refine ⟨_, ⟨y - j0, by omega, rfl⟩, ?_⟩
    rw [List.mem_map]
    refine ⟨x - i0, by rw [List.mem_range]; omega, ?_⟩
    rw [show i0 + (x - i0) = x by omega, show j0 + (y - j0) = y by omega]

theorem length_gridCells (p i0 j0 ni nj : Nat) :
    (gridCells p i0 j0 ni nj).length = nj * ni := by
  unfold gridCells
  simp [List.length_flatten, Function.comp_def]

theorem nodup_gridCells {p i0 j0 ni nj : Nat} (hp1 : 1 ≤ p) (hp : p ≤ 64)
    (hni : i0 + ni ≤ 2 ^ lonBits p) (hnj : j0 + nj ≤ 2 ^ latBits p) :
    (gridCells p i0 j0 ni nj).Nodup := by
  unfold gridCells
  rw [List.nodup_flatten]
  constructor
  · intro l hl
    rw [List.mem_map] at hl
    obtain ⟨lat, hlat, rfl⟩ := hl
    rw [List.mem_range] at hlat
    apply List.Nodup.map_on _ List.nodup_range
    intro x hx y hy e
    rw [List.mem_range] at hx hy
    have := (mkHash_inj hp1 hp (by omega) (by omega) (by omega) (by omega) e).1
    omega
  · rw [List.pairwise_map]
    apply List.Pairwise.imp_of_mem _ List.nodup_range
    intro a b ha hb hab
    rw [List.mem_range] at ha hb
    intro h h1 h2
    rw [List.mem_map] at h1 h2
    obtain ⟨x, hx, rfl⟩ := h1
    obtain ⟨y, hy, e⟩ := h2
    rw [List.mem_range] at hx hy
    have := (mkHash_inj hp1 hp (by omega) (by omega) (by omega) (by omega) e).2
    omega

/-- The cells of the grid of a cell are the cells that have its code as prefix. -/
theorem mem_gridCells_prefix {q p i j : Nat} (hq1 : 1 ≤ q) (hqp : q ≤ p) (hp : p ≤ 62)
    (hi : i < 2 ^ lonBits q) (hj : j < 2 ^ latBits q) (h : BitVec 64) :
    h ∈ gridCells p (i * 2 ^ (lonBits p - lonBits q)) (j * 2 ^ (latBits p - latBits q))
        (2 ^ (lonBits p - lonBits q)) (2 ^ (latBits p - latBits q)) ↔
      h.toNat < 2 ^ p ∧ h >>> (p - q) = mkHash q i j := by
  have hL : lonBits q ≤ lonBits p := by unfold lonBits; omega
  have hB : latBits q ≤ latBits p := by unfold latBits; omega
  have hsL : 2 ^ lonBits p = 2 ^ lonBits q * 2 ^ (lonBits p - lonBits q) := by
    rw [← pow_add]; congr 1; omega
  have hsB : 2 ^ latBits p = 2 ^ latBits q * 2 ^ (latBits p - latBits q) := by
    rw [← pow_add]; congr 1; omega
  have hdL : 0 < 2 ^ (lonBits p - lonBits q) := by positivity
  have hdB : 0 < 2 ^ (latBits p - latBits q) := by positivity
  have bndL : ∀ x, x < i * 2 ^ (lonBits p - lonBits q) + 2 ^ (lonBits p - lonBits q) →
      x < 2 ^ lonBits p := by
    intro x hx
    rw [hsL]
    calc x < _ := hx
      _ = (i + 1) * 2 ^ (lonBits p - lonBits q) := by ring
      _ ≤ _ := Nat.mul_le_mul_right _ hi
  have bndB : ∀ x, x < j * 2 ^ (latBits p - latBits q) + 2 ^ (latBits p - latBits q) →
      x < 2 ^ latBits p := by
    intro x hx
    rw [hsB]
    calc x < _ := hx
      _ = (j + 1) * 2 ^ (latBits p - latBits q) := by ring
      _ ≤ _ := Nat.mul_le_mul_right _ hj
  rw [mem_gridCells]
  constructor
  · rintro ⟨x, y, h1, h2, h3, h4, rfl⟩
    refine ⟨shift_mkHash_lt p x y (by omega), ?_⟩
    rw [mkHash_shift hq1 hqp (by omega) (bndL x h2) (bndB y h4)]
    congr 1
    · rw [Nat.div_eq_iff hdL]; omega
    · rw [Nat.div_eq_iff hdB]; omega
  · rintro ⟨h1, h2⟩
    obtain ⟨x, y, hx, hy, rfl⟩ := exists_mkHash p h (by omega) (by omega) h1
    rw [mkHash_shift hq1 hqp (by omega) hx hy] at h2
    obtain ⟨e1, e2⟩ := mkHash_inj hq1 (by omega)
      (Nat.div_lt_of_lt_mul (by rw [Nat.mul_comm, ← hsL]; exact hx))
      (Nat.div_lt_of_lt_mul (by rw [Nat.mul_comm, ← hsB]; exact hy)) hi hj h2
    rw [Nat.div_eq_iff hdL] at e1
    rw [Nat.div_eq_iff hdB] at e2
    exact ⟨x, y, by omega, by omega, by omega, by omega, rfl⟩

end Pyinterp.Geohash
