import Verif.Props.C28_GeohashZoom

/-
C60: decoding then encoding. C61: enumeration of the cells of a box.
-/
namespace Pyinterp
open Geohash Spec

variable {K : Type} [Field K] [LinearOrder K] [IsStrictOrderedRing K] [FloorRing K]

theorem round_mem (m w : K) (hw : 0 < w) :
    m ≤ (⌈m / maxDecimalPower w⌉ : K) * maxDecimalPower w ∧
    (⌈m / maxDecimalPower w⌉ : K) * maxDecimalPower w < m + w := by
  have hle : maxDecimalPower w ≤ w := by
    have := Int.zpow_log_le_self (b := 10) (by norm_num) hw
    unfold maxDecimalPower
    exact_mod_cast this
  have hpos : 0 < maxDecimalPower w := by
    unfold maxDecimalPower
    exact zpow_pos (by norm_num) _
  have h1 := Int.le_ceil (m / maxDecimalPower w)
  have h2 := Int.ceil_lt_add_one (m / maxDecimalPower w)
  constructor
  · rw [div_le_iff₀ hpos] at h1; exact h1
  · have := mul_lt_mul_of_pos_right h2 hpos
    rw [add_mul, div_mul_cancel₀ _ hpos.ne', one_mul] at this
    linarith

theorem round_lies {p i j : Nat} (hi : i < 2 ^ lonBits p) (hj : j < 2 ^ latBits p) :
    Lies (cellBox p i j : Box K).round.lon 180 (lonBits p) i ∧
    Lies (cellBox p i j : Box K).round.lat 90 (latBits p) j := by
  have hL : (0 : K) < 2 ^ lonBits p := by positivity
  have hB : (0 : K) < 2 ^ latBits p := by positivity
  have hd := cellBox_delta (K := K) p i j
  obtain ⟨a, b⟩ := round_mem (cellBox p i j : Box K).minCorner.lon (2 * 180 / 2 ^ lonBits p)
    (by positivity)
  obtain ⟨c, d⟩ := round_mem (cellBox p i j : Box K).minCorner.lat (2 * 90 / 2 ^ latBits p)
    (by positivity)
  unfold Box.round
  rw [hd]
  simp only
  refine ⟨⟨hi, ?_, Or.inl ?_⟩, hj, ?_, Or.inl ?_⟩
  · refine le_trans (le_of_eq ?_) a; unfold cellBox; ring
  · refine lt_of_lt_of_eq b ?_; unfold cellBox; ring
  · refine le_trans (le_of_eq ?_) c; unfold cellBox; ring
  · refine lt_of_lt_of_eq d ?_; unfold cellBox; ring

theorem decode_lies {p i j : Nat} (hi : i < 2 ^ lonBits p) (hj : j < 2 ^ latBits p) (round : Bool) :
    Lies (if round then (cellBox p i j : Box K).round else (cellBox p i j : Box K).centroid).lon
      180 (lonBits p) i ∧
    Lies (if round then (cellBox p i j : Box K).round else (cellBox p i j : Box K).centroid).lat
      90 (latBits p) j := by
  cases round
  · simp only [Bool.false_eq_true, if_false, cellBox_centroid]
    exact ⟨mid_lies (by norm_num) hi, mid_lies (by norm_num) hj⟩
  · simp only [if_true]
    exact round_lies hi hj

/-- C60: the decoded point, rounded or not, is in the cell, and its hash is the hash
that was decoded. -/
theorem C60_decode_encode (cpu : Cpu) (hash : BitVec 64) (p : Nat) (hp1 : 1 ≤ p) (hp : p ≤ 62)
    (hh : hash.toNat < 2 ^ p) (round : Bool) :
    ∃ (pt : Point K) (b : Box K), decode cpu hash p round = .ok pt ∧
      boundingBox cpu hash p = .ok b ∧ InCell b pt ∧ OnEarth pt ∧ encode cpu pt p = .ok hash := by
  obtain ⟨i, j, hi, hj, rfl⟩ := exists_mkHash p hash hp1 (by omega) hh
  obtain ⟨a, b⟩ := decode_lies (K := K) hi hj round
  have hbox := boundingBox_mkHash (K := K) cpu hp1 hp hi hj
  refine ⟨_, _, ?_, hbox, (inCell_cellBox hi hj _).2 ⟨a, b⟩, ?_,
    encode_of_lies cpu hp1 (by omega) a b⟩
  · unfold decode
    rw [hbox]
    rfl
  · obtain ⟨a1, a2⟩ := lies_range (by norm_num) a
    obtain ⟨b1, b2⟩ := lies_range (by norm_num) b
    exact ⟨a1, a2, b1, b2⟩

example : (decode .bmi2 48#64 6 true : Out (Point ℚ)) = .ok ⟨0, 0⟩ ∧
    (decode .bmi2 48#64 6 false : Out (Point ℚ)) = .ok ⟨45 / 2, 45 / 4⟩ := by
  constructor <;> decide +kernel

/-- C60: `GeoHash.from_string` gives back every valid code of 1 to 12 characters, and
refuses the others: longer codes and characters out of the alphabet. -/
theorem C60_from_string (cpu : Cpu) (code : List Char) (round : Bool) :
    (∀ n, 1 ≤ n → n ≤ 12 → IsCode n code →
      GeoHash.fromString K cpu code round = .ok code) ∧
    (12 < code.length → GeoHash.fromString K cpu code round = .error .exn) ∧
    (code.length ≤ 12 → (∃ c ∈ code.takeWhile (· ≠ '\x00'), c ∉ alphabet) →
      GeoHash.fromString K cpu code round = .error .exn) := by
  refine ⟨?_, ?_, ?_⟩
  · intro n hn1 hn hc
    obtain ⟨w, i, j, e1, e2, rfl, hi, hj, e3⟩ := strBoundingBox_code (K := K) cpu hc hn1 hn
    have hv : validate code = true := by
      rw [validate_iff]
      intro c hcc
      exact hc.2 c (List.takeWhile_subset _ hcc)
    unfold GeoHash.fromString strDecode
    rw [if_neg (by rw [hc.1]; omega), hv, e3]
    simp only [Bool.not_true, Bool.false_eq_true, if_false, bind, Except.bind, pure, Except.pure]
    obtain ⟨a, b⟩ := decode_lies (K := K) hi hj round
    unfold strEncode
    have := encode_of_lies cpu (by omega) (by omega : 5 * n ≤ 64) a b
    rw [hc.1, this]
    simp only [bind, Except.bind, pure, Except.pure]
    rw [e2]
  · intro h
    unfold GeoHash.fromString
    rw [if_pos h]
  · rintro h ⟨c, h1, h2⟩
    have hv : validate code = false := by
      rw [← Bool.not_eq_true, validate_iff]
      intro hall
      exact h2 (hall c h1)
    unfold GeoHash.fromString
    rw [if_neg (by omega), hv]
    rfl

example : IsCode 5 ['e', 'z', 's', '4', '2'] := by decide

/-- C60: rebuilding a `GeoHash` from the arguments returned by `reduce` gives an equal
object. -/
theorem C60_reduce (cpu : Cpu) (code : List Char) (n : Nat) (hn1 : 1 ≤ n) (hn : n ≤ 12)
    (hc : IsCode n code) :
    ∃ lon lat : K, GeoHash.reduce cpu code = .ok (lon, lat, n) ∧
      GeoHash.make cpu lon lat n = .ok code := by
  obtain ⟨w, i, j, e1, e2, rfl, hi, hj, e3⟩ := strBoundingBox_code (K := K) cpu hc hn1 hn
  refine ⟨mid 180 (lonBits (5 * n)) i, mid 90 (latBits (5 * n)) j, ?_, ?_⟩
  · unfold GeoHash.reduce
    rw [e3]
    simp only [bind, Except.bind, pure, Except.pure, cellBox_centroid, hc.1]
  · unfold GeoHash.make strEncode
    rw [if_neg (by omega)]
    have a := mid_lies (r := (180 : K)) (by norm_num) hi
    have b := mid_lies (r := (90 : K)) (by norm_num) hj
    have hr := lies_range (by norm_num) a
    have hlt : mid (180 : K) (lonBits (5 * n)) i < 180 := by
      rcases a.2.2 with h | ⟨h, h'⟩
      · have hL : (0 : K) < 2 ^ lonBits (5 * n) := by positivity
        have : ((i : K) + 1) / 2 ^ lonBits (5 * n) ≤ 1 := by
          rw [div_le_one hL]
          have : ((i + 1 : ℕ) : K) ≤ ((2 ^ lonBits (5 * n) : ℕ) : K) := Nat.cast_le.2 hi
          push_cast at this
          exact this
        linarith
      · exfalso
        unfold mid at h
        have hL : (0 : K) < 2 ^ lonBits (5 * n) := by positivity
        have h'' : (i : K) + 1 = 2 ^ lonBits (5 * n) := by exact_mod_cast h'
        have : ((i : K) + 1 / 2) / 2 ^ lonBits (5 * n) < 1 := by
          rw [div_lt_one hL]; linarith
        linarith
    rw [← Math.C01_unique (mid (180 : K) (lonBits (5 * n)) i) (-180) 360 _ (by norm_num) hr.1
      (by linarith) ⟨0, by simp⟩]
    rw [encode_of_lies cpu (by omega) (by omega) a b]
    simp only [bind, Except.bind, pure, Except.pure, e2]

/-- C60: `GeoHash.neighbors` returns the neighbours of the integer code as texts. -/
theorem C60_geohash_neighbors (code : List Char) (n : Nat) (hn1 : 1 ≤ n) (hn : n ≤ 12)
    (hc : IsCode n code) :
    ∃ h ns, decode32 code = .ok (h, n) ∧ neighbors K .bmi2 h (5 * n) = .ok ns ∧
      GeoHash.neighbors K .bmi2 code = .ok (ns.map fun v => encode32 v n) := by
  obtain ⟨w, i, j, e1, e2, rfl, hi, hj, e3⟩ := strBoundingBox_code (K := K) .bmi2 hc hn1 hn
  refine ⟨_, _, e1, neighbors_bmi (by omega) (by omega) hi hj, ?_⟩
  have hint : GeoHash.integerValue K .bmi2 code false = .ok (mkHash (5 * n) i j) := by
    unfold GeoHash.integerValue strDecode
    rw [e3]
    simp only [bind, Except.bind, pure, Except.pure]
    obtain ⟨a, b⟩ := decode_lies (K := K) hi hj false
    rw [hc.1, show n * 5 = 5 * n by omega]
    exact encode_of_lies _ (by omega) (by omega) a b
  unfold GeoHash.neighbors
  rw [hint]
  simp only [bind, Except.bind]
  rw [hc.1, show n * 5 = 5 * n by omega, neighbors_bmi (by omega) (by omega) hi hj]
  simp only
  apply mapM_ok
  intro v _
  exact (C60_from_string (K := K) .bmi2 (encode32 v n) false).1 n hn1 hn (isCode_encode32 n v)

/-! ### C61 -/

/-- C61, exact content of `bounding_boxes`: when the corners of the box are not in the
same cell, the result lists once each cell whose north-east corner is in the box,
to the east of its western side and to the north of its southern side. Missing from
the full property: the cells of the last column and of the last row, see
`C61_false_not_covered`. -/
theorem C61_bounding_boxes_partial (cpu : Cpu) (box : Box K) (p : Nat) (hp1 : 1 ≤ p) (hp : p ≤ 62)
    (h0 : OnEarth box.minCorner) (h1 : OnEarth box.maxCorner)
    (h2 : box.minCorner.lon ≤ box.maxCorner.lon) (h3 : box.minCorner.lat ≤ box.maxCorner.lat)
    (h4 : box.minCorner.lon < 180) (h5 : box.minCorner.lat < 90)
    (hne : encode cpu box.minCorner p ≠ encode cpu box.maxCorner p) :
    ∃ out, boundingBoxes cpu box p = .ok out ∧ out.Nodup ∧
      ∀ hash, hash ∈ out ↔ hash.toNat < 2 ^ p ∧ ∃ b : Box K, boundingBox cpu hash p = .ok b ∧
        box.minCorner.lon < b.maxCorner.lon ∧ b.maxCorner.lon ≤ box.maxCorner.lon ∧
        box.minCorner.lat < b.maxCorner.lat ∧ b.maxCorner.lat ≤ box.maxCorner.lat := by
  obtain ⟨i, j, a, b⟩ := onEarth_lies (p := p) h0
  obtain ⟨i', j', c, d⟩ := onEarth_lies (p := p) h1
  -- the index is monotone, and compares with the right edges of the cells
  have mono : ∀ {r : K} {n : Nat} {x y : K} {k l : Nat}, 0 < r → x ≤ y → Lies x r n k →
      Lies y r n l → k ≤ l ∧ ∀ m : Nat, m < 2 ^ n →
        ((x < -r + 2 * r * (((m : K) + 1) / 2 ^ n) ∨ (k ≤ m)) ↔ (k ≤ m)) := by
    intro r n x y k l hr hxy hx hy
    have hpos : (0 : K) < 2 ^ n := by positivity
    have lt_of : ∀ {a b : K}, -r + 2 * r * (a / 2 ^ n) < -r + 2 * r * (b / 2 ^ n) → a < b := by
      intro a b h
      have : 2 * r * (a / 2 ^ n) < 2 * r * (b / 2 ^ n) := by linarith
      have := lt_of_mul_lt_mul_left this (by positivity)
      exact (div_lt_div_iff_of_pos_right hpos).1 this
    constructor
    · rcases hy.2.2 with h | ⟨_, h⟩
      · have := lt_of (lt_of_le_of_lt (le_trans hx.2.1 hxy) h)
        have : (k : K) < ((l + 1 : ℕ) : K) := by push_cast; exact this
        have := Nat.cast_lt.1 this
        omega
      · have := hx.1; omega
    · intro m hm
      constructor
      · rintro (h | h)
        · have := lt_of (lt_of_le_of_lt hx.2.1 h)
          have : (k : K) < ((m + 1 : ℕ) : K) := by push_cast; exact this
          have := Nat.cast_lt.1 this
          omega
        · exact h
      · exact Or.inr
  have hii := (mono (by norm_num) h2 a c).1
  have hjj := (mono (by norm_num) h3 b d).1
  have hdiff : ¬ (i = i' ∧ j = j') := by
    rintro ⟨rfl, rfl⟩
    apply hne
    have e1 : encode cpu box.minCorner p = _ := encode_of_lies cpu hp1 (by omega) a b
    have e2 : encode cpu box.maxCorner p = _ := encode_of_lies cpu hp1 (by omega) c d
    rw [e1, e2]
  have hg := gridProperties_of cpu box hp1 hp a b c d hii hjj
  rw [if_neg hdiff] at hg
  -- characterisation of the edges in one direction
  have edge : ∀ {r : K} {n : Nat} {x y : K} {k l : Nat}, 0 < r → x ≠ r → x ≤ y → Lies x r n k →
      Lies y r n l → k + (l - k + (if y = r then 1 else 0)) ≤ 2 ^ n ∧ ∀ m : Nat, m < 2 ^ n →
        ((k ≤ m ∧ m < k + (l - k + (if y = r then 1 else 0))) ↔
          (x < -r + 2 * r * (((m : K) + 1) / 2 ^ n) ∧ -r + 2 * r * (((m : K) + 1) / 2 ^ n) ≤ y)) := by
    intro r n x y k l hr hxr hxy hx hy
    have hkl := (mono hr hxy hx hy).1
    have hpos : (0 : K) < 2 ^ n := by positivity
    have hyr := (lies_range hr hy).2
    have le_iff : ∀ a b : Nat, -r + 2 * r * ((a : K) / 2 ^ n) ≤ -r + 2 * r * ((b : K) / 2 ^ n) ↔
        a ≤ b := by
      intro a b
      constructor
      · intro h
        have : 2 * r * ((a : K) / 2 ^ n) ≤ 2 * r * ((b : K) / 2 ^ n) := by linarith
        have := le_of_mul_le_mul_left this (by positivity)
        have := (div_le_div_iff_of_pos_right hpos).1 this
        exact_mod_cast this
      · intro h
        have : (a : K) ≤ b := by exact_mod_cast h
        have := (div_le_div_iff_of_pos_right hpos).2 this
        have := mul_le_mul_of_nonneg_left this (by positivity : (0 : K) ≤ 2 * r)
        linarith
    have last : y = r → l + 1 = 2 ^ n := by
      intro e
      rcases hy.2.2 with h | h
      · exfalso
        rw [e] at h
        have h' : ((l : K) + 1) / 2 ^ n ≤ 1 := by
          rw [div_le_one hpos]
          have : ((l + 1 : ℕ) : K) ≤ ((2 ^ n : ℕ) : K) := Nat.cast_le.2 hy.1
          push_cast at this
          exact this
        have := mul_le_mul_of_nonneg_left h' (by positivity : (0 : K) ≤ 2 * r)
        linarith
      · exact h.2
    constructor
    · split
      · next e => have := last e; omega
      · have := hy.1; omega
    · intro m hm
      have em : ((m : K) + 1) = ((m + 1 : ℕ) : K) := by push_cast; rfl
      have left : x < -r + 2 * r * (((m : K) + 1) / 2 ^ n) ↔ k ≤ m ∧
          (k ≤ m → x < -r + 2 * r * (((m : K) + 1) / 2 ^ n)) :=
        ⟨fun h => ⟨((mono hr hxy hx hy).2 m hm).1 (Or.inl h), fun _ => h⟩, fun h => h.2 h.1⟩
      have right : -r + 2 * r * (((m : K) + 1) / 2 ^ n) ≤ y ↔
          m < l + (if y = r then 1 else 0) := by
        split
        · next e =>
          have hl := last e
          constructor
          · intro _; omega
          · intro _
            rw [e]
            have h' : ((m : K) + 1) / 2 ^ n ≤ 1 := by
              rw [div_le_one hpos, em]
              have : ((m + 1 : ℕ) : K) ≤ ((2 ^ n : ℕ) : K) := Nat.cast_le.2 hm
              push_cast at this ⊢
              exact this
            have := mul_le_mul_of_nonneg_left h' (by positivity : (0 : K) ≤ 2 * r)
            linarith
        · next e =>
          constructor
          · intro h
            rcases hy.2.2 with h' | h'
            · have h6 := lt_of_le_of_lt h h'
              have el : ((l : K) + 1) = ((l + 1 : ℕ) : K) := by push_cast; rfl
              rw [em, el] at h6
              have := (not_congr (le_iff (l + 1) (m + 1))).1 (not_le.2 h6)
              omega
            · exact absurd h'.1 e
          · intro h
            refine le_trans ?_ hy.2.1
            rw [em]
            exact (le_iff (m + 1) l).2 (by omega)
      rw [right]
      constructor
      · rintro ⟨q1, q2⟩
        refine ⟨?_, by omega⟩
        rcases hx.2.2 with h | ⟨h, h'⟩
        · refine lt_of_lt_of_le h ?_
          have el : ((k : K) + 1) = ((k + 1 : ℕ) : K) := by push_cast; rfl
          rw [em, el]
          exact (le_iff (k + 1) (m + 1)).2 (by omega)
        · exfalso
          exact hxr h
      · rintro ⟨q1, q2⟩
        have := ((mono hr hxy hx hy).2 m hm).1 (Or.inl q1)
        omega
  obtain ⟨n1, m1⟩ := edge (by norm_num) h4.ne h2 a c
  obtain ⟨n2, m2⟩ := edge (by norm_num) h5.ne h3 b d
  rw [show (2 : K) * 180 = 360 by norm_num] at m1
  rw [show (2 : K) * 90 = 180 by norm_num] at m2
  refine ⟨_, boundingBoxes_of hp1 hp hg a.1 b.1 n1 n2, nodup_gridCells hp1 (by omega) n1 n2, ?_⟩
  intro hash
  rw [mem_gridCells]
  constructor
  · rintro ⟨x, y, q1, q2, q3, q4, rfl⟩
    have hx : x < 2 ^ lonBits p := by omega
    have hy : y < 2 ^ latBits p := by omega
    refine ⟨shift_mkHash_lt p x y (by omega), _, boundingBox_mkHash cpu hp1 hp hx hy, ?_⟩
    obtain ⟨r1, r2⟩ := (m1 x hx).1 ⟨q1, q2⟩
    obtain ⟨r3, r4⟩ := (m2 y hy).1 ⟨q3, q4⟩
    exact ⟨r1, r2, r3, r4⟩
  · rintro ⟨hh, bx, hb, r1, r2, r3, r4⟩
    obtain ⟨x, y, hx, hy, rfl⟩ := exists_mkHash p hash hp1 (by omega) hh
    rw [boundingBox_mkHash cpu hp1 hp hx hy] at hb
    obtain rfl := Except.ok.inj hb
    obtain ⟨q1, q2⟩ := (m1 x hx).2 ⟨r1, r2⟩
    obtain ⟨q3, q4⟩ := (m2 y hy).2 ⟨r3, r4⟩
    exact ⟨x, y, q1, q2, q3, q4, rfl⟩

example : OnEarth (⟨0, 0⟩ : Point ℚ) ∧ OnEarth (⟨100, 50⟩ : Point ℚ) ∧
    encode .bmi2 (⟨0, 0⟩ : Point ℚ) 6 ≠ encode .bmi2 (⟨100, 50⟩ : Point ℚ) 6 := by
  refine ⟨by unfold OnEarth; norm_num, by unfold OnEarth; norm_num, by decide +kernel⟩

/-- C61: without a box, all the codes of the precision are enumerated, once each. -/
theorem C61_whole_earth (cpu : Cpu) (n : Nat) (hn1 : 1 ≤ n) (hn : n ≤ 12) :
    ∃ out, strBoundingBoxes (K := K) cpu none n = .ok out ∧ out.Nodup ∧
      ∀ u, u ∈ out ↔ IsCode n u := by
  have hE0 : OnEarth (⟨-180, -90⟩ : Point K) := by unfold OnEarth; norm_num
  have hE1 : OnEarth (⟨180, 90⟩ : Point K) := by unfold OnEarth; norm_num
  have hne : encode cpu (⟨-180, -90⟩ : Point K) (5 * n) ≠ encode cpu (⟨180, 90⟩ : Point K) (5 * n) := by
    obtain ⟨i, j, a, b⟩ := onEarth_lies (p := 5 * n) hE0
    obtain ⟨i', j', c, d⟩ := onEarth_lies (p := 5 * n) hE1
    rw [encode_of_lies cpu (by omega) (by omega) a b, encode_of_lies cpu (by omega) (by omega) c d]
    intro e
    obtain ⟨rfl, _⟩ := mkHash_inj (by omega) (by omega) a.1 b.1 c.1 d.1 (Except.ok.inj e)
    have hL : (0 : K) < 2 ^ lonBits (5 * n) := by positivity
    have h2 : 2 ≤ 2 ^ lonBits (5 * n) := by
      calc 2 = 2 ^ 1 := rfl
        _ ≤ _ := Nat.pow_le_pow_right (by norm_num) (by unfold lonBits; omega)
    have a1 := a.2.1
    have : (i : K) / 2 ^ lonBits (5 * n) ≤ 0 := by linarith
    rw [div_le_iff₀ hL, zero_mul] at this
    have hi0 : i = 0 := by
      have : (i : K) ≤ ((0 : ℕ) : K) := by push_cast; exact this
      exact Nat.le_zero.1 (Nat.cast_le.1 this)
    subst hi0
    rcases c.2.2 with h | ⟨_, h⟩
    · simp only [Nat.cast_zero, zero_add] at h
      have : (1 : K) / 2 ^ lonBits (5 * n) ≤ 1 := by
        rw [div_le_one hL]; exact one_le_pow₀ (by norm_num)
      linarith
    · omega
  obtain ⟨out, e, hnd, hm⟩ := C61_bounding_boxes_partial cpu (⟨⟨-180, -90⟩, ⟨180, 90⟩⟩ : Box K) (5 * n)
    (by omega) (by omega) hE0 hE1 (by norm_num) (by norm_num) (by norm_num) (by norm_num) hne
  have hall : ∀ hash : BitVec 64, hash ∈ out ↔ hash.toNat < 2 ^ (5 * n) := by
    intro hash
    rw [hm]
    refine ⟨fun h => h.1, fun h => ⟨h, ?_⟩⟩
    obtain ⟨i, j, hi, hj, rfl⟩ := exists_mkHash (5 * n) hash (by omega) (by omega) h
    refine ⟨_, boundingBox_mkHash cpu (by omega) (by omega) hi hj, ?_⟩
    have hL : (0 : K) < 2 ^ lonBits (5 * n) := by positivity
    have hB : (0 : K) < 2 ^ latBits (5 * n) := by positivity
    have a1 : (0 : K) < ((i : K) + 1) / 2 ^ lonBits (5 * n) := by positivity
    have a2 : ((i : K) + 1) / 2 ^ lonBits (5 * n) ≤ 1 := by
      rw [div_le_one hL]; exact_mod_cast hi
    have b1 : (0 : K) < ((j : K) + 1) / 2 ^ latBits (5 * n) := by positivity
    have b2 : ((j : K) + 1) / 2 ^ latBits (5 * n) ≤ 1 := by
      rw [div_le_one hB]; exact_mod_cast hj
    unfold cellBox
    simp only
    refine ⟨?_, ?_, ?_, ?_⟩ <;> linarith
  refine ⟨out.map fun h => encode32 h n, ?_, ?_, ?_⟩
  · unfold strBoundingBoxes
    simp only [Option.getD_none, e, bind, Except.bind, pure, Except.pure]
  · apply List.Nodup.map_on _ hnd
    intro x hx y hy h
    exact encode32_inj ((hall x).1 hx) ((hall y).1 hy) h
  · intro u
    rw [List.mem_map]
    constructor
    · rintro ⟨v, _, rfl⟩; exact isCode_encode32 n v
    · intro hu
      obtain ⟨w, _, d2, d3⟩ := isCode_hash hu hn
      exact ⟨w, (hall w).2 d2, d3⟩

/-- C61, what is false: the cells returned do not cover the box. The cell that contains
the north-east corner is missing, and a box that is within one column of cells gives
an empty result. -/
theorem C61_false_not_covered :
    (∃ out c, boundingBoxes .bmi2 (⟨⟨0, 0⟩, ⟨100, 50⟩⟩ : Box ℚ) 6 = .ok out ∧
      encode .bmi2 (⟨100, 50⟩ : Point ℚ) 6 = .ok c ∧ c ∉ out) ∧
    boundingBoxes .bmi2 (⟨⟨10, 0⟩, ⟨20, 50⟩⟩ : Box ℚ) 6 = .ok [] := by
  refine ⟨⟨[48#64, 50#64, 49#64, 51#64], 60#64, by decide +kernel, by decide +kernel, by decide⟩,
    by decide +kernel⟩

end Pyinterp
