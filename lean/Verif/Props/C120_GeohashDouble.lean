import Verif.Props.C121_NormalizeDouble
import Verif.Props.C23_Geohash

/-
C120. Geohash codes computed with doubles.
-/
namespace Pyinterp.Double

open Spec

/-- The doubles below 90, but the last one. -/
theorem double_lt_90 {x : ℚ} (h : IsDouble x) (h0 : x < 90) (hne : x ≠ 90 - 1 / 2 ^ 46) : x ≤ 90 - 1 / 2 ^ 45 := by
  rcases lt_or_ge x 64 with h64 | h64
  · have : (1 : ℚ) / 2 ^ 45 ≤ 1 := by norm_num
    linarith
  · obtain ⟨n, hn⟩ := double_multiple (k := 6) h (by rw [abs_of_pos (by linarith)]; norm_num; exact h64)
    have e : x * 2 ^ 46 = n := by rw [hn]; norm_num; ring
    have h1 : n < 90 * 2 ^ 46 := by
      have : (n : ℚ) < ((90 * 2 ^ 46 : ℤ) : ℚ) := by rw [← e]; push_cast; nlinarith
      exact_mod_cast this
    have h2 : n ≠ 90 * 2 ^ 46 - 1 := by
      rintro rfl
      apply hne
      push_cast at e
      linarith
    have h3 : (n : ℚ) ≤ ((90 * 2 ^ 46 - 2 : ℤ) : ℚ) := by
      have : n ≤ 90 * 2 ^ 46 - 2 := by omega
      exact_mod_cast this
    push_cast at h3
    rw [← e] at h3
    linarith

theorem double_lt_180 {x : ℚ} (h : IsDouble x) (h0 : x < 180) (hne : x ≠ 180 - 1 / 2 ^ 45) : x ≤ 180 - 1 / 2 ^ 44 := by
  rcases lt_or_ge x 128 with h64 | h64
  · have : (1 : ℚ) / 2 ^ 44 ≤ 1 := by norm_num
    linarith
  · obtain ⟨n, hn⟩ := double_multiple (k := 7) h (by rw [abs_of_pos (by linarith)]; norm_num; exact h64)
    have e : x * 2 ^ 45 = n := by rw [hn]; norm_num; ring
    have h1 : n < 180 * 2 ^ 45 := by
      have : (n : ℚ) < ((180 * 2 ^ 45 : ℤ) : ℚ) := by rw [← e]; push_cast; nlinarith
      exact_mod_cast this
    have h2 : n ≠ 180 * 2 ^ 45 - 1 := by
      rintro rfl
      apply hne
      push_cast at e
      linarith
    have h3 : (n : ℚ) ≤ ((180 * 2 ^ 45 - 2 : ℤ) : ℚ) := by
      have : n ≤ 180 * 2 ^ 45 - 2 := by omega
      exact_mod_cast this
    push_cast at h3
    rw [← e] at h3
    linarith

/-- The range of the coordinate: 90 or 180 degrees, and the largest double handled. -/
inductive IsRange : ℚ → ℚ → Prop
  | lat : IsRange 90 (90 - 1 / 2 ^ 45)
  | lon : IsRange 180 (180 - 1 / 2 ^ 44)

theorem encodeRange_backward {x r top : ℚ} (hr : IsRange r top) (h0 : -r ≤ x) (h1 : r ≤ x ∨ x ≤ top) :
    ∃ x', encodeRange x r = Geohash.encodeRange x' r ∧ |x' - x| ≤ 2 ^ (-42 : ℤ) ∧ (r ≤ x → x' = x) ∧
      -r ≤ x' ∧ (x ≤ top → x' < r) := by
  have hr0 : 0 < r := by cases hr <;> norm_num
  have hr1 : r ≤ 180 := by cases hr <;> norm_num
  have htop : top < r := by cases hr <;> norm_num
  rcases h1 with h | h
  · refine ⟨x, ?_, by simp, fun _ => rfl, h0, fun h' => by linarith⟩
    unfold encodeRange Geohash.encodeRange
    rw [if_pos h, if_pos h]
  · have hm : mul 2 r = 2 * r := by cases hr <;> decide +kernel
    set P := div (add x r) (mul 2 r) with hP
    have hlow : 0 ≤ add x r := fl_nonneg (by linarith)
    have hP0 : 0 ≤ P := fl_nonneg (by rw [hm]; positivity)
    have hP1 : P ≤ div (add top r) (mul 2 r) := by
      refine fl_mono ?_
      rw [hm]
      exact div_le_div_of_nonneg_right (fl_mono (by linarith)) (by linarith)
    have hPt : div (add top r) (mul 2 r) < 1 := by cases hr <;> decide +kernel
    have hPlt : P < 1 := hP1.trans_lt hPt
    have hmul : mul P 4294967296 = P * 4294967296 := by
      apply fl_double
      obtain ⟨m, e, hm, he, hd⟩ := isDouble_fl (add x r / mul 2 r)
      refine ⟨m, e + 32, hm, by omega, ?_⟩
      rw [zpow_add₀ (by norm_num)]
      have : P = m * 2 ^ e := hd
      rw [this]
      norm_num
      ring
    refine ⟨2 * r * P - r, ?_, ?_, fun h' => by linarith, by nlinarith, fun _ => by nlinarith⟩
    · unfold encodeRange Geohash.encodeRange
      rw [if_neg (by linarith), if_neg (by nlinarith), ← hP, hmul]
      congr 1
      field_simp
      ring
    · have e1 := fl_err_lt (y := x + r) (k := 9) (by norm_num)
        (by rw [abs_lt]; norm_num; constructor <;> linarith)
      have hq : |add x r / mul 2 r| < 2 ^ (1 : ℤ) := by
        have : add x r ≤ add top r := fl_mono (by linarith)
        have h2 : add top r ≤ 2 * r := by cases hr <;> decide +kernel
        rw [hm, abs_of_nonneg (by positivity), div_lt_iff₀ (by linarith)]
        norm_num
        linarith
      have e2 := fl_err_lt (y := add x r / mul 2 r) (k := 1) (by norm_num) hq
      have e : 2 * r * P - r - x = 2 * r * (fl (add x r / mul 2 r) - add x r / mul 2 r) + (fl (x + r) - (x + r)) := by
        rw [hP, hm]
        unfold div add
        field_simp
        ring
      rw [e]
      refine (abs_add_le _ _).trans ?_
      rw [abs_mul, abs_of_pos (by linarith : (0 : ℚ) < 2 * r)]
      have e3 : 2 * r * |fl (add x r / mul 2 r) - add x r / mul 2 r| ≤ 360 * 2 ^ (1 - 54 : ℤ) :=
        mul_le_mul (by linarith) e2 (abs_nonneg _) (by norm_num)
      norm_num at e1 e3 ⊢
      linarith

/-- One coordinate of `encode_bim2`. -/
theorem bim2_backward {x r top c : ℚ} (hr : IsRange r top)
    (hclose : |c - 1 / (2 * r)| ≤ 2 ^ (-60 : ℤ) * 2)
    (hlow : 1 ≤ add (3 / 2) (mul (-r) c)) (hhigh : add (3 / 2) (mul top c) < 2) (hc0 : 0 < c) (hc1 : c * r < 1)
    (h0 : -r ≤ x) (h1 : x = r ∨ x ≤ top) :
    ∃ x', (if x = r then (0x3FFFFFFFFFF#64) else Geohash.shrq (add (3 / 2) (mul x c))) =
        (if x' = r then (0x3FFFFFFFFFF#64) else Geohash.shrq (3 / 2 + x' * (1 / (2 * r)))) ∧
      |x' - x| ≤ 2 ^ (-42 : ℤ) ∧ -r ≤ x' ∧ x' ≤ r ∧ (x = r → x' = r) := by
  have hr0 : 0 < r := by cases hr <;> norm_num
  have hr1 : r ≤ 180 := by cases hr <;> norm_num
  have htop : top < r := by cases hr <;> norm_num
  rcases h1 with rfl | h
  · exact ⟨x, by simp, by simp, h0, le_rfl, fun h => h⟩
  · set v := add (3 / 2) (mul x c) with hv
    have hv1 : 1 ≤ v := hlow.trans (fl_mono (by
      have : mul (-r) c ≤ mul x c := fl_mono (mul_le_mul_of_nonneg_right h0 hc0.le)
      linarith))
    have hv2 : v < 2 := lt_of_le_of_lt (fl_mono (by
      have : mul x c ≤ mul top c := fl_mono (mul_le_mul_of_nonneg_right h hc0.le)
      linarith)) hhigh
    refine ⟨(v - 3 / 2) * (2 * r), ?_, ?_, by nlinarith, by nlinarith, fun h' => by linarith⟩
    · rw [if_neg (by linarith), if_neg (by nlinarith)]
      congr 1
      field_simp
      ring
    · have hxc : |x * c| < 2 ^ (0 : ℤ) := by
        rw [abs_mul, abs_of_pos hc0, zpow_zero]
        have : |x| ≤ r := abs_le.2 ⟨h0, by linarith⟩
        nlinarith
      have e1 := fl_err_lt (by norm_num) hxc
      have hm1 : mul (-r) c ≤ mul x c := fl_mono (mul_le_mul_of_nonneg_right h0 hc0.le)
      have hab : |mul x c| ≤ 1 := by
        rw [zpow_zero, abs_lt] at hxc
        exact abs_le.2 ⟨le_fl_of_double (isDouble_int (n := -1) (by norm_num)) (by push_cast; linarith),
          fl_le_of_double (isDouble_int (n := 1) (by norm_num)) (by push_cast; linarith)⟩
      have e2 := fl_err_lt (y := 3 / 2 + mul x c) (k := 2) (by norm_num)
        (by rw [abs_le] at hab; rw [abs_lt]; norm_num; constructor <;> linarith)
      have e3 : |x * (c - 1 / (2 * r))| ≤ 180 * (2 ^ (-60 : ℤ) * 2) := by
        rw [abs_mul]
        exact mul_le_mul (by rw [abs_le]; constructor <;> linarith) hclose (abs_nonneg _) (by norm_num)
      have e : (v - 3 / 2) * (2 * r) - x = 2 * r * ((fl (3 / 2 + mul x c) - (3 / 2 + mul x c)) +
          (fl (x * c) - x * c) + x * (c - 1 / (2 * r))) := by
        rw [hv]
        unfold add mul
        field_simp
        ring
      rw [e, abs_mul, abs_of_pos (by linarith : (0 : ℚ) < 2 * r)]
      have e4 : |(fl (3 / 2 + mul x c) - (3 / 2 + mul x c)) + (fl (x * c) - x * c) + x * (c - 1 / (2 * r))| ≤
          2 ^ (2 - 54 : ℤ) + 2 ^ (0 - 54 : ℤ) + 180 * (2 ^ (-60 : ℤ) * 2) :=
        (abs_add_three _ _ _).trans (add_le_add (add_le_add e2 e1) e3)
      refine (mul_le_mul (by linarith : 2 * r ≤ 360) e4 (abs_nonneg _) (by norm_num)).trans ?_
      norm_num

/-- The doubles of the latitudes and longitudes for which the encoding is correct: all but the last double below 90 and the last
double below 180. -/
structure Encodable (lat lon : ℚ) : Prop where
  lat_double : IsDouble lat
  lon_double : IsDouble lon
  lat_range : -90 ≤ lat ∧ lat ≤ 90
  lon_range : -180 ≤ lon ∧ lon ≤ 180
  lat_not : lat ≠ 90 - 1 / 2 ^ 46
  lon_not : lon ≠ 180 - 1 / 2 ^ 45

theorem encoder_backward (cpu : Geohash.Cpu) {lat lon : ℚ} (h : Encodable lat lon) :
    ∃ lat' lon', encoder cpu lat lon = Geohash.encoder cpu lat' lon' ∧ |lat' - lat| ≤ 2 ^ (-42 : ℤ) ∧
      |lon' - lon| ≤ 2 ^ (-42 : ℤ) ∧ (-90 ≤ lat' ∧ lat' ≤ 90) ∧ (-180 ≤ lon' ∧ lon' ≤ 180) := by
  have hlat : lat = 90 ∨ lat ≤ 90 - 1 / 2 ^ 45 := by
    rcases eq_or_lt_of_le h.lat_range.2 with e | e
    · exact Or.inl e
    · exact Or.inr (double_lt_90 h.lat_double e h.lat_not)
  have hlon : lon = 180 ∨ lon ≤ 180 - 1 / 2 ^ 44 := by
    rcases eq_or_lt_of_le h.lon_range.2 with e | e
    · exact Or.inl e
    · exact Or.inr (double_lt_180 h.lon_double e h.lon_not)
  cases cpu with
  | portable =>
    obtain ⟨y, ey, dy, ty, ly, uy⟩ := encodeRange_backward .lat h.lat_range.1 (hlat.imp (fun e => e.ge) id)
    obtain ⟨x, ex, dx, tx, lx, ux⟩ := encodeRange_backward .lon h.lon_range.1 (hlon.imp (fun e => e.ge) id)
    refine ⟨y, x, ?_, dy, dx, ⟨ly, ?_⟩, ⟨lx, ?_⟩⟩
    · simp only [encoder, Geohash.encoder, encodePortable, Geohash.encodePortable, ey, ex]
    · rcases hlat with e | e
      · rw [ty e.ge, e]
      · exact (uy e).le
    · rcases hlon with e | e
      · rw [tx e.ge, e]
      · exact (ux e).le
  | bmi2 =>
    obtain ⟨y, ey, dy, ly, uy, -⟩ := bim2_backward (c := fl 0.005555555555555556) .lat (by decide +kernel)
      (by decide +kernel) (by decide +kernel) (by decide +kernel) (by decide +kernel) h.lat_range.1 hlat
    obtain ⟨x, ex, dx, lx, ux, -⟩ := bim2_backward (c := fl 0.002777777777777778) .lon (by decide +kernel)
      (by decide +kernel) (by decide +kernel) (by decide +kernel) (by decide +kernel) h.lon_range.1 hlon
    refine ⟨y, x, ?_, dy, dx, ⟨ly, uy⟩, ⟨lx, ux⟩⟩
    simp only [encoder, Geohash.encoder, encodeBim2, Geohash.encodeBim2, ey, ex]
    norm_num

/-- C120: with doubles, on both kinds of processors, the code of a position is the code, in exact arithmetic, of a position at
less than 2^-42 degrees (2.3e-13) of the given one: the properties of the codes (C24, C25, C28) are those of this position. -/
theorem C120_encode (cpu : Geohash.Cpu) (lat lon : ℚ) (h : Encodable lat lon) (precision : Nat) :
    ∃ lat' lon', encode cpu ⟨lon, lat⟩ precision = Geohash.encode cpu ⟨lon', lat'⟩ precision ∧
      |lat' - lat| ≤ 2 ^ (-42 : ℤ) ∧ |lon' - lon| ≤ 2 ^ (-42 : ℤ) ∧ (-90 ≤ lat' ∧ lat' ≤ 90) ∧
      (-180 ≤ lon' ∧ lon' ≤ 180) := by
  obtain ⟨lat', lon', e, r⟩ := encoder_backward cpu h
  refine ⟨lat', lon', ?_, r⟩
  simp only [encode, Geohash.encode, e]

/- A position of which the coordinates are doubles. -/
example : Encodable (43.5) (1.25) :=
  ⟨⟨87, -1, by norm_num, by norm_num, by norm_num⟩, ⟨5, -2, by norm_num, by norm_num, by norm_num⟩, by norm_num, by norm_num,
    by norm_num, by norm_num⟩

/-- C120, what is false: the last double below 90 (89.99999999999999) is a latitude that cannot be encoded. Without BMI2 the
conversion to an integer is undefined; with BMI2 the code is that of the South Pole. -/
theorem C120_north_pole_false :
    IsDouble (90 - 1 / 2 ^ 46) ∧
      encode .portable ⟨0, 90 - 1 / 2 ^ 46⟩ 64 = .error .ub ∧
      encode .bmi2 ⟨0, 90 - 1 / 2 ^ 46⟩ 64 = encode .bmi2 ⟨0, -90⟩ 64 :=
  ⟨⟨90 * 2 ^ 46 - 1, -46, by norm_num, by norm_num, by norm_num⟩, by decide +kernel, by decide +kernel⟩

/-- C120: the function of Python, which brings the longitude in [-180, 180[ first: no longitude is a problem. The code is the
exact code of a position with a latitude at 2^-42 degrees at most, and a longitude that is the given one, plus a number of
turns, up to 2^-41 degrees (for longitudes at less than 844 degrees of Greenwich). -/
theorem C120_python (cpu : Geohash.Cpu) (lat lon : ℚ) (hlat : IsDouble lat) (h0 : -90 ≤ lat) (h1 : lat ≤ 90)
    (hne : lat ≠ 90 - 1 / 2 ^ 46) (hlon : |lon| < 844) (precision : Nat) :
    ∃ lat' lon', encodeLonLat cpu lon lat precision = Geohash.encode cpu ⟨lon', lat'⟩ precision ∧
      |lat' - lat| ≤ 2 ^ (-42 : ℤ) ∧ (∃ n : ℤ, |lon' - (lon + n * 360)| ≤ 2 ^ (-41 : ℤ)) ∧
      (-90 ≤ lat' ∧ lat' ≤ 90) ∧ (-180 ≤ lon' ∧ lon' ≤ 180) := by
  have hm : IsDouble (-180) := isDouble_int (n := -180) (by norm_num)
  obtain ⟨r0, r1⟩ := C121_range lon (-180) hm
  rw [show fl (-180 + 360) = 180 by decide +kernel] at r1
  rw [abs_lt] at hlon
  obtain ⟨n, hn⟩ := C121_same_angle lon (-180) (by norm_num) 10 le_rfl (by rw [abs_lt]; norm_num; constructor <;> linarith)
  have hnot : normalizeAngle lon (-180) 360 ≠ 180 - 1 / 2 ^ 45 := by
    unfold normalizeAngle
    obtain ⟨⟨a0, a1⟩, -, a2⟩ := remainder_360 (sub lon (-180))
    set R := remainder (sub lon (-180)) 360
    have hsmall : R < 256 → add R (-180) ≠ 180 - 1 / 2 ^ 45 := by
      intro hR
      have : add R (-180) ≤ 76 :=
        fl_le_of_double (isDouble_int (n := 76) (by norm_num)) (by push_cast; linarith)
      norm_num
      intro e
      rw [e] at this
      norm_num at this
    rcases lt_or_ge R 256 with hR | hR
    · exact hsmall hR
    · rcases a2 with h | h
      · linarith
      · obtain ⟨m, hmul⟩ := double_multiple (k := 8) h (by rw [abs_of_nonneg a0]; norm_num; exact hR)
        have hex : add R (-180) = ((m - 180 * 2 ^ 44 : ℤ) : ℚ) * 2 ^ (-44 : ℤ) := by
          have e : R + -180 = ((m - 180 * 2 ^ 44 : ℤ) : ℚ) * 2 ^ (-44 : ℤ) := by
            rw [hmul]
            push_cast
            norm_num
            ring
          unfold add
          rw [e]
          refine fl_exact ?_ (by norm_num)
          have hm2 : R * 2 ^ 44 = m := by rw [hmul]; norm_num; ring
          have b0 : (m : ℚ) ≤ ((360 * 2 ^ 44 : ℤ) : ℚ) := by rw [← hm2]; push_cast; nlinarith
          have b1 : ((256 * 2 ^ 44 : ℤ) : ℚ) ≤ m := by rw [← hm2]; push_cast; nlinarith
          have b0' : m ≤ 360 * 2 ^ 44 := by exact_mod_cast b0
          have b1' : 256 * 2 ^ 44 ≤ m := by exact_mod_cast b1
          rw [abs_le]
          constructor <;> omega
        rw [hex]
        intro e
        have : ((2 * (m - 180 * 2 ^ 44) : ℤ) : ℚ) = ((180 * 2 ^ 45 - 1 : ℤ) : ℚ) := by
          push_cast at e ⊢
          norm_num at e ⊢
          linarith
        have : 2 * (m - 180 * 2 ^ 44) = 180 * 2 ^ 45 - 1 := by exact_mod_cast this
        omega
  obtain ⟨lat', lon', e, dy, dx, b⟩ := C120_encode cpu lat (normalizeAngle lon (-180) 360)
    ⟨hlat, isDouble_fl _, ⟨h0, h1⟩, ⟨r0, r1⟩, hne, hnot⟩ precision
  refine ⟨lat', lon', e, dy, ⟨n, ?_⟩, b⟩
  have : lon' - (lon + n * 360) = (lon' - normalizeAngle lon (-180) 360) +
    (normalizeAngle lon (-180) 360 - (lon + n * 360)) := by ring
  rw [this]
  refine (abs_add_le _ _).trans ((add_le_add dx hn).trans ?_)
  norm_num

/- A longitude of the second turn. -/
example : encodeLonLat .portable 365 (87 / 2) 52 =
    Geohash.encode .portable (⟨5, 87 / 2⟩ : Geohash.Point ℚ) 52 := by decide +kernel

/-- C120: decoding makes no rounding error: the corners of the cells are exact. -/
theorem C120_decode (x : BitVec 32) (r : ℚ) (hr : r = 90 ∨ r = 180) :
    decodeRange x r = Geohash.decodeRange x r := by
  unfold decodeRange Geohash.decodeRange
  split
  · rfl
  · have hx : x.toNat < 2 ^ 32 := x.isLt
    have e1 : mul (x.toNat : ℚ) (1 / 4294967296) = (x.toNat : ℚ) * (1 / 4294967296) := by
      apply fl_double
      refine ⟨x.toNat, -32, ?_, by norm_num, by norm_num⟩
      rw [abs_of_nonneg (by omega)]; omega
    rw [e1]
    rcases hr with rfl | rfl
    · have e2 : mul 2 90 = 180 := by decide +kernel
      have e3 : mul 180 ((x.toNat : ℚ) * (1 / 4294967296)) = 180 * ((x.toNat : ℚ) * (1 / 4294967296)) := by
        apply fl_double
        refine ⟨180 * x.toNat, -32, ?_, by norm_num, by push_cast; norm_num; ring⟩
        rw [abs_of_nonneg (by omega)]; omega
      rw [e2, e3]
      have e4 : sub (180 * ((x.toNat : ℚ) * (1 / 4294967296))) 90 = 180 * ((x.toNat : ℚ) * (1 / 4294967296)) - 90 := by
        apply fl_double
        refine ⟨180 * x.toNat - 90 * 2 ^ 32, -32, ?_, by norm_num, by push_cast; norm_num; ring⟩
        rw [abs_le]; constructor <;> omega
      rw [e4]; ring
    · have e2 : mul 2 180 = 360 := by decide +kernel
      have e3 : mul 360 ((x.toNat : ℚ) * (1 / 4294967296)) = 360 * ((x.toNat : ℚ) * (1 / 4294967296)) := by
        apply fl_double
        refine ⟨360 * x.toNat, -32, ?_, by norm_num, by push_cast; norm_num; ring⟩
        rw [abs_of_nonneg (by omega)]; omega
      rw [e2, e3]
      have e4 : sub (360 * ((x.toNat : ℚ) * (1 / 4294967296))) 180 = 360 * ((x.toNat : ℚ) * (1 / 4294967296)) - 180 := by
        apply fl_double
        refine ⟨360 * x.toNat - 180 * 2 ^ 32, -32, ?_, by norm_num, by push_cast; norm_num; ring⟩
        rw [abs_le]; constructor <;> omega
      rw [e4]; ring

/- The second column. -/
example : decodeRange 1#32 180 = -180 + 360 / 2 ^ 32 := by decide +kernel

end Pyinterp.Double
