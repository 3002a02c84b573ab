import Verif.Props.C71_Geodetic

/-
C72. Cartesian to geodetic coordinates (Olson's method): the longitude is exact for every spheroid; the
latitude and the altitude are exact on a sphere and, for every spheroid, on the equator and on the
axis of the poles; the two hemispheres are treated alike; if the first approximation of the latitude
is exact, so is the result. The error elsewhere for a flattened spheroid is bounded in C72_Accuracy.lean.

C73. The derived quantities of a spheroid.
-/
set_option linter.unusedVariables false
namespace Pyinterp.Geodetic
open Real Pyinterp.Trig Pyinterp.RTree Pyinterp.Spec

theorem normalRadius_ge {s : Spheroid} (h : s.Valid) (hf : 0 ≤ s.f) (lat : ℝ) : s.a ≤ normalRadius s lat := by
  unfold normalRadius
  have hg := Spheroid.g_pos h (lat * π / 180)
  have he : 0 ≤ s.e2 := by
    rw [Spheroid.e2_eq h]; nlinarith [h.2]
  have hle : √(1 - s.e2 * (sin (lat * π / 180) * sin (lat * π / 180))) ≤ 1 := by
    rw [Real.sqrt_le_one]
    have : 0 ≤ s.e2 * (sin (lat * π / 180) * sin (lat * π / 180)) := mul_nonneg he (mul_self_nonneg _)
    linarith
  rw [le_div_iff₀ (Real.sqrt_pos.2 hg)]
  nlinarith [h.1]

theorem cos_lat_pos {lat : ℝ} (h1 : -90 < lat) (h2 : lat < 90) : 0 < cos (lat * π / 180) := by
  have hpi := pi_pos
  apply cos_pos_of_mem_Ioo
  constructor
  · linarith [mul_pos hpi (show 0 < lat + 90 by linarith)]
  · linarith [mul_pos hpi (show 0 < 90 - lat by linarith)]

/-- **C72** The longitude of the round trip is exact, for every spheroid (`alt > -a` is above the vicinity of the centre). -/
theorem C72_longitude (bits : Nat) (hb : 3 ≤ bits) (s : Spheroid) (h : s.Valid) (hf : 0 ≤ s.f) (p : LLA)
    (h1 : -90 < p.lat) (h2 : p.lat < 90) (h3 : -180 < p.lon) (h4 : p.lon ≤ 180) (halt : -s.a < p.alt) :
    ((Coordinates.make (some s)).ecefToLla ((Coordinates.make (some s)).llaToEcef bits p)).lon = p.lon := by
  rw [llaToEcef_eq bits hb]
  unfold Coordinates.ecefToLla
  dsimp only
  have hN := normalRadius_ge h hf p.lat
  exact atan2d_unique _ _ ((normalRadius s p.lat + p.alt) * cos (p.lat * π / 180)) p.lon
    (mul_pos (by linarith) (cos_lat_pos h1 h2)) h3 h4 rfl rfl

/-- **C72** The southern hemisphere mirrors the northern one: same longitude and altitude, opposite latitude. -/
theorem C72_south (co : Coordinates) (x y z : ℝ) (hz : 0 < z) :
    (co.ecefToLla ⟨x, y, -z⟩).lon = (co.ecefToLla ⟨x, y, z⟩).lon ∧
    (co.ecefToLla ⟨x, y, -z⟩).lat = -(co.ecefToLla ⟨x, y, z⟩).lat ∧
    (co.ecefToLla ⟨x, y, -z⟩).alt = (co.ecefToLla ⟨x, y, z⟩).alt := by
  unfold Coordinates.ecefToLla
  dsimp only
  rw [abs_neg, if_pos (by linarith), if_neg (by linarith)]
  refine ⟨rfl, ?_, rfl⟩
  unfold degrees
  ring

/-- **C72** Two points at the same distances from the axis and the equator have the same latitude and altitude,
whatever the meridian. -/
theorem C72_meridian (co : Coordinates) (x y x' y' z : ℝ) (h : x ^ 2 + y ^ 2 = x' ^ 2 + y' ^ 2) :
    (co.ecefToLla ⟨x, y, z⟩).lat = (co.ecefToLla ⟨x', y', z⟩).lat ∧
    (co.ecefToLla ⟨x, y, z⟩).alt = (co.ecefToLla ⟨x', y', z⟩).alt := by
  unfold Coordinates.ecefToLla
  dsimp only
  have : x * x + y * y = x' * x' + y' * y' := by nlinarith
  rw [this]
  exact ⟨rfl, rfl⟩

/-- If the first approximation is exact in the northern hemisphere then the round trip is. -/
theorem roundtrip_of_guess (bits : Nat) (hb : 3 ≤ bits) (s : Spheroid) (h : s.Valid) (p : LLA) (h1 : -90 ≤ p.lat) (h2 : p.lat ≤ 90)
    (hw : 0 ≤ normalRadius s p.lat + p.alt) (hz : 0 < normalRadius s p.lat * (1 - s.e2) + p.alt)
    (hg : (Coordinates.make (some s)).guess (((normalRadius s p.lat + p.alt) * cos (p.lat * π / 180)) ^ 2)
        ((normalRadius s p.lat * (1 - s.e2) + p.alt) * |sin (p.lat * π / 180)|) =
      (|p.lat| * π / 180, sin (|p.lat| * π / 180), cos (|p.lat| * π / 180), sin (|p.lat| * π / 180) * sin (|p.lat| * π / 180))) :
    ((Coordinates.make (some s)).ecefToLla ((Coordinates.make (some s)).llaToEcef bits p)).lat = p.lat ∧
    ((Coordinates.make (some s)).ecefToLla ((Coordinates.make (some s)).llaToEcef bits p)).alt = p.alt := by
  have hpi := pi_pos
  have hc : 0 ≤ cos (p.lat * π / 180) := by
    apply cos_nonneg_of_mem_Icc
    constructor
    · linarith [mul_nonneg hpi.le (show 0 ≤ p.lat + 90 by linarith)]
    · linarith [mul_nonneg hpi.le (show 0 ≤ 90 - p.lat by linarith)]
  have hcabs : cos (|p.lat| * π / 180) = cos (p.lat * π / 180) := by
    rcases abs_cases p.lat with ⟨e, -⟩ | ⟨e, -⟩ <;> rw [e]
    have : -p.lat * π / 180 = -(p.lat * π / 180) := by ring
    rw [this, cos_neg]
  have hsabs : sin (|p.lat| * π / 180) = |sin (p.lat * π / 180)| := by
    rcases abs_cases p.lat with ⟨e, e'⟩ | ⟨e, e'⟩ <;> rw [e]
    · rw [abs_of_nonneg]
      apply sin_nonneg_of_mem_Icc
      constructor
      · positivity
      · linarith [mul_nonneg hpi.le (show 0 ≤ 90 - p.lat by linarith)]
    · have : -p.lat * π / 180 = -(p.lat * π / 180) := by ring
      rw [this, sin_neg, abs_of_nonpos]
      apply sin_nonpos_of_nonpos_of_neg_pi_le
      · have := mul_pos hpi (show 0 < -p.lat by linarith); linarith
      · linarith [mul_nonneg hpi.le (show 0 ≤ p.lat + 90 by linarith)]
  have hNabs : normalRadius s |p.lat| = normalRadius s p.lat := by
    unfold normalRadius
    rw [hsabs, abs_mul_abs_self]
  have hw2 := ecef_w2 bits hb s p
  dsimp only at hw2
  have hzz : ((Coordinates.make (some s)).llaToEcef bits p).z =
      (normalRadius s p.lat * (1 - s.e2) + p.alt) * sin (p.lat * π / 180) := by rw [llaToEcef_eq bits hb]
  unfold Coordinates.ecefToLla
  dsimp only
  rw [hw2, hzz, abs_mul, abs_of_pos hz, hg, Real.sqrt_sq (mul_nonneg hw hc)]
  have hex := correct_exact h |p.lat| p.alt
  rw [hNabs, hcabs, hsabs] at hex
  rw [hcabs, hsabs, hex]
  refine ⟨?_, rfl⟩
  dsimp only
  have hneg : (normalRadius s p.lat * (1 - s.e2) + p.alt) * sin (p.lat * π / 180) < 0 ↔ p.lat < 0 := by
    constructor
    · intro hlt
      by_contra hcon
      push Not at hcon
      have : 0 ≤ sin (p.lat * π / 180) := by
        apply sin_nonneg_of_mem_Icc
        constructor
        · positivity
        · linarith [mul_nonneg hpi.le (show 0 ≤ 90 - p.lat by linarith)]
      have := mul_nonneg hz.le this
      linarith
    · intro hlt
      apply mul_neg_of_pos_of_neg hz
      apply sin_neg_of_neg_of_neg_pi_lt
      · have := mul_pos hpi (show 0 < -p.lat by linarith); linarith
      · linarith [mul_nonneg hpi.le (show 0 ≤ p.lat + 90 by linarith)]
  by_cases hl : p.lat < 0
  · rw [if_pos (hneg.2 hl), abs_of_neg hl]
    unfold degrees
    field_simp
  · rw [if_neg (fun hc => hl (hneg.1 hc)), abs_of_nonneg (not_lt.1 hl)]
    unfold degrees
    field_simp

/-- **C72** On a sphere the round trip is exact. -/
theorem C72_sphere (bits : Nat) (hb : 3 ≤ bits) (a : ℝ) (ha : 0 < a) (p : LLA)
    (h1 : -90 < p.lat) (h2 : p.lat < 90) (h3 : -180 < p.lon) (h4 : p.lon ≤ 180) (halt : -a < p.alt) :
    (Coordinates.make (some ⟨a, 0⟩)).ecefToLla ((Coordinates.make (some ⟨a, 0⟩)).llaToEcef bits p) = p := by
  set s : Spheroid := ⟨a, 0⟩ with hs
  have hv : s.Valid := ⟨ha, by norm_num [hs]⟩
  have he : s.e2 = 0 := by rw [Spheroid.e2_eq hv]; norm_num [hs]
  have hN : normalRadius s p.lat = a := by unfold normalRadius; rw [he]; simp [hs]
  have hlon := C72_longitude bits hb s hv (le_refl _) p h1 h2 h3 h4 halt
  have hpi := pi_pos
  have hr : 0 < a + p.alt := by linarith
  have hc := cos_lat_pos h1 h2
  have hcabs : cos (|p.lat| * π / 180) = cos (p.lat * π / 180) := by
    rcases abs_cases p.lat with ⟨e, -⟩ | ⟨e, -⟩ <;> rw [e]
    have : -p.lat * π / 180 = -(p.lat * π / 180) := by ring
    rw [this, cos_neg]
  have hlatabs : 0 ≤ |p.lat| ∧ |p.lat| < 90 := ⟨abs_nonneg _, abs_lt.2 ⟨h1, h2⟩⟩
  have b1 : 0 ≤ |p.lat| * π / 180 := by positivity
  have b2 : |p.lat| * π / 180 < π / 2 := by
    linarith [mul_pos hpi (show 0 < 90 - |p.lat| by linarith [hlatabs.2])]
  have hsn : 0 ≤ sin (|p.lat| * π / 180) := sin_nonneg_of_mem_Icc ⟨b1, by linarith⟩
  have hcn : 0 ≤ cos (|p.lat| * π / 180) := by rw [hcabs]; exact hc.le
  have hsabs : |sin (p.lat * π / 180)| = sin (|p.lat| * π / 180) := by
    rcases abs_cases p.lat with ⟨e, e'⟩ | ⟨e, e'⟩
    · rw [e] at hsn ⊢; exact abs_of_nonneg hsn
    · rw [e] at hsn ⊢
      have : -p.lat * π / 180 = -(p.lat * π / 180) := by ring
      rw [this, sin_neg] at hsn ⊢
      exact abs_of_nonpos (by linarith)
  have hsc := sin_sq_add_cos_sq (|p.lat| * π / 180)
  obtain ⟨hlat, halt'⟩ := roundtrip_of_guess bits hb s hv p h1.le h2.le (by rw [hN]; exact hr.le) (by rw [hN, he]; simpa using hr) (by
    rw [hN, he, hsabs, ← hcabs, sub_zero, mul_one]
    generalize ht : |p.lat| * π / 180 = t at *
    unfold Coordinates.guess
    have e1 : (Coordinates.make (some s)).a1 = 0 := by show s.a * s.e2 = 0; rw [he, mul_zero]
    have e2 : (Coordinates.make (some s)).a2 = 0 := by show s.a * s.e2 * (s.a * s.e2) = 0; rw [he]; ring
    have e3 : (Coordinates.make (some s)).a3 = 0 := by show s.a * s.e2 * (s.e2 * 0.5) = 0; rw [he]; ring
    have e4 : (Coordinates.make (some s)).a4 = 0 := by show 2.5 * (s.a * s.e2 * (s.a * s.e2)) = 0; rw [he]; ring
    have e5 : (Coordinates.make (some s)).a5 = 0 := by
      show s.a * s.e2 + s.a * s.e2 * (s.e2 * 0.5) = 0; rw [he]; ring
    dsimp only
    rw [e1, e2, e3, e4, e5]
    have hinv : √(1 / (((a + p.alt) * cos t) ^ 2 + (a + p.alt) * sin t * ((a + p.alt) * sin t))) = 1 / (a + p.alt) := by
      have : ((a + p.alt) * cos t) ^ 2 + (a + p.alt) * sin t * ((a + p.alt) * sin t) = (a + p.alt) ^ 2 := by
        linear_combination (a + p.alt) ^ 2 * hsc
      rw [this, show (1 : ℝ) / (a + p.alt) ^ 2 = (1 / (a + p.alt)) ^ 2 by rw [div_pow, one_pow], Real.sqrt_sq (by positivity)]
    rw [hinv, Real.sqrt_sq (mul_nonneg hr.le hcn)]
    simp only [zero_mul, add_zero, sub_zero, mul_zero, mul_one]
    have k1 : (a + p.alt) * sin t * (1 / (a + p.alt)) = sin t := by field_simp
    have k2 : (a + p.alt) * cos t * (1 / (a + p.alt)) = cos t := by field_simp
    rw [k1, k2]
    have k3 : arcsin (sin t) = t := arcsin_sin (by linarith) (by linarith)
    have k4 : arccos (cos t) = t := arccos_cos b1 (by linarith)
    have k5 : √(1 - sin t * sin t) = cos t := by
      rw [show 1 - sin t * sin t = cos t ^ 2 by linarith, Real.sqrt_sq hcn]
    have k6 : √(1 - cos t * cos t) = sin t := by
      rw [show 1 - cos t * cos t = sin t ^ 2 by linarith, Real.sqrt_sq hsn]
    have k7 : 1 - cos t * cos t = sin t * sin t := by linarith
    rw [k3, k4, k5, k6, k7]
    simp)
  cases p
  simp only at hlon hlat halt'
  generalize (Coordinates.make (some s)).ecefToLla _ = q at *
  cases q
  simp_all

/-- **C72** On the equator the round trip is exact for every spheroid. -/
theorem C72_equator (bits : Nat) (hb : 3 ≤ bits) (s : Spheroid) (h : s.Valid) (hf : 0 ≤ s.f) (lon alt : ℝ)
    (h3 : -180 < lon) (h4 : lon ≤ 180) (halt : -s.b * (1 - s.f) < alt) :
    (Coordinates.make (some s)).ecefToLla ((Coordinates.make (some s)).llaToEcef bits ⟨lon, 0, alt⟩) = ⟨lon, 0, alt⟩ := by
  have hbb : s.b * (1 - s.f) ≤ s.a := by
    unfold Spheroid.b
    have h5 : (1 - s.f) ^ 2 ≤ 1 := by nlinarith [h.2]
    nlinarith [h.1]
  have hN : normalRadius s 0 = s.a := by unfold normalRadius; simp
  have he : s.a * (1 - s.e2) = s.b * (1 - s.f) := by
    rw [Spheroid.e2_eq h]; unfold Spheroid.b; ring
  have hlon := C72_longitude bits hb s h hf ⟨lon, 0, alt⟩ (by norm_num) (by norm_num) h3 h4 (by simp only; linarith)
  have hr : 0 < s.a + alt := by linarith
  obtain ⟨hlat, halt'⟩ := roundtrip_of_guess bits hb s h ⟨lon, 0, alt⟩ (by norm_num) (by norm_num)
    (by simp only [hN]; exact hr.le) (by simp only [hN, he]; linarith) (by
      simp only [hN, he]
      unfold Coordinates.guess
      dsimp only
      have hpos : (s.a + alt) ^ 2 ≠ 0 := by positivity
      have hc2 : ((s.a + alt) * cos (0 * π / 180)) ^ 2 * (1 / (((s.a + alt) * cos (0 * π / 180)) ^ 2 +
          (s.b * (1 - s.f) + alt) * |sin (0 * π / 180)| * ((s.b * (1 - s.f) + alt) * |sin (0 * π / 180)|))) = 1 := by
        simp
        field_simp
      rw [if_pos (by rw [hc2]; norm_num)]
      simp)
  generalize (Coordinates.make (some s)).ecefToLla _ = q at *
  cases q
  simp_all

/-- **C72** On the axis of the poles the latitude and the altitude are exact for every spheroid. -/
theorem C72_pole (bits : Nat) (hb : 3 ≤ bits) (s : Spheroid) (h : s.Valid) (hf : 0 ≤ s.f) (lon lat alt : ℝ)
    (hl : lat = 90 ∨ lat = -90) (halt : -s.b < alt) :
    ((Coordinates.make (some s)).ecefToLla ((Coordinates.make (some s)).llaToEcef bits ⟨lon, lat, alt⟩)).lat = lat ∧
    ((Coordinates.make (some s)).ecefToLla ((Coordinates.make (some s)).llaToEcef bits ⟨lon, lat, alt⟩)).alt = alt := by
  have hbp := h.b_pos
  have hba : s.b ≤ s.a := by unfold Spheroid.b; nlinarith [h.1]
  have habs : |lat| = 90 := by rcases hl with rfl | rfl <;> norm_num
  have h90 : (90 : ℝ) * π / 180 = π / 2 := by ring
  have hsin : |sin (lat * π / 180)| = 1 := by
    rcases hl with rfl | rfl
    · rw [h90, sin_pi_div_two, abs_one]
    · rw [show (-90 : ℝ) * π / 180 = -(π / 2) by ring, sin_neg, sin_pi_div_two, abs_neg, abs_one]
  have hcos : cos (lat * π / 180) = 0 := by
    rcases hl with rfl | rfl
    · rw [h90, cos_pi_div_two]
    · rw [show (-90 : ℝ) * π / 180 = -(π / 2) by ring, cos_neg, cos_pi_div_two]
  have hNz : normalRadius s lat * (1 - s.e2) = s.b := by
    have hf1 : 0 < 1 - s.f := by linarith [h.2]
    unfold normalRadius
    rw [← abs_mul_abs_self, hsin, Spheroid.e2_eq h]
    have : (1 - (1 - (1 - s.f) ^ 2) * (1 * 1)) = (1 - s.f) ^ 2 := by ring
    rw [this, Real.sqrt_sq hf1.le]
    unfold Spheroid.b
    field_simp
    ring
  have hN := normalRadius_ge h hf lat
  exact roundtrip_of_guess bits hb s h ⟨lon, lat, alt⟩ (by rcases hl with rfl | rfl <;> norm_num)
    (by rcases hl with rfl | rfl <;> norm_num) (by simp only; linarith) (by simp only [hNz]; linarith) (by
      simp only [hNz, hsin, hcos, habs, h90]
      unfold Coordinates.guess
      dsimp only
      rw [if_neg (by simp; norm_num)]
      simp)

/-- The hypotheses are met by WGS84 and ordinary altitudes. -/
example : Spheroid.wgs84.Valid ∧ 0 ≤ Spheroid.wgs84.f ∧ -Spheroid.wgs84.b * (1 - Spheroid.wgs84.f) < 1000 := by
  simp only [Spheroid.Valid, Spheroid.wgs84, Spheroid.b]
  norm_num

example : (Coordinates.make (some ⟨6371000, 0⟩)).ecefToLla ((Coordinates.make (some ⟨6371000, 0⟩)).llaToEcef 3 ⟨-120, 35, 1300000⟩) =
    ⟨-120, 35, 1300000⟩ :=
  C72_sphere 3 (le_refl _) 6371000 (by norm_num) _ (by norm_num) (by norm_num) (by norm_num) (by norm_num) (by norm_num)

/-! ### C73 -/

/-- **C73** The geocentric radius at a latitude is the distance to the centre of the points of the ellipsoid at this latitude. -/
theorem C73_geocentric_radius (bits : Nat) (hb : 3 ≤ bits) (s : Spheroid) (h : s.Valid) (lon lat : ℝ) :
    s.geocentricRadius bits lat =
      distance ⟨0, 0, 0⟩ ((Coordinates.make (some s)).llaToEcef bits ⟨lon, lat, 0⟩) := by
  rw [llaToEcef_eq bits hb]
  unfold Spheroid.geocentricRadius distance
  dsimp only
  rw [C70_cosd bits hb, C70_sind bits hb]
  have hN := normalRadius_sq h lat
  have hg := Spheroid.g_pos h (lat * π / 180)
  have ha := h.1
  have h1 := sin_sq_add_cos_sq (lat * π / 180)
  have h2 := sin_sq_add_cos_sq (lon * π / 180)
  have he : s.b * s.b = s.a ^ 2 * (1 - s.e2) := by
    rw [Spheroid.e2_eq h]; unfold Spheroid.b; ring
  congr 1
  generalize normalRadius s lat = N at *
  generalize cos (lat * π / 180) = c at *
  generalize sin (lat * π / 180) = t at *
  generalize cos (lon * π / 180) = cx at *
  generalize sin (lon * π / 180) = sx at *
  have hd : (s.a * c) ^ 2 + (s.b * t) ^ 2 = s.a ^ 2 * (1 - s.e2 * (t * t)) := by
    have : (s.b * t) ^ 2 = s.b * s.b * t ^ 2 := by ring
    rw [this, he]
    linear_combination s.a ^ 2 * h1
  rw [hd, he]
  rw [div_eq_iff (by positivity)]
  have hc : c ^ 2 = 1 - t ^ 2 := by linarith
  have hcx : cx ^ 2 = 1 - sx ^ 2 := by linarith
  have e1 : (0 - (N + 0) * c * cx) ^ 2 + (0 - (N + 0) * c * sx) ^ 2 + (0 - (N * (1 - s.e2) + 0) * t) ^ 2 =
      N ^ 2 * (c ^ 2 + (1 - s.e2) ^ 2 * t ^ 2) := by
    linear_combination N ^ 2 * c ^ 2 * h2
  rw [e1]
  linear_combination (-(s.a ^ 2 * (c ^ 2 + (1 - s.e2) ^ 2 * t ^ 2))) * hN

/-- **C73** The other quantities satisfy their documented relations: the eccentricities, the curvatures, the linear
eccentricity, the volumetric radius (the sphere of the same volume). -/
theorem C73_relations (s : Spheroid) (h : s.Valid) :
    s.e2 = (s.a ^ 2 - s.b ^ 2) / s.a ^ 2 ∧ s.ep2 = (s.a ^ 2 - s.b ^ 2) / s.b ^ 2 ∧ (1 - s.e2) * (1 + s.ep2) = 1 ∧
    s.polarRadius * s.b = s.a ^ 2 ∧ s.equatorialRadius * s.a = s.b ^ 2 ∧ s.axisRatio = 1 - s.f ∧
    (0 ≤ s.f → s.linearEccentricity ^ 2 = s.a ^ 2 - s.b ^ 2) ∧ s.volumetricRadius ^ 3 = s.a ^ 2 * s.b ∧
    3 * s.meanRadius = s.a + s.a + s.b ∧ (∀ m, s.circumference m = 2 * π * if m then s.a else s.b) := by
  have ha := h.1
  have hb := h.b_pos
  refine ⟨?_, ?_, ?_, ?_, ?_, ?_, ?_, ?_, ?_, ?_⟩
  · unfold Spheroid.e2; dsimp only; rw [sq, sq]
  · unfold Spheroid.ep2; dsimp only; rw [sq, sq]
  · unfold Spheroid.e2 Spheroid.ep2; dsimp only; field_simp; ring
  · unfold Spheroid.polarRadius; field_simp
  · unfold Spheroid.equatorialRadius; field_simp
  · unfold Spheroid.axisRatio Spheroid.b; field_simp
  · intro hf
    unfold Spheroid.linearEccentricity
    rw [Real.sq_sqrt]
    · ring
    · have hba : s.b ≤ s.a := by unfold Spheroid.b; nlinarith
      nlinarith
  · unfold Spheroid.volumetricRadius
    rw [← Real.rpow_natCast, ← Real.rpow_mul (by positivity)]
    rw [show (1 / 3 : ℝ) * ((3 : ℕ) : ℝ) = 1 by norm_num, Real.rpow_one]
    ring
  · unfold Spheroid.meanRadius; ring
  · intro m; rfl

/-- **C73** The mean and volumetric radii lie between the semi-axes (oblate spheroid). -/
theorem C73_mean_radii (s : Spheroid) (h : s.Valid) (hf : 0 ≤ s.f) :
    s.b ≤ s.meanRadius ∧ s.meanRadius ≤ s.a ∧ s.b ≤ s.volumetricRadius ∧ s.volumetricRadius ≤ s.a := by
  have ha := h.1
  have hb := h.b_pos
  have hba : s.b ≤ s.a := by unfold Spheroid.b; nlinarith
  have hv := (C73_relations s h).2.2.2.2.2.2.2.1
  have hv0 : 0 ≤ s.volumetricRadius := by unfold Spheroid.volumetricRadius; positivity
  refine ⟨?_, ?_, ?_, ?_⟩
  · unfold Spheroid.meanRadius; linarith
  · unfold Spheroid.meanRadius; linarith
  · by_contra hc
    push Not at hc
    have h1 : s.volumetricRadius ^ 3 < s.b ^ 3 := pow_lt_pow_left₀ hc hv0 (by norm_num)
    have h2 : s.b ^ 2 ≤ s.a ^ 2 := by nlinarith
    nlinarith
  · by_contra hc
    push Not at hc
    have h1 : s.a ^ 3 < s.volumetricRadius ^ 3 := pow_lt_pow_left₀ hc ha.le (by norm_num)
    have h2 : 0 < s.a ^ 2 := by positivity
    nlinarith

/-- **C73** Two spheroids compare equal exactly if they give the same quantities; pickling a coordinate system keeps it. -/
theorem C73_equality (s t : Spheroid) : s.beq t = true ↔ s = t := by
  unfold Spheroid.beq
  cases s; cases t; simp

theorem C73_pickle (s : Option Spheroid) : Coordinates.setstate (Coordinates.make s).getstate = Coordinates.make s := by
  cases s <;> rfl

/-- **C73, the part that fails** The authalic radius of a sphere is its radius; the formula divides 0 by 0 and returns NaN. -/
theorem C73_authalic_false (a : ℝ) : Spheroid.authalicRadius ⟨a, 0⟩ = none := by
  unfold Spheroid.authalicRadius
  rw [if_pos]
  unfold Spheroid.linearEccentricity Spheroid.b
  simp

example : Spheroid.wgs84.meanRadius ≤ 6378137 := by
  have h := (C73_mean_radii Spheroid.wgs84 (by simp only [Spheroid.Valid, Spheroid.wgs84]; norm_num)
    (by simp only [Spheroid.wgs84]; norm_num)).2.1
  exact h

end Pyinterp.Geodetic
