import Verif.Lemmas.Geodetic
import Verif.Spec.Ellipsoid

/-
C71. Geodetic to Cartesian coordinates: a position at altitude 0 is on the ellipsoid; the altitude is
measured along the normal, whose elevation and azimuth are the latitude and the longitude; two
different positions outside the ellipsoid are different points.

C72. Cartesian to geodetic coordinates.

C73. The derived quantities of a spheroid.
-/
set_option linter.unusedVariables false
namespace Pyinterp.Geodetic
open Real Pyinterp.Trig Pyinterp.RTree Pyinterp.Spec

/-- The direction of longitude `lon` and latitude `lat`. -/
noncomputable def direction (lon lat : ℝ) : Point :=
  ⟨cos (lat * π / 180) * cos (lon * π / 180), cos (lat * π / 180) * sin (lon * π / 180), sin (lat * π / 180)⟩

/-- **C71** At altitude 0 the point is on the ellipsoid, and the normal there has the direction given by the longitude and the
latitude. -/
theorem C71_surface (bits : Nat) (hb : 3 ≤ bits) (s : Spheroid) (h : s.Valid) (lon lat : ℝ) :
    OnEllipsoid s.a s.b ((Coordinates.make (some s)).llaToEcef bits ⟨lon, lat, 0⟩) ∧
    UnitNormal s.a s.b ((Coordinates.make (some s)).llaToEcef bits ⟨lon, lat, 0⟩) (direction lon lat) := by
  rw [llaToEcef_eq bits hb]
  have hN := normalRadius_sq h lat
  have hNp := normalRadius_pos h lat
  have ha := h.1
  have hbp := h.b_pos
  have he : s.b ^ 2 = s.a ^ 2 * (1 - s.e2) := by
    rw [Spheroid.e2_eq h]; unfold Spheroid.b; ring
  have he1 : 0 < 1 - s.e2 := by
    have : 0 < s.b ^ 2 := by positivity
    rw [he] at this
    exact (pos_iff_pos_of_mul_pos this).1 (by positivity)
  have h1 := sin_sq_add_cos_sq (lat * π / 180)
  have h2 := sin_sq_add_cos_sq (lon * π / 180)
  constructor
  · unfold OnEllipsoid
    dsimp only
    rw [he]
    generalize normalRadius s lat = N at *
    generalize cos (lat * π / 180) = c at *
    generalize sin (lat * π / 180) = t at *
    generalize cos (lon * π / 180) = cx at *
    generalize sin (lon * π / 180) = sx at *
    have : (((N + 0) * c * cx) ^ 2 + ((N + 0) * c * sx) ^ 2) / s.a ^ 2 + ((N * (1 - s.e2) + 0) * t) ^ 2 / (s.a ^ 2 * (1 - s.e2)) =
        (N ^ 2 * (c ^ 2 * (sx ^ 2 + cx ^ 2) + (1 - s.e2) * t ^ 2)) / s.a ^ 2 := by
      field_simp
      ring
    rw [this, h2, div_eq_one_iff_eq (by positivity), ← hN]
    have : c ^ 2 = 1 - t ^ 2 := by linarith
    rw [this]; ring
  · refine ⟨?_, normalRadius s lat / s.a ^ 2, by positivity, ?_, ?_, ?_⟩
    · simp only [direction]
      linear_combination cos (lat * π / 180) ^ 2 * h2 + h1
    · simp only [direction]; ring
    · simp only [direction]; ring
    · simp only [direction]
      rw [he]
      field_simp
      ring

/-- **C71** The altitude is measured along the normal. -/
theorem C71_altitude (bits : Nat) (hb : 3 ≤ bits) (s : Spheroid) (p : LLA) :
    (Coordinates.make (some s)).llaToEcef bits p =
      ⟨((Coordinates.make (some s)).llaToEcef bits ⟨p.lon, p.lat, 0⟩).x + p.alt * (direction p.lon p.lat).x,
       ((Coordinates.make (some s)).llaToEcef bits ⟨p.lon, p.lat, 0⟩).y + p.alt * (direction p.lon p.lat).y,
       ((Coordinates.make (some s)).llaToEcef bits ⟨p.lon, p.lat, 0⟩).z + p.alt * (direction p.lon p.lat).z⟩ := by
  rw [llaToEcef_eq bits hb, llaToEcef_eq bits hb]
  simp only [direction, Point.mk.injEq]
  refine ⟨by ring, by ring, by ring⟩

/-- **C71** Points on the same vertical: the distance is the difference of the altitudes. -/
theorem C71_vertical_distance (bits : Nat) (hb : 3 ≤ bits) (s : Spheroid) (lon lat h1 h2 : ℝ) :
    distance ((Coordinates.make (some s)).llaToEcef bits ⟨lon, lat, h1⟩)
      ((Coordinates.make (some s)).llaToEcef bits ⟨lon, lat, h2⟩) = |h1 - h2| := by
  rw [llaToEcef_eq bits hb, llaToEcef_eq bits hb]
  have e1 := sin_sq_add_cos_sq (lat * π / 180)
  have e2 := sin_sq_add_cos_sq (lon * π / 180)
  unfold distance
  dsimp only
  rw [← Real.sqrt_sq_eq_abs]
  congr 1
  linear_combination (h1 - h2) ^ 2 * (cos (lat * π / 180) ^ 2 * e2 + e1)

/-- **C71** The longitude is defined modulo 360 degrees. -/
theorem C71_period (bits : Nat) (hb : 3 ≤ bits) (s : Spheroid) (p : LLA) (k : Int) :
    (Coordinates.make (some s)).llaToEcef bits ⟨p.lon + 360 * k, p.lat, p.alt⟩ =
    (Coordinates.make (some s)).llaToEcef bits p := by
  rw [llaToEcef_eq bits hb, llaToEcef_eq bits hb]
  have : (p.lon + 360 * k) * π / 180 = p.lon * π / 180 + k * (2 * π) := by ring
  simp only [this, cos_add_int_mul_two_pi, sin_add_int_mul_two_pi]

/-- Two directions are equal only if the latitudes are equal and, away from the poles, the longitudes. -/
theorem direction_inj {lon1 lat1 lon2 lat2 : ℝ} (hl1 : -90 < lat1) (hl2 : lat1 < 90) (hl3 : -90 < lat2) (hl4 : lat2 < 90)
    (ho1 : -180 < lon1) (ho2 : lon1 ≤ 180) (ho3 : -180 < lon2) (ho4 : lon2 ≤ 180)
    (h : direction lon1 lat1 = direction lon2 lat2) : lon1 = lon2 ∧ lat1 = lat2 := by
  simp only [direction, Point.mk.injEq] at h
  obtain ⟨hx, hy, hz⟩ := h
  have hpi := pi_pos
  have hlat : lat1 * π / 180 = lat2 * π / 180 := by
    apply injOn_sin _ _ hz
    · constructor
      · linarith [mul_pos hpi (show 0 < lat1 + 90 by linarith)]
      · linarith [mul_pos hpi (show 0 < 90 - lat1 by linarith)]
    · constructor
      · linarith [mul_pos hpi (show 0 < lat2 + 90 by linarith)]
      · linarith [mul_pos hpi (show 0 < 90 - lat2 by linarith)]
  have hll : lat1 = lat2 := by
    have : (lat1 - lat2) * π = 0 := by linarith
    rcases mul_eq_zero.1 this with h | h
    · linarith
    · linarith
  refine ⟨?_, hll⟩
  subst hll
  have hc : 0 < cos (lat1 * π / 180) := by
    apply cos_pos_of_mem_Ioo
    constructor
    · linarith [mul_pos hpi (show 0 < lat1 + 90 by linarith)]
    · linarith [mul_pos hpi (show 0 < 90 - lat1 by linarith)]
  have hx' := mul_left_cancel₀ hc.ne' hx
  have hy' := mul_left_cancel₀ hc.ne' hy
  have u1 := arg_degrees_unique 1 lon1 one_pos ho1 ho2
  have u2 := arg_degrees_unique 1 lon2 one_pos ho3 ho4
  rw [hx', hy'] at u1
  rw [← u1, u2]

/-- **C71** Different positions on or above the ellipsoid (away from the poles, where the longitude is not defined) are
different points: the three coordinates are determined by the Cartesian ones. -/
theorem C71_injective (bits : Nat) (hb : 3 ≤ bits) (s : Spheroid) (h : s.Valid) (p q : LLA)
    (hp1 : -90 < p.lat) (hp2 : p.lat < 90) (hp3 : -180 < p.lon) (hp4 : p.lon ≤ 180) (hp : 0 ≤ p.alt)
    (hq1 : -90 < q.lat) (hq2 : q.lat < 90) (hq3 : -180 < q.lon) (hq4 : q.lon ≤ 180) (hq : 0 ≤ q.alt)
    (heq : (Coordinates.make (some s)).llaToEcef bits p = (Coordinates.make (some s)).llaToEcef bits q) : p = q := by
  obtain ⟨s1, n1, c1, hc1, gx1, gy1, gz1⟩ := C71_surface bits hb s h p.lon p.lat
  obtain ⟨s2, n2, c2, hc2, gx2, gy2, gz2⟩ := C71_surface bits hb s h q.lon q.lat
  have a1 := C71_altitude bits hb s p
  have a2 := C71_altitude bits hb s q
  rw [heq] at a1
  rw [a1] at a2
  simp only [Point.mk.injEq] at a2
  obtain ⟨ex, ey, ez⟩ := a2
  have hinj : direction p.lon p.lat = direction q.lon q.lat → p.lon = q.lon ∧ p.lat = q.lat :=
    direction_inj hp1 hp2 hq1 hq2 hp3 hp4 hq3 hq4
  have ha : s.a ^ 2 ≠ 0 := pow_ne_zero _ h.1.ne'
  have hbb : s.b ^ 2 ≠ 0 := pow_ne_zero _ h.b_pos.ne'
  generalize hP : (Coordinates.make (some s)).llaToEcef bits ⟨p.lon, p.lat, 0⟩ = P at *
  generalize hQ : (Coordinates.make (some s)).llaToEcef bits ⟨q.lon, q.lat, 0⟩ = Q at *
  generalize hU : direction p.lon p.lat = U at *
  generalize hV : direction q.lon q.lat = V at *
  -- the ellipsoid is convex
  unfold OnEllipsoid at s1 s2
  have hsq : 0 ≤ ((P.x - Q.x) ^ 2 + (P.y - Q.y) ^ 2) / s.a ^ 2 + (P.z - Q.z) ^ 2 / s.b ^ 2 := by positivity
  have hconv : (P.x / s.a ^ 2) * Q.x + (P.y / s.a ^ 2) * Q.y + (P.z / s.b ^ 2) * Q.z ≤ 1 := by
    have : ((P.x - Q.x) ^ 2 + (P.y - Q.y) ^ 2) / s.a ^ 2 + (P.z - Q.z) ^ 2 / s.b ^ 2 =
        ((P.x ^ 2 + P.y ^ 2) / s.a ^ 2 + P.z ^ 2 / s.b ^ 2) + ((Q.x ^ 2 + Q.y ^ 2) / s.a ^ 2 + Q.z ^ 2 / s.b ^ 2)
        - 2 * ((P.x / s.a ^ 2) * Q.x + (P.y / s.a ^ 2) * Q.y + (P.z / s.b ^ 2) * Q.z) := by ring
    rw [this, s1, s2] at hsq
    linarith
  have s1' : (P.x / s.a ^ 2) * P.x + (P.y / s.a ^ 2) * P.y + (P.z / s.b ^ 2) * P.z = 1 := by
    rw [← s1]; ring
  have s2' : (Q.x / s.a ^ 2) * Q.x + (Q.y / s.a ^ 2) * Q.y + (Q.z / s.b ^ 2) * Q.z = 1 := by
    rw [← s2]; ring
  have hconv' : (Q.x / s.a ^ 2) * P.x + (Q.y / s.a ^ 2) * P.y + (Q.z / s.b ^ 2) * P.z ≤ 1 := by
    have : (Q.x / s.a ^ 2) * P.x + (Q.y / s.a ^ 2) * P.y + (Q.z / s.b ^ 2) * P.z =
      (P.x / s.a ^ 2) * Q.x + (P.y / s.a ^ 2) * Q.y + (P.z / s.b ^ 2) * Q.z := by ring
    rw [this]; exact hconv
  rw [gx1, gy1, gz1] at hconv s1'
  rw [gx2, gy2, gz2] at hconv' s2'
  have k1 : U.x * (Q.x - P.x) + U.y * (Q.y - P.y) + U.z * (Q.z - P.z) ≤ 0 := by
    by_contra hcon
    push Not at hcon
    have := mul_pos hc1 hcon
    linarith
  have k2 : V.x * (P.x - Q.x) + V.y * (P.y - Q.y) + V.z * (P.z - Q.z) ≤ 0 := by
    by_contra hcon
    push Not at hcon
    have := mul_pos hc2 hcon
    linarith
  set d := U.x * V.x + U.y * V.y + U.z * V.z with hd
  have dx : Q.x - P.x = p.alt * U.x - q.alt * V.x := by linarith
  have dy : Q.y - P.y = p.alt * U.y - q.alt * V.y := by linarith
  have dz : Q.z - P.z = p.alt * U.z - q.alt * V.z := by linarith
  have k1' : p.alt - q.alt * d ≤ 0 := by
    rw [dx, dy, dz] at k1
    have : U.x * (p.alt * U.x - q.alt * V.x) + U.y * (p.alt * U.y - q.alt * V.y) + U.z * (p.alt * U.z - q.alt * V.z) =
      p.alt * (U.x ^ 2 + U.y ^ 2 + U.z ^ 2) - q.alt * d := by rw [hd]; ring
    rw [this, n1] at k1
    linarith
  have k2' : q.alt - p.alt * d ≤ 0 := by
    have e1 : P.x - Q.x = q.alt * V.x - p.alt * U.x := by linarith
    have e2 : P.y - Q.y = q.alt * V.y - p.alt * U.y := by linarith
    have e3 : P.z - Q.z = q.alt * V.z - p.alt * U.z := by linarith
    rw [e1, e2, e3] at k2
    have : V.x * (q.alt * V.x - p.alt * U.x) + V.y * (q.alt * V.y - p.alt * U.y) + V.z * (q.alt * V.z - p.alt * U.z) =
      q.alt * (V.x ^ 2 + V.y ^ 2 + V.z ^ 2) - p.alt * d := by rw [hd]; ring
    rw [this, n2] at k2
    linarith
  have hUV : (U.x - V.x) ^ 2 + (U.y - V.y) ^ 2 + (U.z - V.z) ^ 2 = 2 * (1 - d) := by
    have : (U.x - V.x) ^ 2 + (U.y - V.y) ^ 2 + (U.z - V.z) ^ 2 = (U.x ^ 2 + U.y ^ 2 + U.z ^ 2) + (V.x ^ 2 + V.y ^ 2 + V.z ^ 2) - 2 * d := by
      rw [hd]; ring
    rw [this, n1, n2]; ring
  have q1 := sq_nonneg (U.x - V.x)
  have q2 := sq_nonneg (U.y - V.y)
  have q3 := sq_nonneg (U.z - V.z)
  have hd1 : d ≤ 1 := by
    have : 0 ≤ 2 * (1 - d) := by rw [← hUV]; positivity
    linarith
  have hUeqV : U = V := by
    have hz : (p.alt + q.alt) * (1 - d) ≤ 0 := by linarith
    rcases hd1.lt_or_eq with hlt | heq1
    · have hsum : p.alt + q.alt ≤ 0 := by
        by_contra hcon
        push Not at hcon
        have := mul_pos hcon (show 0 < 1 - d by linarith)
        linarith
      have hp0 : p.alt = 0 := by linarith
      have hq0 : q.alt = 0 := by linarith
      rw [hp0, hq0] at dx dy dz
      have hx : Q.x = P.x := by linarith
      have hy : Q.y = P.y := by linarith
      have hz : Q.z = P.z := by linarith
      rw [hx] at gx2; rw [hy] at gy2; rw [hz] at gz2
      have ux : c1 * U.x = c2 * V.x := by rw [← gx1, ← gx2]
      have uy : c1 * U.y = c2 * V.y := by rw [← gy1, ← gy2]
      have uz : c1 * U.z = c2 * V.z := by rw [← gz1, ← gz2]
      have hcc : c1 ^ 2 = c2 ^ 2 := by
        have : c1 ^ 2 * (U.x ^ 2 + U.y ^ 2 + U.z ^ 2) = c2 ^ 2 * (V.x ^ 2 + V.y ^ 2 + V.z ^ 2) := by
          calc _ = (c1 * U.x) ^ 2 + (c1 * U.y) ^ 2 + (c1 * U.z) ^ 2 := by ring
            _ = (c2 * V.x) ^ 2 + (c2 * V.y) ^ 2 + (c2 * V.z) ^ 2 := by rw [ux, uy, uz]
            _ = _ := by ring
        rw [n1, n2] at this
        linarith
      have hc12 : c1 = c2 := by
        rcases sq_eq_sq_iff_eq_or_eq_neg.1 hcc with h | h
        · exact h
        · linarith
      rw [hc12] at ux uy uz
      have := mul_left_cancel₀ hc2.ne' ux
      have := mul_left_cancel₀ hc2.ne' uy
      have := mul_left_cancel₀ hc2.ne' uz
      cases U; cases V; simp_all
    · rw [heq1] at hUV
      have e1 : (U.x - V.x) ^ 2 = 0 := by linarith
      have e2 : (U.y - V.y) ^ 2 = 0 := by linarith
      have e3 : (U.z - V.z) ^ 2 = 0 := by linarith
      have e1 := sub_eq_zero.1 (pow_eq_zero_iff (two_ne_zero) |>.1 e1)
      have e2 := sub_eq_zero.1 (pow_eq_zero_iff (two_ne_zero) |>.1 e2)
      have e3 := sub_eq_zero.1 (pow_eq_zero_iff (two_ne_zero) |>.1 e3)
      cases U; cases V; simp_all
  obtain ⟨hlon, hlat⟩ := hinj hUeqV
  have hd1 : d = 1 := by
    have : d = V.x ^ 2 + V.y ^ 2 + V.z ^ 2 := by rw [hd, hUeqV]; ring
    rw [this, n2]
  have halt : p.alt = q.alt := by rw [hd1] at k1' k2'; linarith
  cases p; cases q
  simp_all

/-- The hypotheses are met: two positions on WGS84 at 1000 m above the ellipsoid are different points. -/
example : (Coordinates.make (some Spheroid.wgs84)).llaToEcef 3 ⟨2, 48, 1000⟩ ≠
    (Coordinates.make (some Spheroid.wgs84)).llaToEcef 3 ⟨2, 49, 1000⟩ := by
  intro h
  have := C71_injective 3 (le_refl _) Spheroid.wgs84 (by simp only [Spheroid.Valid, Spheroid.wgs84]; norm_num) _ _
    (by norm_num) (by norm_num) (by norm_num) (by norm_num) (by norm_num) (by norm_num) (by norm_num) (by norm_num)
    (by norm_num) (by norm_num) h
  simp at this

end Pyinterp.Geodetic
