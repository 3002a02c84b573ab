import Verif.Lemmas.Swath
import Mathlib.Data.List.GetD

/-
C87: the pixels of a swath.
-/
namespace Pyinterp
open Real Pyinterp.RTree Pyinterp.Geodetic Pyinterp.Swath Pyinterp.Spec

/-- The loop over the pixels writes each of them once. -/
theorem swathRow_loop (f g : Nat → LLA) (m k : Nat) (hk : k ≤ m) :
    let row := (List.range k).foldl (fun (row : List (Option LLA)) j => (row.set (m + j) (some (f j))).set (m - j - 1) (some (g j)))
      (List.replicate (2 * m) none)
    row.length = 2 * m ∧ ∀ j, j < k → row[m + j]? = some (some (f j)) ∧ row[m - 1 - j]? = some (some (g j)) := by
  induction k with
  | zero => simp
  | succ k ih =>
    obtain ⟨h1, h2⟩ := ih (by omega)
    rw [List.range_succ, List.foldl_append]
    dsimp only [List.foldl_cons, List.foldl_nil]
    refine ⟨by simpa using h1, ?_⟩
    intro j hj
    have e1 : ∀ (l : List (Option LLA)) (a b : Nat) (v : Option LLA), a ≠ b → (l.set a v)[b]? = l[b]? := by
      intro l a b v h; exact List.getElem?_set_ne h
    have e2 : ∀ (l : List (Option LLA)) (a : Nat) (v : Option LLA), a < l.length → (l.set a v)[a]? = some v := by
      intro l a v h; rw [List.getElem?_set_self h]
    by_cases hjk : j = k
    · subst hjk
      constructor
      · rw [e1 _ _ _ _ (by omega), e2 _ _ _ (by omega)]
      · rw [show m - j - 1 = m - 1 - j by omega, e2 _ _ _ (by rw [List.length_set]; omega)]
    · obtain ⟨a, b⟩ := h2 j (by omega)
      constructor
      · rw [e1 _ _ _ _ (by omega), e1 _ _ _ _ (by omega), a]
      · rw [e1 _ _ _ _ (by omega), e1 _ _ _ _ (by omega), b]

/-- A location is at the distance `geocentricRadius` of the centre, not zero. -/
theorem location_radius (bits : Nat) (hb : 3 ≤ bits) (s : Spheroid) (h : s.Valid) (lon lat : ℝ) :
    s.geocentricRadius bits lat = len3 ((Coordinates.make (some s)).llaToEcef bits ⟨lon, lat, 0⟩) ∧
    0 < s.geocentricRadius bits lat := by
  have e : ∀ p : Point, distance ⟨0, 0, 0⟩ p = len3 p := by
    intro p; unfold distance len3 dot3; congr 1; ring
  have h1 : s.geocentricRadius bits lat = len3 ((Coordinates.make (some s)).llaToEcef bits ⟨lon, lat, 0⟩) := by
    rw [C73_geocentric_radius bits hb s h lon lat, e]
  refine ⟨h1, ?_⟩
  rw [h1]
  obtain ⟨hs, _⟩ := C71_surface bits hb s h lon lat
  set p := (Coordinates.make (some s)).llaToEcef bits ⟨lon, lat, 0⟩
  unfold len3
  apply Real.sqrt_pos.mpr
  rcases (dot3_self_nonneg p).lt_or_eq with h0 | h0
  · exact h0
  · exfalso
    unfold dot3 at h0
    have hx : p.x = 0 := by nlinarith [mul_self_nonneg p.x, mul_self_nonneg p.y, mul_self_nonneg p.z]
    have hy : p.y = 0 := by nlinarith [mul_self_nonneg p.x, mul_self_nonneg p.y, mul_self_nonneg p.z]
    have hz : p.z = 0 := by nlinarith [mul_self_nonneg p.x, mul_self_nonneg p.y, mul_self_nonneg p.z]
    unfold OnEllipsoid at hs
    rw [hx, hy, hz] at hs
    norm_num at hs

/-- C87. `calculate_swath` on `n ≥ 3` nadir points: `n` rows of `2 * half_swath` pixels, all written. In the row of a nadir point the
column `half_swath + j` is the nadir point turned to the right of the flight by the angle `(j * delta_ac + half_gap) / R`, where `R` is
the distance of the nadir point to the centre of the Earth, the column `half_swath - 1 - j` the one turned to the left by the same angle
(brought back to longitude and latitude by `ecef_to_lla`). The direction of flight goes from the previous to the next nadir point, which
are different. -/
theorem C87_swath (bits : Nat) (hb : 3 ≤ bits) (lon lat : List ℝ) (hl : lon.length = lat.length) (hn : 3 ≤ lon.length)
    (delta gap : ℝ) (m : Nat) (sph : Option Spheroid) (hv : (sph.getD Spheroid.wgs84).Valid) :
    let s := sph.getD Spheroid.wgs84
    let co := Coordinates.make (some s)
    let nadir := fun i => co.llaToEcef bits ⟨lon.getD i 0, lat.getD i 0, 0⟩
    (∀ i, 1 ≤ i → i + 1 < lon.length → nadir (i - 1) ≠ nadir (i + 1)) →
    ∃ rows, calculateSwath bits lon lat delta gap m sph = .ok rows ∧ rows.length = lon.length ∧
      ∀ i (hi : i < rows.length), rows[i].length = 2 * m ∧ ∀ j, j < m → ∃ right left,
        rows[i][m + j]? = some (some (co.ecefToLla right)) ∧ rows[i][m - 1 - j]? = some (some (co.ecefToLla left)) ∧
        TurnedRight (nadir i) (flight nadir lon.length i) ((j * delta + gap) / len3 (nadir i)) right ∧
        TurnedRight (nadir i) (flight nadir lon.length i) (-((j * delta + gap) / len3 (nadir i))) left := by
  intro s co nadir hne
  set n := lon.length with hnn
  set loc := locations bits co lon lat with hloc
  have hll : loc.length = n := by
    rw [hloc]; unfold locations; rw [List.length_map, List.length_zip, ← hl, Nat.min_self]
  have hget : ∀ i, i < n → loc.getD i origin = nadir i := by
    intro i hi
    rw [List.getD_eq_getElem _ _ (by omega)]
    simp only [hloc, locations, List.getElem_map, List.getElem_zip, nadir]
    rw [List.getD_eq_getElem _ _ (by omega), List.getD_eq_getElem _ _ (by omega)]
  set dirs := (List.range n).map fun i => if i = 0 then innerDirection loc 1
    else if i = n - 1 then innerDirection loc (n - 2) else innerDirection loc i with hdirs
  have hsat : satelliteDirection loc = .ok dirs := by
    unfold satelliteDirection
    dsimp only
    rw [hll, if_neg (by omega)]
  have hdlen : dirs.length = n := by simp [hdirs]
  have hdir : ∀ i, i < n → dirs.getD i origin = innerDirection loc (max 1 (min i (n - 2))) := by
    intro i hi
    rw [List.getD_eq_getElem _ _ (by omega)]
    simp only [hdirs, List.getElem_map, List.getElem_range]
    split_ifs with h0 h1
    · subst h0; congr 1
    · congr 1; omega
    · congr 1; omega
  have hinner : ∀ k, 1 ≤ k → k + 1 < n → innerDirection loc k =
      ⟨(sub3 (nadir (k + 1)) (nadir (k - 1))).x / len3 (nadir k), (sub3 (nadir (k + 1)) (nadir (k - 1))).y / len3 (nadir k),
       (sub3 (nadir (k + 1)) (nadir (k - 1))).z / len3 (nadir k)⟩ := by
    intro k h1 h2
    unfold innerDirection
    dsimp only
    rw [hget k (by omega), hget (k - 1) (by omega), hget (k + 1) h2]
    have : √((nadir k).x ^ 2 + (nadir k).y ^ 2 + (nadir k).z ^ 2) = len3 (nadir k) := by
      unfold len3 dot3; congr 1; ring
    rw [this]
    rfl
  refine ⟨(List.range n).map fun i =>
      swathRow co (loc.getD i origin) (dirs.getD i origin) (s.geocentricRadius bits (lat.getD i 0)) delta gap m, ?_, by simp, ?_⟩
  · unfold calculateSwath
    rw [if_neg (by simp [hl, ← hnn])]
    show (do let dir ← satelliteDirection loc; _) = _
    rw [hsat]
    show (if ((m : Int) < 0) then (Except.error Err.ub : Out (List (List (Option LLA)))) else .ok ((List.range loc.length).map fun i =>
      swathRow co (loc.getD i origin) (dirs.getD i origin) (s.geocentricRadius bits (lat.getD i 0)) delta gap (m : Int).toNat)) = _
    rw [if_neg (by omega), hll]
    rfl
  · intro i hi
    have hi' : i < n := by simpa using hi
    simp only [List.getElem_map, List.getElem_range]
    obtain ⟨hR, hRp⟩ := location_radius bits hb s hv (lon.getD i 0) (lat.getD i 0)
    set R := s.geocentricRadius bits (lat.getD i 0) with hRdef
    have hRn : R = len3 (nadir i) := hR
    set k := max 1 (min i (n - 2)) with hk
    have hk1 : 1 ≤ k := by omega
    have hk2 : k + 1 < n := by omega
    have hkp : 0 < len3 (nadir k) := by
      obtain ⟨a, b⟩ := location_radius bits hb s hv (lon.getD k 0) (lat.getD k 0)
      rw [a] at b; exact b
    have hd : dirs.getD i origin = innerDirection loc k := hdir i hi'
    have hflight : flight nadir n i = sub3 (nadir (k + 1)) (nadir (k - 1)) := rfl
    have hdpos : 0 < dot3 (dirs.getD i origin) (dirs.getD i origin) := by
      rw [hd, hinner k hk1 hk2]
      have hfne : 0 < dot3 (sub3 (nadir (k + 1)) (nadir (k - 1))) (sub3 (nadir (k + 1)) (nadir (k - 1))) := by
        rcases (dot3_self_nonneg (sub3 (nadir (k + 1)) (nadir (k - 1)))).lt_or_eq with h0 | h0
        · exact h0
        · exfalso
          apply hne k hk1 hk2
          generalize nadir (k + 1) = p at h0 ⊢
          generalize nadir (k - 1) = q at h0 ⊢
          unfold dot3 sub3 at h0
          dsimp only at h0
          have hx : p.x - q.x = 0 := by
            nlinarith [mul_self_nonneg (p.x - q.x), mul_self_nonneg (p.y - q.y), mul_self_nonneg (p.z - q.z)]
          have hy : p.y - q.y = 0 := by
            nlinarith [mul_self_nonneg (p.x - q.x), mul_self_nonneg (p.y - q.y), mul_self_nonneg (p.z - q.z)]
          have hz : p.z - q.z = 0 := by
            nlinarith [mul_self_nonneg (p.x - q.x), mul_self_nonneg (p.y - q.y), mul_self_nonneg (p.z - q.z)]
          cases p; cases q
          simp only [Point.mk.injEq] at *
          exact ⟨by linarith, by linarith, by linarith⟩
      generalize sub3 (nadir (k + 1)) (nadir (k - 1)) = v at hfne
      have : dot3 ⟨v.x / len3 (nadir k), v.y / len3 (nadir k), v.z / len3 (nadir k)⟩
          ⟨v.x / len3 (nadir k), v.y / len3 (nadir k), v.z / len3 (nadir k)⟩ = dot3 v v / len3 (nadir k) ^ 2 := by
        unfold dot3; dsimp only; field_simp
      rw [this]
      positivity
    have hloop := swathRow_loop (fun j => co.ecefToLla (pixels (loc.getD i origin) (dirs.getD i origin) R delta gap j).1)
      (fun j => co.ecefToLla (pixels (loc.getD i origin) (dirs.getD i origin) R delta gap j).2) m m le_rfl
    refine ⟨hloop.1, ?_⟩
    intro j hj
    obtain ⟨h1, h2⟩ := hloop.2 j hj
    refine ⟨_, _, h1, h2, ?_⟩
    obtain ⟨t1, t2⟩ := pixels_turned (loc.getD i origin) (dirs.getD i origin) R delta gap j hdpos
    rw [hget i hi'] at t1 t2 ⊢
    rw [← hRn, hflight]
    rw [hd, hinner k hk1 hk2] at t1 t2 ⊢
    exact ⟨TurnedRight.scale hkp t1, TurnedRight.scale hkp t2⟩

/-- The square of the distance of two positions. -/
theorem distance_sq (p q : Point) : distance p q ^ 2 = dot3 p p - 2 * dot3 p q + dot3 q q := by
  unfold distance
  rw [Real.sq_sqrt (by positivity)]
  unfold dot3; ring

/-- C87. Symmetry: the pixel turned to the right and the one turned to the left by the same angle are at the same distance of the nadir
point, at the same distance of the centre of the Earth, and on both sides of the plane of the flight (the vector `dir × nadir` points to
the right); further pixels are further away: the distance grows with the angle up to half a turn. -/
theorem C87_sides {loc dir right left : Point} {t : ℝ} (h0 : 0 < t) (hpi : t < π) (hr : TurnedRight loc dir t right)
    (hl : TurnedRight loc dir (-t) left) (hd : 0 < dot3 dir dir) (hnp : 0 < dot3 (cross3 dir loc) (cross3 dir loc)) :
    distance right loc = distance left loc ∧ distance right ⟨0, 0, 0⟩ = distance loc ⟨0, 0, 0⟩ ∧
    distance left ⟨0, 0, 0⟩ = distance loc ⟨0, 0, 0⟩ ∧
    0 < dot3 right (cross3 dir loc) ∧ dot3 left (cross3 dir loc) < 0 := by
  have hsin := Real.sin_pos_of_pos_of_lt_pi h0 hpi
  have hlen : 0 < len3 dir := Real.sqrt_pos.mpr hd
  have hz : ∀ p : Point, dot3 p ⟨0, 0, 0⟩ = 0 := by intro p; unfold dot3; simp
  have hz2 : ∀ p : Point, distance p ⟨0, 0, 0⟩ = len3 p := by
    intro p; unfold distance len3 dot3; congr 1; ring
  have hnn : ∀ p q : Point, 0 ≤ distance p q := fun p q => Real.sqrt_nonneg _
  refine ⟨?_, ?_, ?_, ?_, ?_⟩
  · have e : dot3 right loc = dot3 left loc := by
      have h1 := hr.ahead
      have h2 := hl.ahead
      rw [Real.cos_neg] at h2
      exact mul_right_cancel₀ hd.ne' (h1.trans h2.symm)
    have : distance right loc ^ 2 = distance left loc ^ 2 := by
      rw [distance_sq, distance_sq, hr.radius, hl.radius, e]
    exact (sq_eq_sq₀ (hnn _ _) (hnn _ _)).mp this
  · rw [hz2, hz2]; unfold len3; rw [hr.radius]
  · rw [hz2, hz2]; unfold len3; rw [hl.radius]
  · have h1 := hr.side
    by_contra hc
    nlinarith [mul_pos hsin hnp]
  · have h1 := hl.side
    rw [Real.sin_neg] at h1
    by_contra hc
    nlinarith [mul_pos hsin hnp]

/-- C87. The chord from the nadir point to a pixel: `2 sin(t/2)` times the distance of the nadir point to the axis of the rotation (the
line of the flight through the centre of the Earth). -/
theorem C87_chord {loc dir q : Point} {t : ℝ} (h : TurnedRight loc dir t q) :
    distance q loc ^ 2 * dot3 dir dir = 4 * sin (t / 2) ^ 2 * dot3 (cross3 dir loc) (cross3 dir loc) := by
  have h1 := h.ahead
  have hc : cos t = 1 - 2 * sin (t / 2) ^ 2 := by
    have := Real.cos_two_mul (t / 2)
    rw [show 2 * (t / 2) = t by ring] at this
    have h2 := sin_sq_add_cos_sq (t / 2)
    linarith
  have hl : dot3 (cross3 dir loc) (cross3 dir loc) = dot3 loc loc * dot3 dir dir - dot3 loc dir ^ 2 := by
    unfold dot3 cross3; ring
  rw [distance_sq, h.radius, hl]
  rw [hc] at h1
  linear_combination (-2) * h1

/-- C87. When the flight is horizontal (perpendicular to the position), the pixel is at the distance asked for: the arc of the great
circle between the nadir point and the pixel, on the sphere of the radius of the nadir point, is `d` for the angle `d / R`. -/
theorem C87_arc {loc dir q : Point} {d : ℝ} (hR : 0 < len3 loc) (hd : 0 < dot3 dir dir) (hperp : dot3 loc dir = 0)
    (h0 : 0 ≤ d) (hpi : d ≤ π * len3 loc) (h : TurnedRight loc dir (d / len3 loc) q) :
    len3 loc * arccos (dot3 q loc / (len3 q * len3 loc)) = d := by
  have hq : len3 q = len3 loc := by unfold len3; rw [h.radius]
  have hsq : len3 loc * len3 loc = dot3 loc loc := Real.mul_self_sqrt (dot3_self_nonneg loc)
  have h1 := h.ahead
  rw [hperp] at h1
  have h2 : dot3 q loc = cos (d / len3 loc) * dot3 loc loc := by
    apply mul_right_cancel₀ hd.ne'
    linear_combination h1
  have hp : 0 < dot3 loc loc := by rw [← hsq]; positivity
  rw [hq, hsq, h2, mul_div_cancel_right₀ _ hp.ne', Real.arccos_cos (by positivity) (by rw [div_le_iff₀ hR]; exact hpi)]
  field_simp

/-- C87. The flight is horizontal at a sample equally distant of its two neighbours when these are at the same distance of the centre
(a circular orbit sampled regularly). -/
theorem C87_horizontal (prev loc next : Point) (h1 : dot3 prev prev = dot3 next next) (h2 : distance prev loc = distance next loc) :
    dot3 loc (sub3 next prev) = 0 := by
  have h3 : distance prev loc ^ 2 = distance next loc ^ 2 := by rw [h2]
  rw [distance_sq, distance_sq, h1] at h3
  have e : dot3 loc (sub3 next prev) = dot3 next loc - dot3 prev loc := by unfold dot3 sub3; ring
  rw [e]; linarith

/-- C87. Arrays of different lengths are refused. -/
theorem C87_shapes (bits : Nat) (lon lat : List ℝ) (h : lon.length ≠ lat.length) (delta gap : ℝ) (m : Int) (sph : Option Spheroid) :
    calculateSwath bits lon lat delta gap m sph = .error .exn := by
  unfold calculateSwath; rw [if_pos h]

/-- Finding (C87): fewer than three nadir points (a pass cut by a box keeps one or two of them) is undefined behaviour: the blocks of
`satellite_direction` have a negative size, or the rows copied at the ends are not initialised. -/
theorem C87_short_false (bits : Nat) (lon lat : List ℝ) (hl : lon.length = lat.length) (h : lon.length < 3) (delta gap : ℝ) (m : Int)
    (sph : Option Spheroid) : calculateSwath bits lon lat delta gap m sph = .error .ub := by
  unfold calculateSwath
  rw [if_neg (by simpa using hl)]
  have hll : (locations bits (Coordinates.make (some (sph.getD Spheroid.wgs84))) lon lat).length < 3 := by
    unfold locations; rw [List.length_map, List.length_zip]; omega
  have hs : satelliteDirection (locations bits (Coordinates.make (some (sph.getD Spheroid.wgs84))) lon lat) = .error .ub := by
    unfold satelliteDirection; dsimp only; rw [if_pos hll]
  show (do let dir ← satelliteDirection (locations bits (Coordinates.make (some (sph.getD Spheroid.wgs84))) lon lat); _) = _
  rw [hs]
  rfl

/-- A nadir point on the equator, a flight to the north: the point a quarter of a turn to the right is to the east. -/
example : TurnedRight ⟨1, 0, 0⟩ ⟨0, 0, 2⟩ (π / 2) ⟨0, 1, 0⟩ := by
  refine ⟨?_, ?_, ?_, ?_⟩ <;> simp [dot3, cross3, len3, cos_pi_div_two, sin_pi_div_two]

/-- Three nadir points that go to the north-east, on WGS84: a swath of 2 x 35 pixels of 2 km. -/
example : ∃ rows, calculateSwath 3 [0, 1, 2] [0, 1, 2] 2000 2000 (35 : Nat) none = .ok rows ∧ rows.length = 3 := by
  have hv : Spheroid.wgs84.Valid := by simp only [Spheroid.Valid, Spheroid.wgs84]; norm_num
  obtain ⟨rows, h1, h2, _⟩ := C87_swath 3 le_rfl [0, 1, 2] [0, 1, 2] rfl (by simp) 2000 2000 35 none hv (by
    intro i h1 h2
    have : i = 1 := by simp at h2; omega
    subst this
    intro h
    have := C71_injective 3 le_rfl Spheroid.wgs84 hv _ _ (by norm_num) (by norm_num) (by norm_num) (by norm_num) (by norm_num)
      (by norm_num) (by norm_num) (by norm_num) (by norm_num) (by norm_num) h
    norm_num at this)
  exact ⟨rows, h1, h2⟩

end Pyinterp
