import Mathlib.Data.List.GetD
import Verif.Model.OrbitInterpolate
import Verif.Props.C02_Construction
import Verif.Props.C49_Interpolate1D
import Verif.Props.C58_Values
import Verif.Props.C72_EcefToLla

/-
C88: `pyinterp.orbit.interpolate`.
-/
namespace Pyinterp
open Real Pyinterp.RTree Pyinterp.Geodetic Pyinterp.Passes Pyinterp.Spec Pyinterp.Trig

theorem bindOk {α β : Type} {x : Out α} {f : α → Out β} {a : α} (h : x = .ok a) : (x >>= f) = f a := by subst h; rfl

/-- An axis made from increasing values has increasing coordinates, as many as values, is not an angle. -/
theorem mkAxis_increasing {v l : List ℝ} {eps : ℝ} (h0 : 0 ≤ eps) {a : Axis ℝ} (hv : v.Pairwise (· < ·))
    (h : mkAxis false v eps false = .ok a) (hl : Spec.Coordinates a l) :
    l.Pairwise (· < ·) ∧ l.length = v.length ∧ a.isAngle = false := by
  have hreach : Reach false a := .values v eps false a h0 h
  have hcl := coordinates_eq_contList hreach hl
  have hinit : initializeFromValues false none v eps = .ok a := by
    unfold mkAxis at h; simpa using h
  have hang : a.isAngle = false := by
    unfold initializeFromValues at hinit
    have key : ∀ k, computeProperties false none k eps = .ok a → a.isAngle = false := by
      intro k hk
      have := (computeProperties_ok hk).2
      simp_all [Axis.isAngle]
    split at hinit
    · simp only [bind, Except.bind] at hinit
      split at hinit
      · cases hinit
      · exact key _ hinit
    · simp only [bind, Except.bind] at hinit
      split at hinit
      · cases hinit
      · exact key _ hinit
  rcases initialize_cases hinit with ⟨_, hc⟩ | ⟨hr, x, y, e1, e2, e3, e4⟩
  · rw [hc] at hcl; subst hcl; exact ⟨hv, rfl, hang⟩
  · rw [e4] at hcl
    refine ⟨?_, by rw [hcl]; simp, hang⟩
    rw [hcl]
    have hpos : 0 < AxisNum.divInt (y.getLastD x - x) ((v.length : Int) - 1) := by
      show 0 < (y.getLastD x - x) / (((v.length : Int) - 1 : Int) : ℝ)
      have h1 : (1 : ℝ) ≤ (((v.length : Int) - 1 : Int) : ℝ) := by
        have : (1 : Int) ≤ (v.length : Int) - 1 := by omega
        exact_mod_cast this
      have h2 : x < y.getLastD x := by
        subst e1
        rw [List.pairwise_cons] at hv
        cases y with
        | nil => simp at e2
        | cons b t => exact hv.1 _ (List.getLast_mem (List.cons_ne_nil b t))
      apply div_pos <;> linarith
    generalize AxisNum.divInt (y.getLastD x - x) ((v.length : Int) - 1) = inc at hpos
    unfold regCoords
    rw [List.pairwise_map]
    refine List.Pairwise.imp ?_ List.pairwise_lt_range
    intro i j hij
    have : (i : ℝ) < j := by exact_mod_cast hij
    nlinarith

/-- The four interpolated values at a node: the point is a multiple of the node, with the third coordinate flattened. -/
theorem orbitPoint_node {s : Spheroid} (hv : s.Valid) (hf : 0 ≤ s.f) (p : Point) (hp : 0 < p.x * p.x + p.y * p.y + p.z * p.z) :
    ∃ c : ℝ, 1 ≤ c ∧ (s.f = 0 → c = 1) ∧
      orbitPoint (s.a / s.b) (some p.x) (some p.y) (some p.z)
        (some √(p.x * p.x + p.y * p.y + p.z * p.z * (s.a / s.b) * (s.a / s.b))) =
      some ⟨c * p.x, c * p.y, c * p.z * (1 - s.f)⟩ := by
  have ha := hv.1
  have hb := hv.b_pos
  have hm : s.a / s.b = 1 / (1 - s.f) := by unfold Spheroid.b; field_simp
  have hf1 : 0 < 1 - s.f := by linarith [hv.2]
  have hm1 : 1 ≤ s.a / s.b := by rw [hm, le_div_iff₀ hf1]; linarith
  set m := s.a / s.b with hmd
  have hge : p.x * p.x + p.y * p.y + p.z * p.z ≤ p.x * p.x + p.y * p.y + p.z * p.z * m * m := by
    have : p.z * p.z * 1 ≤ p.z * p.z * (m * m) := mul_le_mul_of_nonneg_left (by nlinarith) (mul_self_nonneg _)
    nlinarith
  have hsp : 0 < √(p.x * p.x + p.y * p.y + p.z * p.z) := Real.sqrt_pos.mpr hp
  refine ⟨√(p.x * p.x + p.y * p.y + p.z * p.z * m * m) / √(p.x * p.x + p.y * p.y + p.z * p.z), ?_, ?_, ?_⟩
  · rw [le_div_iff₀ hsp, one_mul]; exact Real.sqrt_le_sqrt hge
  · intro h0
    have : m = 1 := by rw [hm, h0]; norm_num
    rw [this, mul_one, mul_one]; exact div_self hsp.ne'
  · unfold orbitPoint
    dsimp only
    rw [if_neg hp.ne']
    have h1m : 1 / m = 1 - s.f := by rw [hm]; field_simp
    rw [h1m]
    congr 2 <;> ring

theorem orbitPoint_none (m : ℝ) (y z r : Option ℝ) : orbitPoint m none y z r = none := rfl

/-- C88. The points of `interpolate` before the conversion to longitude and latitude: one by coordinate asked for; NaN outside of the
dates of the orbit; at the date of the sample `i` a multiple of the position of this sample (at the given height), whose third
coordinate is multiplied by `1 - f`. The dates of the samples are these of the axis (C58: the values given, up to the tolerance). -/
theorem C88_points (bits : Nat) (hb : 3 ≤ bits) (same : Nat → Nat → Bool) (junk : Nat → Nat → ℝ) (s : Spheroid)
    (hv : s.Valid) (hf : 0 ≤ s.f) (lon lat xp xi l : List ℝ) (height : ℝ) (hh : 0 ≤ height) (half : Nat)
    (hlen : lon.length = lat.length) (hxl : lon.length = xp.length) (h4 : 4 ≤ xp.length) (hw : 3 ≤ half)
    (hxp : xp.Pairwise (· < ·)) (a : Axis ℝ)
    (ha : mkAxis false (xp.map fun v => v - xp.getD 0 0) (1 / 1000000) false = .ok a) (hl : Spec.Coordinates a l) :
    ∃ r, interpolatePoints bits same junk (Geodetic.Coordinates.make (some s)) lon lat xp xi height half = .ok r ∧
      r.length = xi.length ∧
      ∀ k (h : k < xi.length) (h' : k < r.length),
        (Outside l (xi[k] - xp.getD 0 0) → r[k] = none) ∧
        ∀ i (hi : i < l.length), xi[k] - xp.getD 0 0 = l[i] →
          ∃ c : ℝ, 1 ≤ c ∧ (s.f = 0 → c = 1) ∧ r[k] = some
            ⟨c * ((Geodetic.Coordinates.make (some s)).llaToEcef bits ⟨lon.getD i 0, lat.getD i 0, height⟩).x,
             c * ((Geodetic.Coordinates.make (some s)).llaToEcef bits ⟨lon.getD i 0, lat.getD i 0, height⟩).y,
             c * ((Geodetic.Coordinates.make (some s)).llaToEcef bits ⟨lon.getD i 0, lat.getD i 0, height⟩).z * (1 - s.f)⟩ := by
  have hv' : (xp.map fun v => v - xp.getD 0 0).Pairwise (· < ·) := by
    rw [List.pairwise_map]; exact hxp.imp (fun h => by linarith)
  obtain ⟨hs, hll, hang⟩ := mkAxis_increasing (by norm_num) hv' ha hl
  have hreach : Reach false a := .values _ _ false a (by norm_num) ha
  rw [List.length_map] at hll
  set co := Geodetic.Coordinates.make (some s) with hco
  have hsph : co.spheroid = s := rfl
  obtain ⟨x0, xt, hx⟩ := List.exists_cons_of_ne_nil (show xp ≠ [] by rintro rfl; simp at h4)
  have hx0 : xp.getD 0 0 = x0 := by rw [hx]; rfl
  rw [hx0] at ha ⊢
  set p := orbitEcef bits co lon lat height with hp
  have hpl : p.length = l.length := by
    rw [hp]; unfold orbitEcef; rw [List.length_map, List.length_zip]; omega
  have hpget : ∀ i (hi : i < p.length), p[i] = co.llaToEcef bits ⟨lon.getD i 0, lat.getD i 0, height⟩ := by
    intro i hi
    simp only [hp, orbitEcef, List.getElem_map, List.getElem_zip]
    rw [List.getD_eq_getElem _ _ (by omega), List.getD_eq_getElem _ _ (by omega)]
  set xj := xi.map fun v => v - x0 with hxj
  have hxjl : xj.length = xi.length := by simp [hxj]
  have run : ∀ f : Point → ℝ, ∃ r, Interp.interpolate1d same junk a (p.map f) xj half true "c_spline" = .ok r ∧
      r.length = xi.length ∧ ∀ k (h : k < xi.length) (h' : k < r.length),
        (Outside l (xi[k] - x0) → r.getD k none = none) ∧
        ∀ i (hi : i < l.length) (hi' : i < p.length), xi[k] - x0 = l[i] → r.getD k none = some (f p[i]) := by
    intro f
    obtain ⟨r, h1, h2, h3⟩ := Interp.C49_splines same junk a l (p.map f) xj hreach hl hang hs (by simp [hpl]) half true "c_spline"
      (Or.inl ⟨rfl, by omega, hw⟩)
    refine ⟨r, h1, by omega, ?_⟩
    intro k h h'
    obtain ⟨g1, g2, _⟩ := h3 k (by omega) h'
    have hxk : xj[k]'(by omega) = xi[k] - x0 := by simp [hxj]
    rw [hxk] at g1 g2
    rw [List.getD_eq_getElem _ _ h']
    refine ⟨g1.mpr, ?_⟩
    intro i hi hi' e
    rw [g2 i hi e]; simp
  set m := co.spheroid.a / co.spheroid.b with hm
  obtain ⟨rx, x1, x2, x3⟩ := run (·.x)
  obtain ⟨ry, y1, y2, y3⟩ := run (·.y)
  obtain ⟨rz, z1, z2, z3⟩ := run (·.z)
  obtain ⟨rr, r1, r2, r3⟩ := run (fun q => √(q.x * q.x + q.y * q.y + q.z * q.z * m * m))
  refine ⟨(List.range xj.length).map fun k =>
      orbitPoint m (rx.getD k none) (ry.getD k none) (rz.getD k none) (rr.getD k none), ?_, by simp [hxjl], ?_⟩
  · unfold interpolatePoints
    rw [if_neg (by simpa using hlen)]
    rw [hx] at ha ⊢
    refine Eq.trans (bindOk ha) ?_
    refine Eq.trans (bindOk x1) ?_
    refine Eq.trans (bindOk y1) ?_
    refine Eq.trans (bindOk z1) ?_
    refine Eq.trans (bindOk r1) ?_
    rfl
  · intro k h h'
    simp only [List.getElem_map, List.getElem_range]
    obtain ⟨a1, a2⟩ := x3 k h (by omega)
    refine ⟨fun ho => by rw [a1 ho]; rfl, ?_⟩
    intro i hi e
    have hi' : i < p.length := by omega
    rw [a2 i hi hi' e, (y3 k h (by omega)).2 i hi hi' e, (z3 k h (by omega)).2 i hi hi' e, (r3 k h (by omega)).2 i hi hi' e]
    have hpos : 0 < p[i].x * p[i].x + p[i].y * p[i].y + p[i].z * p[i].z := by
      rw [hpget i hi', hco, llaToEcef_eq bits hb]
      dsimp only
      have hN := normalRadius_pos hv (lat.getD i 0)
      set N := normalRadius s (lat.getD i 0)
      have he : 0 < 1 - s.e2 := by
        rw [Spheroid.e2_eq hv]
        have : 0 < (1 - s.f) ^ 2 := pow_pos (by linarith [hv.2]) 2
        linarith
      have hA : 0 < N + height := by linarith
      have hB : 0 < N * (1 - s.e2) + height := by have := mul_pos hN he; linarith
      have e1 := sin_sq_add_cos_sq (lat.getD i 0 * π / 180)
      have e2 := sin_sq_add_cos_sq (lon.getD i 0 * π / 180)
      set cl := cos (lat.getD i 0 * π / 180)
      set sl := sin (lat.getD i 0 * π / 180)
      set cn := cos (lon.getD i 0 * π / 180)
      set sn := sin (lon.getD i 0 * π / 180)
      have : (N + height) * cl * cn * ((N + height) * cl * cn) + (N + height) * cl * sn * ((N + height) * cl * sn) +
          (N * (1 - s.e2) + height) * sl * ((N * (1 - s.e2) + height) * sl) =
          (N + height) ^ 2 * cl ^ 2 + (N * (1 - s.e2) + height) ^ 2 * sl ^ 2 := by
        linear_combination (N + height) ^ 2 * cl ^ 2 * e2
      rw [this]
      rcases eq_or_ne sl 0 with h0 | h0
      · have : cl ^ 2 = 1 := by rw [h0] at e1; linarith
        rw [h0, this]; positivity
      · positivity
    obtain ⟨c, c1, c2, c3⟩ := orbitPoint_node hv hf p[i] hpos
    refine ⟨c, c1, c2, ?_⟩
    have hmm : m = s.a / s.b := by rw [hm, hsph]
    rw [hmm, c3, hpget i hi']

/-- C88. `interpolate`: one result by coordinate asked for, NaN outside of the dates of the orbit; at the date of a sample the longitude is
the one of the sample. -/
theorem C88_longitude (bits : Nat) (hb : 3 ≤ bits) (same : Nat → Nat → Bool) (junk : Nat → Nat → ℝ) (s : Spheroid)
    (hv : s.Valid) (hf : 0 ≤ s.f) (lon lat xp xi l : List ℝ) (height : ℝ) (hh : 0 ≤ height) (half : Nat)
    (hlen : lon.length = lat.length) (hxl : lon.length = xp.length) (h4 : 4 ≤ xp.length) (hw : 3 ≤ half)
    (hxp : xp.Pairwise (· < ·)) (a : Axis ℝ)
    (ha : mkAxis false (xp.map fun v => v - xp.getD 0 0) (1 / 1000000) false = .ok a) (hl : Spec.Coordinates a l) :
    ∃ r, interpolate bits same junk (Geodetic.Coordinates.make (some s)) lon lat xp xi height half = .ok r ∧
      r.length = xi.length ∧
      ∀ k (h : k < xi.length) (h' : k < r.length),
        (Outside l (xi[k] - xp.getD 0 0) → r[k] = none) ∧
        ∀ i (hi : i < l.length), xi[k] - xp.getD 0 0 = l[i] → -180 < lon.getD i 0 → lon.getD i 0 ≤ 180 → -90 < lat.getD i 0 →
          lat.getD i 0 < 90 → ∃ lt, r[k] = some (lon.getD i 0, lt) := by
  obtain ⟨r, h1, h2, h3⟩ := C88_points bits hb same junk s hv hf lon lat xp xi l height hh half hlen hxl h4 hw hxp a ha hl
  refine ⟨_, bindOk h1, by simpa using h2, ?_⟩
  intro k h h'
  obtain ⟨g1, g2⟩ := h3 k h (by omega)
  simp only [List.getElem_map]
  refine ⟨fun ho => by rw [g1 ho]; rfl, ?_⟩
  intro i hi e l1 l2 l3 l4
  obtain ⟨c, c1, c2, c3⟩ := g2 i hi e
  rw [c3]
  have key : ∀ q : Point, ((Geodetic.Coordinates.make (some s)).ecefToLla q).lon = lon.getD i 0 →
      ∃ lt, (some q).map (fun q => (((Geodetic.Coordinates.make (some s)).ecefToLla q).lon,
        ((Geodetic.Coordinates.make (some s)).ecefToLla q).lat)) = some (lon.getD i 0, lt) :=
    fun q hq => ⟨_, by rw [← hq]; rfl⟩
  apply key
  rw [llaToEcef_eq bits hb]
  unfold Geodetic.Coordinates.ecefToLla
  dsimp only
  have hN := normalRadius_pos hv (lat.getD i 0)
  exact atan2d_unique _ _ (c * ((normalRadius s (lat.getD i 0) + height) * cos (lat.getD i 0 * π / 180))) _
    (mul_pos (by linarith) (mul_pos (by linarith) (cos_lat_pos l3 l4))) l1 l2 (by ring) (by ring)

/-- C88. On a sphere the result at the date of a sample is the sample. -/
theorem C88_sphere (bits : Nat) (hb : 3 ≤ bits) (same : Nat → Nat → Bool) (junk : Nat → Nat → ℝ) (R : ℝ) (hR : 0 < R)
    (lon lat xp xi l : List ℝ) (height : ℝ) (hh : 0 ≤ height) (half : Nat)
    (hlen : lon.length = lat.length) (hxl : lon.length = xp.length) (h4 : 4 ≤ xp.length) (hw : 3 ≤ half)
    (hxp : xp.Pairwise (· < ·)) (a : Axis ℝ)
    (ha : mkAxis false (xp.map fun v => v - xp.getD 0 0) (1 / 1000000) false = .ok a) (hl : Spec.Coordinates a l) :
    ∃ r, interpolate bits same junk (Geodetic.Coordinates.make (some ⟨R, 0⟩)) lon lat xp xi height half = .ok r ∧
      r.length = xi.length ∧
      ∀ k (h : k < xi.length) (h' : k < r.length), ∀ i (hi : i < l.length), xi[k] - xp.getD 0 0 = l[i] →
        -180 < lon.getD i 0 → lon.getD i 0 ≤ 180 → -90 < lat.getD i 0 → lat.getD i 0 < 90 →
        r[k] = some (lon.getD i 0, lat.getD i 0) := by
  have hv : (⟨R, 0⟩ : Spheroid).Valid := ⟨hR, by norm_num⟩
  obtain ⟨r, h1, h2, h3⟩ := C88_points bits hb same junk ⟨R, 0⟩ hv le_rfl lon lat xp xi l height hh half hlen hxl h4 hw
    hxp a ha hl
  refine ⟨_, bindOk h1, by simpa using h2, ?_⟩
  intro k h h' i hi e l1 l2 l3 l4
  obtain ⟨c, c1, c2, c3⟩ := (h3 k h (by omega)).2 i hi e
  simp only [List.getElem_map]
  rw [c3, c2 rfl]
  simp only [one_mul, sub_zero, mul_one]
  have := C72_sphere bits hb R hR ⟨lon.getD i 0, lat.getD i 0, height⟩ l3 l4 l1 l2 (by simpa using by linarith)
  show some (_, _) = some (_, _)
  rw [show (⟨(Geodetic.Coordinates.llaToEcef bits (Geodetic.Coordinates.make (some ⟨R, 0⟩)) ⟨lon.getD i 0, lat.getD i 0, height⟩).x,
      (Geodetic.Coordinates.llaToEcef bits (Geodetic.Coordinates.make (some ⟨R, 0⟩)) ⟨lon.getD i 0, lat.getD i 0, height⟩).y,
      (Geodetic.Coordinates.llaToEcef bits (Geodetic.Coordinates.make (some ⟨R, 0⟩)) ⟨lon.getD i 0, lat.getD i 0, height⟩).z⟩ : Point) =
      Geodetic.Coordinates.llaToEcef bits (Geodetic.Coordinates.make (some ⟨R, 0⟩)) ⟨lon.getD i 0, lat.getD i 0, height⟩ from rfl, this]

/-- Finding (C88): on a flattened spheroid the point computed at the date of a sample, between the equator and a pole, is not a point of
the latitude of this sample, whatever the altitude: the third coordinate is divided by `a / b` at the end without having been multiplied
by it at the beginning. -/
theorem C88_latitude_false (bits : Nat) (hb : 3 ≤ bits) (s : Spheroid) (hv : s.Valid) (hf : 0 < s.f) (lon lat height c : ℝ)
    (hh : 0 ≤ height) (hc : 1 ≤ c) (h1 : -90 < lat) (h2 : lat < 90) (h0 : lat ≠ 0) (lon' alt' : ℝ) (ha' : -s.a < alt') :
    (Geodetic.Coordinates.make (some s)).llaToEcef bits ⟨lon', lat, alt'⟩ ≠
      ⟨c * ((Geodetic.Coordinates.make (some s)).llaToEcef bits ⟨lon, lat, height⟩).x,
       c * ((Geodetic.Coordinates.make (some s)).llaToEcef bits ⟨lon, lat, height⟩).y,
       c * ((Geodetic.Coordinates.make (some s)).llaToEcef bits ⟨lon, lat, height⟩).z * (1 - s.f)⟩ := by
  intro h
  rw [llaToEcef_eq bits hb, llaToEcef_eq bits hb] at h
  simp only [Point.mk.injEq] at h
  obtain ⟨e1, e2, e3⟩ := h
  have hN := normalRadius_pos hv lat
  have hNa := normalRadius_ge hv hf.le lat
  set N := normalRadius s lat
  have hcl := cos_lat_pos h1 h2
  have hsl : sin (lat * π / 180) ≠ 0 := by
    have hpi := pi_pos
    intro hs
    rw [Real.sin_eq_zero_iff_of_lt_of_lt (by linarith [mul_pos hpi (show 0 < lat + 90 by linarith)])
      (by linarith [mul_pos hpi (show 0 < 90 - lat by linarith)])] at hs
    apply h0
    have : lat * π = 0 := by linarith
    rcases mul_eq_zero.mp this with h | h
    · exact h
    · exact absurd h hpi.ne'
  set cl := cos (lat * π / 180)
  set sl := sin (lat * π / 180)
  have p1 := sin_sq_add_cos_sq (lon * π / 180)
  have p2 := sin_sq_add_cos_sq (lon' * π / 180)
  have hsq : ((N + alt') * cl) ^ 2 = (c * ((N + height) * cl)) ^ 2 := by
    set c1 := cos (lon * π / 180); set s1 := sin (lon * π / 180); set c2 := cos (lon' * π / 180); set s2 := sin (lon' * π / 180)
    have q1 : ((N + alt') * cl * c2) ^ 2 = (c * ((N + height) * cl * c1)) ^ 2 := by rw [e1]
    have q2 : ((N + alt') * cl * s2) ^ 2 = (c * ((N + height) * cl * s1)) ^ 2 := by rw [e2]
    linear_combination q1 + q2 - ((N + alt') * cl) ^ 2 * p2 + (c * ((N + height) * cl)) ^ 2 * p1
  have hA : N + alt' = c * (N + height) := by
    have := (sq_eq_sq₀ (mul_nonneg (by linarith) hcl.le) (mul_nonneg (by linarith) (mul_nonneg (by linarith) hcl.le))).mp hsq
    apply mul_right_cancel₀ hcl.ne'
    linarith
  have hB : N * (1 - s.e2) + alt' = c * (N * (1 - s.e2) + height) * (1 - s.f) := by
    apply mul_right_cancel₀ hsl
    linarith
  rw [Spheroid.e2_eq hv] at hB
  have hf1 := hv.2
  have key : N * (1 - (1 - s.f) ^ 2) = c * (N * (1 - (1 - s.f) ^ 3) + height * s.f) := by
    linear_combination hA - hB
  have hlt : N * (1 - (1 - s.f) ^ 2) < N * (1 - (1 - s.f) ^ 3) := by
    have : 0 < (1 - s.f) ^ 2 * s.f := mul_pos (pow_pos (by linarith) 2) hf
    nlinarith
  have hX : 0 ≤ N * (1 - (1 - s.f) ^ 3) + height * s.f := by
    have h3 : (1 - s.f) ^ 3 ≤ 1 := pow_le_one₀ (by linarith) (by linarith)
    have := mul_nonneg hN.le (show 0 ≤ 1 - (1 - s.f) ^ 3 by linarith)
    have := mul_nonneg hh hf.le
    linarith
  nlinarith [mul_nonneg hh hf.le, mul_le_mul_of_nonneg_right hc hX]

/-- Five samples of an orbit on WGS84 with the dates 10, 11, 12, 14, 15: the hypotheses hold. -/
example : Spheroid.wgs84.Valid ∧ 0 < Spheroid.wgs84.f ∧ ∃ (a : Axis ℝ) (l : List ℝ),
    mkAxis false (([10, 11, 12, 14, 15] : List ℝ).map fun v => v - ([10, 11, 12, 14, 15] : List ℝ).getD 0 0) (1 / 1000000) false = .ok a ∧
    Spec.Coordinates a l ∧ ([10, 11, 12, 14, 15] : List ℝ).Pairwise (· < ·) := by
  have hs : ([10, 11, 12, 14, 15] : List ℝ).Pairwise (· < ·) := by norm_num
  refine ⟨by simp only [Spheroid.Valid, Spheroid.wgs84]; norm_num, by simp only [Spheroid.wgs84]; norm_num, ?_⟩
  obtain ⟨a, ha⟩ := (C02_axis_accepts_iff_monotone (([10, 11, 12, 14, 15] : List ℝ).map fun v => v - ([10, 11, 12, 14, 15] : List ℝ).getD 0 0)
    (1 / 1000000) (by norm_num) (by norm_num)).mpr ⟨by simp, Or.inl (by norm_num)⟩
  obtain ⟨l, hl⟩ := C02_coordinates_exist a (.values _ _ false a (by norm_num) ha)
  exact ⟨a, l, ha, hl, hs⟩

end Pyinterp
