import Verif.Model.Geodetic
import Verif.Props.C70_Trig

/-
Lemmas on the geodetic coordinates.
-/
set_option linter.unusedVariables false
namespace Pyinterp.Geodetic
open Real Pyinterp.Trig Pyinterp.RTree

/-- The spheroids considered: positive axes. -/
def Spheroid.Valid (s : Spheroid) : Prop := 0 < s.a ∧ s.f < 1

theorem Spheroid.Valid.b_pos {s : Spheroid} (h : s.Valid) : 0 < s.b := by
  unfold Spheroid.b
  exact mul_pos h.1 (by linarith [h.2])

theorem Spheroid.e2_eq {s : Spheroid} (h : s.Valid) : s.e2 = 1 - (1 - s.f) ^ 2 := by
  have := h.1
  unfold Spheroid.e2 Spheroid.b
  dsimp only
  field_simp

theorem Spheroid.g_pos {s : Spheroid} (h : s.Valid) (t : ℝ) : 0 < 1 - s.e2 * (sin t * sin t) := by
  rw [Spheroid.e2_eq h]
  have h1 := sin_sq_add_cos_sq t
  have h2 : 0 < 1 - s.f := by linarith [h.2]
  have : 1 - (1 - (1 - s.f) ^ 2) * (sin t * sin t) = cos t ^ 2 + (1 - s.f) ^ 2 * sin t ^ 2 := by nlinarith
  rw [this]
  rcases eq_or_ne (cos t) 0 with hc | hc
  · have : sin t ^ 2 = 1 := by rw [hc] at h1; linarith
    rw [this]; positivity
  · positivity

/-- The radius of curvature in the prime vertical. -/
noncomputable def normalRadius (s : Spheroid) (lat : ℝ) : ℝ :=
  s.a / √(1 - s.e2 * (sin (lat * π / 180) * sin (lat * π / 180)))

theorem normalRadius_pos {s : Spheroid} (h : s.Valid) (lat : ℝ) : 0 < normalRadius s lat := by
  unfold normalRadius
  have := Spheroid.g_pos h (lat * π / 180)
  have := h.1
  positivity

theorem normalRadius_sq {s : Spheroid} (h : s.Valid) (lat : ℝ) :
    normalRadius s lat ^ 2 * (1 - s.e2 * (sin (lat * π / 180) * sin (lat * π / 180))) = s.a ^ 2 := by
  unfold normalRadius
  have hg := Spheroid.g_pos h (lat * π / 180)
  rw [div_pow, sq_sqrt hg.le, div_mul_cancel₀ _ hg.ne']

theorem llaToEcef_eq (bits : Nat) (hb : 3 ≤ bits) (s : Spheroid) (p : LLA) :
    (Coordinates.make (some s)).llaToEcef bits p =
      ⟨(normalRadius s p.lat + p.alt) * cos (p.lat * π / 180) * cos (p.lon * π / 180),
       (normalRadius s p.lat + p.alt) * cos (p.lat * π / 180) * sin (p.lon * π / 180),
       (normalRadius s p.lat * (1 - s.e2) + p.alt) * sin (p.lat * π / 180)⟩ := by
  unfold Coordinates.llaToEcef
  dsimp only
  rw [C70_sincosd bits hb, C70_sincosd bits hb]
  rfl

/-- The distance to the axis and the height above the equator of a position. -/
theorem ecef_w2 (bits : Nat) (hb : 3 ≤ bits) (s : Spheroid) (p : LLA) :
    let q := (Coordinates.make (some s)).llaToEcef bits p
    q.x * q.x + q.y * q.y = ((normalRadius s p.lat + p.alt) * cos (p.lat * π / 180)) ^ 2 := by
  dsimp only
  rw [llaToEcef_eq bits hb]
  have := sin_sq_add_cos_sq (p.lon * π / 180)
  dsimp only
  linear_combination ((normalRadius s p.lat + p.alt) * cos (p.lat * π / 180)) ^ 2 * this

/-- If the first approximation of the latitude is exact, the correction leaves it as it is and the altitude is exact. -/
theorem correct_exact {s : Spheroid} (h : s.Valid) (lat alt : ℝ) :
    (Coordinates.make (some s)).correct ((normalRadius s lat + alt) * cos (lat * π / 180))
      ((normalRadius s lat * (1 - s.e2) + alt) * sin (lat * π / 180))
      (lat * π / 180, sin (lat * π / 180), cos (lat * π / 180), sin (lat * π / 180) * sin (lat * π / 180)) =
    (lat * π / 180, alt) := by
  unfold Coordinates.correct
  dsimp only
  set t := lat * π / 180
  have hN : (Coordinates.make (some s)).a / √(1 - (Coordinates.make (some s)).e2 * (sin t * sin t)) = normalRadius s lat := rfl
  have h6 : (Coordinates.make (some s)).a6 = 1 - s.e2 := rfl
  rw [hN, h6]
  have h1 := sin_sq_add_cos_sq t
  have hm : cos t * ((normalRadius s lat * (1 - s.e2) + alt) * sin t - (1 - s.e2) * normalRadius s lat * sin t) -
      sin t * ((normalRadius s lat + alt) * cos t - normalRadius s lat * cos t) = 0 := by ring
  have hf : cos t * ((normalRadius s lat + alt) * cos t - normalRadius s lat * cos t) +
      sin t * ((normalRadius s lat * (1 - s.e2) + alt) * sin t - (1 - s.e2) * normalRadius s lat * sin t) = alt := by
    linear_combination alt * h1
  rw [hm, hf]
  simp

end Pyinterp.Geodetic
