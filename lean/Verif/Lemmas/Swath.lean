import Verif.Model.Swath
import Verif.Spec.Swath
import Verif.Props.C72_EcefToLla

/-
Lemmas for the swath: the rotation matrix is the rotation of Rodrigues.
-/
namespace Pyinterp
open Real Pyinterp.RTree Pyinterp.Geodetic Pyinterp.Swath Pyinterp.Spec

/-- Rodrigues: `v` turned around the unit vector `u`. -/
noncomputable def rodrigues (u v : Point) (t : ℝ) : Point :=
  let d := dot3 u v
  let w := cross3 u v
  ⟨cos t * v.x + sin t * w.x + (1 - cos t) * d * u.x, cos t * v.y + sin t * w.y + (1 - cos t) * d * u.y,
   cos t * v.z + sin t * w.z + (1 - cos t) * d * u.z⟩

theorem dot3_self_nonneg (p : Point) : 0 ≤ dot3 p p := by
  unfold dot3; nlinarith [mul_self_nonneg p.x, mul_self_nonneg p.y, mul_self_nonneg p.z]

theorem rotation_eq (u v : Point) (t : ℝ) :
    (toRotationMatrix (-t) ⟨-u.x, -u.y, -u.z⟩).mul v = rodrigues u v t := by
  unfold toRotationMatrix Mat3.mul rodrigues dot3 cross3
  simp only [sin_neg, cos_neg, Point.mk.injEq]
  refine ⟨by ring, by ring, by ring⟩

theorem rotation_transpose_eq (u v : Point) (t : ℝ) :
    (toRotationMatrix (-t) ⟨-u.x, -u.y, -u.z⟩).transpose.mul v = rodrigues u v (-t) := by
  unfold toRotationMatrix Mat3.transpose Mat3.mul rodrigues dot3 cross3
  simp only [sin_neg, cos_neg, Point.mk.injEq]
  refine ⟨by ring, by ring, by ring⟩

/-- The rotation around the unit vector of a positive multiple of `dir`. -/
theorem rodrigues_turned (u v dir : Point) (L t : ℝ) (hL : 0 < L) (hu : dot3 u u = 1)
    (hd : dir = ⟨L * u.x, L * u.y, L * u.z⟩) : TurnedRight v dir t (rodrigues u v t) := by
  have hlen : len3 dir = L := by
    unfold len3
    rw [show dot3 dir dir = L ^ 2 by subst hd; unfold dot3 at *; linear_combination L ^ 2 * hu]
    exact Real.sqrt_sq hL.le
  have hsc := sin_sq_add_cos_sq t
  set s := sin t
  set c := cos t
  have e : rodrigues u v t = ⟨c * v.x + s * (u.y * v.z - u.z * v.y) + (1 - c) * dot3 u v * u.x,
      c * v.y + s * (u.z * v.x - u.x * v.z) + (1 - c) * dot3 u v * u.y,
      c * v.z + s * (u.x * v.y - u.y * v.x) + (1 - c) * dot3 u v * u.z⟩ := rfl
  rw [e]
  subst hd
  unfold dot3 at hu
  refine ⟨?_, ?_, ?_, ?_⟩
  · unfold dot3
    dsimp only
    have hs2 : s ^ 2 = 1 - c ^ 2 := by linarith
    have key : (u.y * v.z - u.z * v.y) ^ 2 + (u.z * v.x - u.x * v.z) ^ 2 + (u.x * v.y - u.y * v.x) ^ 2 =
        (v.x * v.x + v.y * v.y + v.z * v.z) - (u.x * v.x + u.y * v.y + u.z * v.z) ^ 2 := by
      linear_combination (v.x * v.x + v.y * v.y + v.z * v.z) * hu
    have := key
    linear_combination (s ^ 2) * key + ((v.x * v.x + v.y * v.y + v.z * v.z) - (u.x * v.x + u.y * v.y + u.z * v.z) ^ 2) * hs2 +
      (1 - c) ^ 2 * (u.x * v.x + u.y * v.y + u.z * v.z) ^ 2 * hu
  · unfold dot3
    dsimp only
    linear_combination L * (1 - c) * (u.x * v.x + u.y * v.y + u.z * v.z) * hu
  · unfold dot3
    dsimp only
    linear_combination (1 - c) * (u.x * v.x + u.y * v.y + u.z * v.z) ^ 2 * L ^ 2 * hu
  · rw [hlen]
    unfold dot3 cross3
    dsimp only
    linear_combination 0 * hu

/-- The vector is a positive multiple of its normalised vector, which has length one. -/
theorem normalized_spec (d : Point) (h : 0 < dot3 d d) :
    dot3 (normalized d) (normalized d) = 1 ∧
    d = ⟨len3 d * (normalized d).x, len3 d * (normalized d).y, len3 d * (normalized d).z⟩ ∧ 0 < len3 d := by
  have hL : 0 < √(dot3 d d) := Real.sqrt_pos.mpr h
  have hn : normalized d = ⟨d.x / √(dot3 d d), d.y / √(dot3 d d), d.z / √(dot3 d d)⟩ := by
    unfold normalized
    dsimp only
    exact if_pos h
  rw [hn]
  have hsq : √(dot3 d d) * √(dot3 d d) = dot3 d d := Real.mul_self_sqrt h.le
  refine ⟨?_, ?_, hL⟩
  · generalize √(dot3 d d) = r at *
    unfold dot3 at *
    dsimp only
    rw [div_mul_div_comm, div_mul_div_comm, div_mul_div_comm, hsq, ← add_div, ← add_div]
    exact div_self h.ne'
  · unfold len3
    cases d
    simp only [Point.mk.injEq]
    refine ⟨?_, ?_, ?_⟩ <;> field_simp

/-- The two pixels of a step are the nadir point turned to the right and to the left. -/
theorem pixels_turned (loc dir : Point) (radius delta gap : ℝ) (j : Nat) (h : 0 < dot3 dir dir) :
    TurnedRight loc dir (((j : ℝ) * delta + gap) / radius) (pixels loc dir radius delta gap j).1 ∧
    TurnedRight loc dir (-(((j : ℝ) * delta + gap) / radius)) (pixels loc dir radius delta gap j).2 := by
  obtain ⟨h1, h2, h3⟩ := normalized_spec dir h
  unfold pixels rotationMatrix
  dsimp only
  rw [neg_div, rotation_eq, rotation_transpose_eq]
  exact ⟨rodrigues_turned _ _ _ _ _ h3 h1 h2, rodrigues_turned _ _ _ _ _ h3 h1 h2⟩

/-- The rotation does not depend on the length of the direction. -/
theorem TurnedRight.scale {loc dir q : Point} {t k : ℝ} (hk : 0 < k)
    (h : TurnedRight loc ⟨dir.x / k, dir.y / k, dir.z / k⟩ t q) : TurnedRight loc dir t q := by
  have hd : dot3 dir dir = k ^ 2 * dot3 ⟨dir.x / k, dir.y / k, dir.z / k⟩ ⟨dir.x / k, dir.y / k, dir.z / k⟩ := by
    unfold dot3; field_simp
  have hlen : len3 dir = k * len3 ⟨dir.x / k, dir.y / k, dir.z / k⟩ := by
    unfold len3
    rw [hd, Real.sqrt_mul (by positivity), Real.sqrt_sq hk.le]
  have hc : cross3 dir loc = ⟨k * (cross3 ⟨dir.x / k, dir.y / k, dir.z / k⟩ loc).x,
      k * (cross3 ⟨dir.x / k, dir.y / k, dir.z / k⟩ loc).y, k * (cross3 ⟨dir.x / k, dir.y / k, dir.z / k⟩ loc).z⟩ := by
    unfold cross3
    simp only [Point.mk.injEq]
    refine ⟨?_, ?_, ?_⟩ <;> field_simp
  have hp : ∀ a : Point, dot3 a dir = k * dot3 a ⟨dir.x / k, dir.y / k, dir.z / k⟩ := by
    intro a; unfold dot3; field_simp
  obtain ⟨a1, a2, a3, a4⟩ := h
  set e : Point := ⟨dir.x / k, dir.y / k, dir.z / k⟩
  set m := cross3 e loc
  refine ⟨a1, ?_, ?_, ?_⟩
  · rw [hp, hp, a2]
  · rw [hd, hp]; linear_combination k ^ 2 * a3
  · rw [hlen, hc]
    have e1 : dot3 q ⟨k * m.x, k * m.y, k * m.z⟩ = k * dot3 q m := by unfold dot3; ring
    have e2 : dot3 ⟨k * m.x, k * m.y, k * m.z⟩ ⟨k * m.x, k * m.y, k * m.z⟩ = k ^ 2 * dot3 m m := by unfold dot3; ring
    rw [e1, e2]; linear_combination k ^ 2 * a4

end Pyinterp
