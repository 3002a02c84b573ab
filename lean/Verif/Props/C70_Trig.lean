import Verif.Model.Trig
import Verif.Lemmas.Math
import Mathlib.Tactic.IntervalCases

/-
C70. The trigonometric functions in degrees used by all the geodetic conversions: for every angle,
however large, sind, cosd and sincosd are the sine and the cosine of the angle; for every point,
atan2d is its argument in degrees.
-/
set_option linter.unusedVariables false
namespace Pyinterp.Trig
open Real Pyinterp.Math

theorem bit0_eq (q : Int) : bit0 q = decide (q % 2 = 1) := by
  unfold bit0
  rw [BitVec.getLsbD, BitVec.toNat_ofInt, Nat.testBit_eq_decide_div_mod_eq]
  apply decide_eq_decide.2
  constructor <;> intro h <;> omega

theorem bit1_eq (q : Int) : bit1 q = decide (2 ≤ q % 4) := by
  unfold bit1
  rw [BitVec.getLsbD, BitVec.toNat_ofInt, Nat.testBit_eq_decide_div_mod_eq]
  apply decide_eq_decide.2
  constructor <;> intro h <;> omega

/-- The quotient kept by `remquo` agrees with the true one modulo 8. -/
theorem quo_mod (bits : Nat) (hb : 3 ≤ bits) (x y : ℝ) : (remquo bits x y).2 % 8 = rint (x / y) % 8 := by
  unfold remquo
  dsimp only
  generalize rint (x / y) = n
  obtain ⟨m, rfl⟩ : ∃ m, bits = m + 3 := ⟨bits - 3, by omega⟩
  have h8 : n.natAbs % 2 ^ (m + 3) % 8 = n.natAbs % 8 := by
    apply Nat.mod_mod_of_dvd
    exact ⟨2 ^ m, by rw [pow_add]; ring⟩
  rcases lt_trichotomy n 0 with h | h | h
  · rw [Int.sign_eq_neg_one_of_neg h]; omega
  · subst h; simp
  · rw [Int.sign_eq_one_of_pos h]; omega

theorem sin_cos_add (a : ℝ) (n : Int) :
    (n % 4 = 0 → sin (a + n * (π / 2)) = sin a ∧ cos (a + n * (π / 2)) = cos a) ∧
    (n % 4 = 1 → sin (a + n * (π / 2)) = cos a ∧ cos (a + n * (π / 2)) = -sin a) ∧
    (n % 4 = 2 → sin (a + n * (π / 2)) = -sin a ∧ cos (a + n * (π / 2)) = -cos a) ∧
    (n % 4 = 3 → sin (a + n * (π / 2)) = -cos a ∧ cos (a + n * (π / 2)) = sin a) := by
  have key : ∀ j : Int, n % 4 = j → a + n * (π / 2) = (a + j * (π / 2)) + (n / 4 : Int) * (2 * π) := by
    intro j hj
    have : (n : ℝ) = (j : ℝ) + 4 * ((n / 4 : Int) : ℝ) := by
      have : n = j + 4 * (n / 4) := by omega
      exact_mod_cast this
    rw [this]
    have : ((j : ℝ) + 4 * ((n / 4 : Int) : ℝ)) = n := this.symm
    ring
  refine ⟨fun h => ?_, fun h => ?_, fun h => ?_, fun h => ?_⟩ <;>
    rw [key _ h, sin_add_int_mul_two_pi, cos_add_int_mul_two_pi]
  · simp
  · have : a + ((1 : Int) : ℝ) * (π / 2) = a + π / 2 := by push_cast; ring
    rw [this, sin_add_pi_div_two, cos_add_pi_div_two]; exact ⟨rfl, rfl⟩
  · have : a + ((2 : Int) : ℝ) * (π / 2) = a + π := by push_cast; ring
    rw [this, sin_add_pi, cos_add_pi]; exact ⟨rfl, rfl⟩
  · have : a + ((3 : Int) : ℝ) * (π / 2) = (a + π / 2) + π := by push_cast; ring
    rw [this, sin_add_pi, cos_add_pi, sin_add_pi_div_two, cos_add_pi_div_two]; simp

theorem angle_split (bits : Nat) (x : ℝ) :
    x * π / 180 = radians (remquo bits x 90).1 + (rint (x / 90) : ℝ) * (π / 2) := by
  unfold remquo radians
  dsimp only
  ring

/-- **C70** `sincosd(x)` is the sine and the cosine of the angle of `x` degrees, for every `x` and whatever the number of bits
of the quotient (at least 3) the C++ library keeps. -/
theorem C70_sincosd (bits : Nat) (hb : 3 ≤ bits) (x : ℝ) :
    sincosd bits x = (sin (x * π / 180), cos (x * π / 180)) := by
  have hq := quo_mod bits hb x 90
  rw [angle_split bits]
  unfold sincosd
  dsimp only
  rw [bit0_eq, bit1_eq]
  set q := (remquo bits x 90).2
  set a := radians (remquo bits x 90).1
  set n := rint (x / 90)
  obtain ⟨h0, h1, h2, h3⟩ := sin_cos_add a n
  have hn : n % 4 = 0 ∨ n % 4 = 1 ∨ n % 4 = 2 ∨ n % 4 = 3 := by omega
  rcases hn with h | h | h | h
  · obtain ⟨hs, hc⟩ := h0 h
    have e1 : decide (2 ≤ q % 4) = false := by simp; omega
    have e2 : decide (q % 2 = 1) = false := by simp; omega
    rw [e1, e2, hs, hc]
  · obtain ⟨hs, hc⟩ := h1 h
    have e1 : decide (2 ≤ q % 4) = false := by simp; omega
    have e2 : decide (q % 2 = 1) = true := by simp; omega
    rw [e1, e2, hs, hc]
  · obtain ⟨hs, hc⟩ := h2 h
    have e1 : decide (2 ≤ q % 4) = true := by simp; omega
    have e2 : decide (q % 2 = 1) = false := by simp; omega
    rw [e1, e2, hs, hc]
  · obtain ⟨hs, hc⟩ := h3 h
    have e1 : decide (2 ≤ q % 4) = true := by simp; omega
    have e2 : decide (q % 2 = 1) = true := by simp; omega
    rw [e1, e2, hs, hc]

/-- **C70** `sind(x)` is the sine of the angle of `x` degrees. -/
theorem C70_sind (bits : Nat) (hb : 3 ≤ bits) (x : ℝ) : sind bits x = sin (x * π / 180) := by
  have hq := quo_mod bits hb x 90
  rw [angle_split bits]
  unfold sind
  dsimp only
  rw [bit0_eq, bit1_eq]
  set q := (remquo bits x 90).2
  set a := radians (remquo bits x 90).1
  set n := rint (x / 90)
  obtain ⟨h0, h1, h2, h3⟩ := sin_cos_add a n
  have hn : n % 4 = 0 ∨ n % 4 = 1 ∨ n % 4 = 2 ∨ n % 4 = 3 := by omega
  rcases hn with h | h | h | h
  · rw [(h0 h).1, if_neg (by simp; omega), if_neg (by simp; omega)]
  · rw [(h1 h).1, if_neg (by simp; omega), if_pos (by simp; omega)]
  · rw [(h2 h).1, if_pos (by simp; omega), if_neg (by simp; omega)]
  · rw [(h3 h).1, if_pos (by simp; omega), if_pos (by simp; omega)]

/-- **C70** `cosd(x)` is the cosine of the angle of `x` degrees. -/
theorem C70_cosd (bits : Nat) (hb : 3 ≤ bits) (x : ℝ) : cosd bits x = cos (x * π / 180) := by
  have hq := quo_mod bits hb x 90
  rw [angle_split bits]
  unfold cosd
  dsimp only
  rw [bit0_eq, bit1_eq]
  set q := (remquo bits x 90).2
  set a := radians (remquo bits x 90).1
  set n := rint (x / 90)
  obtain ⟨h0, h1, h2, h3⟩ := sin_cos_add a n
  have hn : n % 4 = 0 ∨ n % 4 = 1 ∨ n % 4 = 2 ∨ n % 4 = 3 := by omega
  rcases hn with h | h | h | h
  · rw [(h0 h).2, if_neg (by simp; omega), if_pos (by simp; omega)]
  · rw [(h1 h).2, if_pos (by simp; omega), if_neg (by simp; omega)]
  · rw [(h2 h).2, if_pos (by simp; omega), if_pos (by simp; omega)]
  · rw [(h3 h).2, if_neg (by simp; omega), if_neg (by simp; omega)]

/-- **C70** `tand(x)` is the tangent of the angle of `x` degrees, infinite where the cosine is zero. -/
theorem C70_tand (bits : Nat) (hb : 3 ≤ bits) (x : ℝ) :
    tand bits x = if cos (x * π / 180) = 0 then none else some (tan (x * π / 180)) := by
  unfold tand
  dsimp only
  rw [C70_sincosd bits hb]
  by_cases h : cos (x * π / 180) = 0
  · simp [h]
  · simp [h, tan_eq_sin_div_cos]

/-- The two smallest cases of a non-trivial reduction: 450 degrees and -120 degrees. -/
example : sind 3 450 = 1 := by
  rw [C70_sind 3 (le_refl _)]
  have : (450 : ℝ) * π / 180 = π / 2 + (1 : ℕ) * (2 * π) := by push_cast; ring
  rw [this, sin_add_nat_mul_two_pi, sin_pi_div_two]

example : cosd 3 (-120) = -(1 / 2) := by
  rw [C70_cosd 3 (le_refl _)]
  have : (-120 : ℝ) * π / 180 = -(π - π / 3) := by ring
  rw [this, cos_neg, cos_pi_sub, cos_pi_div_three]

/-! ### atan2d -/

theorem arg_degrees_unique (r θ : ℝ) (hr : 0 < r) (h1 : -180 < θ) (h2 : θ ≤ 180) :
    degrees (Complex.arg ⟨r * cos (θ * π / 180), r * sin (θ * π / 180)⟩) = θ := by
  have hpi := pi_pos
  have hz : (⟨r * cos (θ * π / 180), r * sin (θ * π / 180)⟩ : ℂ) =
      r * (Complex.cos ((θ * π / 180 : ℝ) : ℂ) + Complex.sin ((θ * π / 180 : ℝ) : ℂ) * Complex.I) := by
    rw [← Complex.ofReal_cos, ← Complex.ofReal_sin]
    generalize cos (θ * π / 180) = c
    generalize sin (θ * π / 180) = s
    apply Complex.ext <;> simp
  rw [hz, Complex.arg_mul_cos_add_sin_mul_I hr]
  · unfold degrees; field_simp
  · constructor
    · rw [lt_div_iff₀ (by norm_num)]; nlinarith
    · rw [div_le_iff₀ (by norm_num)]; nlinarith

theorem polar (X Y : ℝ) (hX : 0 < X) :
    |atan2 Y X| < π / 2 ∧ (0 ≤ atan2 Y X ↔ 0 ≤ Y) ∧
    ∃ r > 0, X = r * cos (atan2 Y X) ∧ Y = r * sin (atan2 Y X) := by
  unfold atan2
  have hz : (⟨X, Y⟩ : ℂ) ≠ 0 := by
    intro h
    have := congrArg Complex.re h
    simp at this
    linarith
  refine ⟨Complex.abs_arg_lt_pi_div_two_iff.2 (Or.inl hX), Complex.arg_nonneg_iff, ‖(⟨X, Y⟩ : ℂ)‖, norm_pos_iff.2 hz, ?_, ?_⟩
  · exact (Complex.norm_mul_cos_arg ⟨X, Y⟩).symm
  · exact (Complex.norm_mul_sin_arg ⟨X, Y⟩).symm

theorem radians_degrees (a : ℝ) : degrees a * π / 180 = a := by
  have := pi_pos
  unfold degrees
  field_simp

theorem degrees_bounds {a : ℝ} (h : |a| < π / 2) : -90 < degrees a ∧ degrees a < 90 := by
  have hpi := pi_pos
  obtain ⟨h1, h2⟩ := abs_lt.1 h
  unfold degrees
  constructor
  · rw [lt_div_iff₀ hpi]; linarith
  · rw [div_lt_iff₀ hpi]; linarith

theorem degrees_nonneg_iff (a : ℝ) : 0 ≤ degrees a ↔ 0 ≤ a := by
  have hpi := pi_pos
  unfold degrees
  rw [le_div_iff₀ hpi]
  constructor <;> intro h <;> linarith

/-- **C70** For every point other than the origin, `atan2d(y, x)` is the angle `θ` in degrees, in `(-180, 180]`, such that
`(x, y) = r (cos θ, sin θ)` for some `r > 0`. -/
theorem C70_atan2d (x y : ℝ) (h : x ≠ 0 ∨ y ≠ 0) :
    -180 < atan2d y x ∧ atan2d y x ≤ 180 ∧
    ∃ r > 0, x = r * cos (atan2d y x * π / 180) ∧ y = r * sin (atan2d y x * π / 180) := by
  unfold atan2d
  dsimp only
  by_cases hs : |y| > |x|
  · simp only [hs, if_true]
    have hy : y ≠ 0 := by
      rintro rfl
      simp at hs
      exact absurd hs (not_lt.2 (abs_nonneg x))
    by_cases hn : y < 0
    · simp only [hn, if_true]
      obtain ⟨p1, p2, r, hr, pX, pY⟩ := polar (-y) x (by linarith)
      obtain ⟨b1, b2⟩ := degrees_bounds p1
      set d := degrees (atan2 x (-y)) with hd
      have e : quadrantAngle (2 + 1) x d = -90 + d := rfl
      have ea : (-90 + d) * π / 180 = atan2 x (-y) - π / 2 := by
        have := radians_degrees (atan2 x (-y))
        rw [← hd] at this
        linarith
      rw [e, ea, cos_sub_pi_div_two, sin_sub_pi_div_two]
      exact ⟨by linarith, by linarith, r, hr, pY, by linarith⟩
    · simp only [hn, if_false]
      obtain ⟨p1, p2, r, hr, pX, pY⟩ := polar y x (lt_of_le_of_ne (not_lt.1 hn) hy.symm)
      obtain ⟨b1, b2⟩ := degrees_bounds p1
      set d := degrees (atan2 x y) with hd
      have e : quadrantAngle 2 x d = 90 - d := rfl
      have ea : (90 - d) * π / 180 = π / 2 - atan2 x y := by
        have := radians_degrees (atan2 x y)
        rw [← hd] at this
        linarith
      rw [e, ea, cos_pi_div_two_sub, sin_pi_div_two_sub]
      exact ⟨by linarith, by linarith, r, hr, pY, pX⟩
  · simp only [hs, if_false]
    have hx : x ≠ 0 := by
      rintro rfl
      rcases h with h | h
      · exact h rfl
      · apply hs; simpa using h
    by_cases hn : x < 0
    · simp only [hn, if_true]
      obtain ⟨p1, p2, r, hr, pX, pY⟩ := polar (-x) y (by linarith)
      obtain ⟨b1, b2⟩ := degrees_bounds p1
      have hnn := degrees_nonneg_iff (atan2 y (-x))
      set d := degrees (atan2 y (-x)) with hd
      have hrd := radians_degrees (atan2 y (-x))
      rw [← hd] at hrd
      have e : quadrantAngle (0 + 1) y d = (if y ≥ 0 then 180 else -180) - d := rfl
      rw [e]
      by_cases hy : y ≥ 0
      · have h0 : 0 ≤ d := hnn.2 (p2.2 hy)
        rw [if_pos hy]
        have ea : (180 - d) * π / 180 = π - atan2 y (-x) := by linarith
        rw [ea, cos_pi_sub, sin_pi_sub]
        exact ⟨by linarith, by linarith, r, hr, by linarith, pY⟩
      · have h0 : ¬ 0 ≤ d := fun hc => hy (p2.1 (hnn.1 hc))
        rw [if_neg hy]
        have ea : (-180 - d) * π / 180 = -(atan2 y (-x) + π) := by linarith
        rw [ea, cos_neg, sin_neg, cos_add_pi, sin_add_pi]
        exact ⟨by linarith, by linarith, r, hr, by linarith, by linarith⟩
    · simp only [hn, if_false]
      obtain ⟨p1, p2, r, hr, pX, pY⟩ := polar x y (lt_of_le_of_ne (not_lt.1 hn) hx.symm)
      obtain ⟨b1, b2⟩ := degrees_bounds p1
      have e : quadrantAngle 0 y (degrees (atan2 y x)) = degrees (atan2 y x) := rfl
      rw [e, radians_degrees]
      exact ⟨by linarith, by linarith, r, hr, pX, pY⟩

/-- The angle of a point is unique. -/
theorem atan2d_unique (x y r θ : ℝ) (hr : 0 < r) (h1 : -180 < θ) (h2 : θ ≤ 180) (hx : x = r * cos (θ * π / 180))
    (hy : y = r * sin (θ * π / 180)) : atan2d y x = θ := by
  have hne : x ≠ 0 ∨ y ≠ 0 := by
    by_contra hc
    push Not at hc
    have := sin_sq_add_cos_sq (θ * π / 180)
    have h3 : cos (θ * π / 180) = 0 := by
      have := hc.1; rw [hx] at this
      rcases mul_eq_zero.1 this with h | h
      · linarith
      · exact h
    have h4 : sin (θ * π / 180) = 0 := by
      have := hc.2; rw [hy] at this
      rcases mul_eq_zero.1 this with h | h
      · linarith
      · exact h
    rw [h3, h4] at this
    norm_num at this
  obtain ⟨a1, a2, r', hr', ex, ey⟩ := C70_atan2d x y hne
  have u1 := arg_degrees_unique r θ hr h1 h2
  have u2 := arg_degrees_unique r' (atan2d y x) hr' a1 a2
  rw [← hx, ← hy] at u1
  rw [← ex, ← ey] at u2
  rw [← u1, ← u2]

/-- **C70** `atan2d` inverts `sincosd`: the angle brought back to `(-180, 180]`. -/
theorem C70_atan2d_sincosd (bits : Nat) (hb : 3 ≤ bits) (x : ℝ) (h1 : -180 < x) (h2 : x ≤ 180) :
    atan2d (sincosd bits x).1 (sincosd bits x).2 = x := by
  rw [C70_sincosd bits hb]
  exact atan2d_unique _ _ 1 x one_pos h1 h2 (by simp) (by simp)

/-- `atan2d(0, 0)` is 0. -/
theorem C70_atan2d_origin : atan2d 0 0 = 0 := by
  simp [atan2d, quadrantAngle, atan2, degrees, show (⟨0, 0⟩ : ℂ) = 0 from rfl]

/-- The hypothesis is met: the point (-1, -1) is at -135 degrees. -/
example : atan2d (-1) (-1) = -135 := by
  apply atan2d_unique (-1) (-1) (√2) (-135) (by positivity) (by norm_num) (by norm_num)
  · have : (-135 : ℝ) * π / 180 = -(π - π / 4) := by ring
    rw [this, cos_neg, cos_pi_sub, cos_pi_div_four]
    have := Real.mul_self_sqrt (show (0 : ℝ) ≤ 2 by norm_num)
    linarith
  · have : (-135 : ℝ) * π / 180 = -(π - π / 4) := by ring
    rw [this, sin_neg, sin_pi_sub, sin_pi_div_four]
    have := Real.mul_self_sqrt (show (0 : ℝ) ≤ 2 by norm_num)
    linarith

/-- **C70** `atand(x)` is the angle, in degrees and in ]-90, 90[, of which the tangent is `x`. -/
theorem C70_atand (x : ℝ) : -90 < atand x ∧ atand x < 90 ∧ tan (atand x * π / 180) = x := by
  obtain ⟨h1, h2, r, hr, hx, hy⟩ := C70_atan2d 1 x (Or.inl one_ne_zero)
  change -180 < atand x at h1
  change atand x ≤ 180 at h2
  change 1 = r * cos (atand x * π / 180) at hx
  change x = r * sin (atand x * π / 180) at hy
  have hpi := pi_pos
  have hc : 0 < cos (atand x * π / 180) := by
    by_contra hc
    nlinarith
  refine ⟨?_, ?_, ?_⟩
  · by_contra hh
    have : cos (-(atand x * π / 180)) ≤ 0 := cos_nonpos_of_pi_div_two_le_of_le (by nlinarith) (by nlinarith)
    rw [cos_neg] at this
    linarith
  · by_contra hh
    have : cos (atand x * π / 180) ≤ 0 := cos_nonpos_of_pi_div_two_le_of_le (by nlinarith) (by nlinarith)
    linarith
  · rw [tan_eq_sin_div_cos, div_eq_iff hc.ne', eq_comm]
    have hr1 : r * cos (atand x * π / 180) = 1 := hx.symm
    nth_rewrite 1 [hy]
    rw [mul_right_comm, hr1, one_mul]

end Pyinterp.Trig
