import Verif.Model.Math
import Mathlib.Tactic.Ring
import Mathlib.Tactic.Linarith
import Mathlib.Tactic.FieldSimp
import Mathlib.Tactic.Positivity
import Mathlib.Algebra.Order.Round

namespace Pyinterp.Math

theorem remainderI_eq_fmod (x y : Int) (hy : y ≠ 0) : remainderI x y = x.fmod y := by
  unfold remainderI
  simp only
  have h1 := Int.tmod_def x y
  rcases lt_or_gt_of_ne hy with h | h
  · -- y < 0
    rw [Int.fmod_eq_tmod]
    have hdvd := Int.dvd_iff_tmod_eq_zero (a := y) (b := x)
    by_cases hr : x.tmod y = 0
    · have : y ∣ x := hdvd.mpr hr
      simp [hr, this]
    · have hn : ¬ y ∣ x := fun hh => hr (hdvd.mp hh)
      have hsign := Int.tmod_nonneg (b := y) (a := x)
      have hneg : x < 0 → x.tmod y ≤ 0 := fun hx => by
        have := Int.tmod_nonneg (a := -x) y (by omega)
        rw [Int.neg_tmod] at this; omega
      have hyn : ¬ (0 ≤ y) := by omega
      simp only [hr, hn, hyn, ne_eq, not_false_eq_true, true_and, h, decide_true]
      rcases lt_or_ge x 0 with hx | hx
      · have : x.tmod y < 0 := by have := hneg hx; omega
        have hx' : ¬ (0 ≤ x) := by omega
        simp [this, hx']; omega
      · have h2 : ¬ (x.tmod y < 0) := by have := hsign hx; omega
        simp [h2, hx]
  · rw [Int.fmod_eq_tmod]
    have hdvd := Int.dvd_iff_tmod_eq_zero (a := y) (b := x)
    by_cases hr : x.tmod y = 0
    · have : y ∣ x := hdvd.mpr hr
      simp [hr, this]
    · have hn : ¬ y ∣ x := fun hh => hr (hdvd.mp hh)
      have hsign := Int.tmod_nonneg (b := y) (a := x)
      have hneg : x < 0 → x.tmod y ≤ 0 := fun hx => by
        have := Int.tmod_nonneg (a := -x) y (by omega)
        rw [Int.neg_tmod] at this; omega
      have hyn : (0 ≤ y) := by omega
      have hy' : ¬ (y < 0) := by omega
      simp only [hr, hn, hyn, hy', ne_eq, not_false_eq_true, true_and]
      rcases lt_or_ge x 0 with hx | hx
      · have : x.tmod y < 0 := by have := hneg hx; omega
        have hx' : ¬ (0 ≤ x) := by omega
        simp [this, hx']; exact (abs_of_nonneg hyn).symm
      · have h2 : ¬ (x.tmod y < 0) := by have := hsign hx; omega
        simp [h2, hx]

theorem remainderI_eq_emod (x y : Int) (hy : 0 < y) : remainderI x y = x % y := by
  rw [remainderI_eq_fmod x y (by omega), Int.fmod_eq_emod_of_nonneg _ (by omega)]

section
variable {K : Type} [Field K] [LinearOrder K] [IsStrictOrderedRing K] [FloorRing K]

theorem rint_near (q : K) : |q - (rint q : K)| ≤ 1 / 2 := by
  have h1 := Int.floor_le q
  have h2 := Int.lt_floor_add_one q
  unfold rint
  simp only
  rw [abs_le]
  split
  · constructor <;> linarith
  · split
    · push_cast; constructor <;> linarith
    · split
      · constructor <;> linarith
      · push_cast; constructor <;> linarith

theorem remainderF_spec (x y : K) (hy : 0 < y) :
    0 ≤ remainderF x y ∧ remainderF x y < y ∧ ∃ k : ℤ, remainderF x y = x + (k : K) * y := by
  have h := rint_near (x / y)
  rw [abs_le] at h
  have hx : x = (x / y) * y := by field_simp
  have h1 : x - y * (rint (x / y) : K) = (x / y - (rint (x / y) : K)) * y := by
    have : x - y * (rint (x / y) : K) = (x / y) * y - y * (rint (x / y) : K) := by rw [← hx]
    rw [this]; ring
  have hlo : -(1 / 2) * y ≤ x - y * (rint (x / y) : K) := by
    rw [h1]; exact mul_le_mul_of_nonneg_right h.1 hy.le
  have hhi : x - y * (rint (x / y) : K) ≤ (1 / 2) * y := by
    rw [h1]; exact mul_le_mul_of_nonneg_right h.2 hy.le
  unfold remainderF
  simp only
  split
  · rename_i hneg
    refine ⟨by linarith, by linarith, 1 - rint (x / y), ?_⟩
    push_cast; ring
  · rename_i hneg
    refine ⟨by linarith, by linarith, - rint (x / y), ?_⟩
    push_cast; ring

theorem roundAway_near (x : K) : |x - (roundAway x : K)| ≤ 1 / 2 := by
  unfold roundAway
  rw [abs_le]
  split
  · have h1 := Int.floor_le (x + 1 / 2)
    have h2 := Int.lt_floor_add_one (x + 1 / 2)
    constructor <;> linarith
  · have h1 := Int.le_ceil (x - 1 / 2)
    have h2 := Int.ceil_lt_add_one (x - 1 / 2)
    constructor <;> linarith

end
end Pyinterp.Math
