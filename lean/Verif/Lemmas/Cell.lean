import Verif.Spec.Cell
import Mathlib.Algebra.BigOperators.Group.List.Basic
import Mathlib.Algebra.Order.BigOperators.Group.List
import Mathlib.Tactic.Ring
import Mathlib.Tactic.FieldSimp
import Mathlib.Tactic.Linarith
import Mathlib.Tactic.LinearCombination

/-!
Facts about the specification of cells.
-/
namespace Pyinterp.Spec
set_option linter.unusedSectionVars false
set_option linter.unusedVariables false

variable {K : Type} [Field K] [LinearOrder K] [IsStrictOrderedRing K]

theorem zipWith_le (m : K) : ∀ (w qs : List K), w.length = qs.length → (∀ v ∈ w, 0 ≤ v) →
    (∀ q ∈ qs, m ≤ q) → w.sum * m ≤ (List.zipWith (· * ·) w qs).sum
  | [], [], _, _, _ => by simp
  | v :: w, q :: qs, hl, hw, hq => by
    have ih := zipWith_le m w qs (by simpa using hl) (fun v h => hw v (by simp [h]))
      (fun q h => hq q (by simp [h]))
    have h1 := mul_le_mul_of_nonneg_left (hq q (by simp)) (hw v (by simp))
    simp only [List.sum_cons, List.zipWith_cons_cons]
    nlinarith
  | [], _ :: _, h, _, _ => by simp at h
  | _ :: _, [], h, _, _ => by simp at h

theorem zipWith_ge (m : K) : ∀ (w qs : List K), w.length = qs.length → (∀ v ∈ w, 0 ≤ v) →
    (∀ q ∈ qs, q ≤ m) → (List.zipWith (· * ·) w qs).sum ≤ w.sum * m
  | [], [], _, _, _ => by simp
  | v :: w, q :: qs, hl, hw, hq => by
    have ih := zipWith_ge m w qs (by simpa using hl) (fun v h => hw v (by simp [h]))
      (fun q h => hq q (by simp [h]))
    have h1 := mul_le_mul_of_nonneg_left (hq q (by simp)) (hw v (by simp))
    simp only [List.sum_cons, List.zipWith_cons_cons]
    nlinarith
  | [], _ :: _, h, _, _ => by simp at h
  | _ :: _, [], h, _, _ => by simp at h

theorem exists_min_mem (l : List K) (h : l ≠ []) : ∃ m ∈ l, ∀ v ∈ l, m ≤ v := by
  induction l with
  | nil => exact absurd rfl h
  | cons a l ih =>
    by_cases hl : l = []
    · exact ⟨a, by simp, by simp [hl]⟩
    · obtain ⟨m, hm, hle⟩ := ih hl
      rcases le_total a m with h1 | h1
      · refine ⟨a, by simp, ?_⟩
        intro v hv
        rcases List.mem_cons.mp hv with rfl | hv
        · exact le_refl _
        · exact h1.trans (hle v hv)
      · refine ⟨m, by simp [hm], ?_⟩
        intro v hv
        rcases List.mem_cons.mp hv with rfl | hv
        · exact h1
        · exact hle v hv

theorem exists_max_mem (l : List K) (h : l ≠ []) : ∃ m ∈ l, ∀ v ∈ l, v ≤ m := by
  induction l with
  | nil => exact absurd rfl h
  | cons a l ih =>
    by_cases hl : l = []
    · exact ⟨a, by simp, by simp [hl]⟩
    · obtain ⟨m, hm, hle⟩ := ih hl
      rcases le_total m a with h1 | h1
      · refine ⟨a, by simp, ?_⟩
        intro v hv
        rcases List.mem_cons.mp hv with rfl | hv
        · exact le_refl _
        · exact (hle v hv).trans h1
      · refine ⟨m, by simp [hm], ?_⟩
        intro v hv
        rcases List.mem_cons.mp hv with rfl | hv
        · exact h1
        · exact hle v hv

/-- A weighted mean is within the range of the values. -/
theorem IsMean.inRange {qs : List K} {r : K} (h : IsMean qs r) : InRange qs r := by
  obtain ⟨w, hl, hw, hs, rfl⟩ := h
  have hne : qs ≠ [] := by
    rintro rfl
    have : w = [] := List.length_eq_zero_iff.mp (by simpa using hl)
    subst this
    simp at hs
  obtain ⟨m, hm, hm'⟩ := exists_min_mem qs hne
  obtain ⟨x, hx, hx'⟩ := exists_max_mem qs hne
  have h1 := zipWith_le m w qs hl hw hm'
  have h2 := zipWith_ge x w qs hl hw hx'
  rw [hs, one_mul] at h1 h2
  exact ⟨⟨m, hm, h1⟩, ⟨x, hx, h2⟩⟩

/-- A value within the range of values of the bounds is within the bounds. -/
theorem InRange.bounds {qs : List K} {r lo hi : K} (h : InRange qs r)
    (hq : ∀ q ∈ qs, lo ≤ q ∧ q ≤ hi) : lo ≤ r ∧ r ≤ hi := by
  obtain ⟨⟨q, hq1, h1⟩, ⟨p, hp1, h2⟩⟩ := h
  exact ⟨(hq q hq1).1.trans h1, h2.trans (hq p hp1).2⟩

/-- The coefficients of a bilinear function are given by its values at the corners. -/
theorem onBilinear_iff {x0 x1 y0 y1 : K} (hx : x0 ≠ x1) (hy : y0 ≠ y1) (q00 q01 q10 q11 x y r : K) :
    OnBilinear x0 x1 y0 y1 q00 q01 q10 q11 x y r ↔
      r * ((x1 - x0) * (y1 - y0)) = (x1 - x) * (y1 - y) * q00 + (x1 - x) * (y - y0) * q01 +
        (x - x0) * (y1 - y) * q10 + (x - x0) * (y - y0) * q11 := by
  have hx' : x1 - x0 ≠ 0 := sub_ne_zero.mpr hx.symm
  have hy' : y1 - y0 ≠ 0 := sub_ne_zero.mpr hy.symm
  constructor
  · rintro ⟨a, b, c, d, rfl, rfl, rfl, rfl, rfl⟩
    ring
  · intro h
    set D := (x1 - x0) * (y1 - y0) with hD
    have hD0 : D ≠ 0 := mul_ne_zero hx' hy'
    refine ⟨(x1 * y1 * q00 - x1 * y0 * q01 - x0 * y1 * q10 + x0 * y0 * q11) / D,
      (-y1 * q00 + y0 * q01 + y1 * q10 - y0 * q11) / D,
      (-x1 * q00 + x1 * q01 + x0 * q10 - x0 * q11) / D,
      (q00 - q01 - q10 + q11) / D, ?_, ?_, ?_, ?_, ?_⟩
    · field_simp; rw [hD]; ring
    · field_simp; rw [hD]; ring
    · field_simp; rw [hD]; ring
    · field_simp; rw [hD]; ring
    · field_simp
      linear_combination h

/-- The value is determined by the corners. -/
theorem OnBilinear.unique {x0 x1 y0 y1 : K} (hx : x0 ≠ x1) (hy : y0 ≠ y1) {q00 q01 q10 q11 x y r s : K}
    (h : OnBilinear x0 x1 y0 y1 q00 q01 q10 q11 x y r)
    (h' : OnBilinear x0 x1 y0 y1 q00 q01 q10 q11 x y s) : r = s := by
  rw [onBilinear_iff hx hy] at h h'
  exact mul_right_cancel₀ (mul_ne_zero (sub_ne_zero.mpr hx.symm) (sub_ne_zero.mpr hy.symm)) (h.trans h'.symm)

theorem OnBilinear.swapX {x0 x1 y0 y1 q00 q01 q10 q11 x y r : K}
    (h : OnBilinear x0 x1 y0 y1 q00 q01 q10 q11 x y r) :
    OnBilinear x1 x0 y0 y1 q10 q11 q00 q01 x y r := by
  obtain ⟨a, b, c, d, h1, h2, h3, h4, h5⟩ := h
  exact ⟨a, b, c, d, h3, h4, h1, h2, h5⟩

theorem OnBilinear.swapY {x0 x1 y0 y1 q00 q01 q10 q11 x y r : K}
    (h : OnBilinear x0 x1 y0 y1 q00 q01 q10 q11 x y r) :
    OnBilinear x0 x1 y1 y0 q01 q00 q11 q10 x y r := by
  obtain ⟨a, b, c, d, h1, h2, h3, h4, h5⟩ := h
  exact ⟨a, b, c, d, h2, h1, h4, h3, h5⟩

/-- Position in an interval. -/
theorem between_frac {x0 x1 x : K} (hx : x0 ≠ x1) (h : Between x0 x x1) :
    0 ≤ (x1 - x) / (x1 - x0) ∧ 0 ≤ (x - x0) / (x1 - x0) ∧
      (x1 - x) / (x1 - x0) + (x - x0) / (x1 - x0) = 1 := by
  have hx' : x1 - x0 ≠ 0 := sub_ne_zero.mpr hx.symm
  refine ⟨?_, ?_, by rw [← add_div, div_eq_one_iff_eq hx']; ring⟩
  · rcases h with ⟨h1, h2⟩ | ⟨h1, h2⟩
    · exact div_nonneg (by linarith) (by linarith)
    · exact div_nonneg_of_nonpos (by linarith) (by linarith)
  · rcases h with ⟨h1, h2⟩ | ⟨h1, h2⟩
    · exact div_nonneg (by linarith) (by linarith)
    · exact div_nonneg_of_nonpos (by linarith) (by linarith)

theorem OnBilinear.isMean {x0 x1 y0 y1 : K} (hx : x0 ≠ x1) (hy : y0 ≠ y1) {q00 q01 q10 q11 x y r : K}
    (h : OnBilinear x0 x1 y0 y1 q00 q01 q10 q11 x y r) (bx : Between x0 x x1) (b_y : Between y0 y y1) :
    IsMean [q00, q01, q10, q11] r := by
  obtain ⟨s1, s2, s3⟩ := between_frac hx bx
  obtain ⟨t1, t2, t3⟩ := between_frac hy b_y
  have hx' : x1 - x0 ≠ 0 := sub_ne_zero.mpr hx.symm
  have hy' : y1 - y0 ≠ 0 := sub_ne_zero.mpr hy.symm
  rw [onBilinear_iff hx hy] at h
  refine ⟨[(x1 - x) / (x1 - x0) * ((y1 - y) / (y1 - y0)), (x1 - x) / (x1 - x0) * ((y - y0) / (y1 - y0)),
    (x - x0) / (x1 - x0) * ((y1 - y) / (y1 - y0)), (x - x0) / (x1 - x0) * ((y - y0) / (y1 - y0))],
    rfl, ?_, ?_, ?_⟩
  · intro v hv
    simp only [List.mem_cons, List.not_mem_nil, or_false] at hv
    rcases hv with rfl | rfl | rfl | rfl <;> exact mul_nonneg (by assumption) (by assumption)
  · simp only [List.sum_cons, List.sum_nil, add_zero]
    set a := (x1 - x) / (x1 - x0)
    set b := (x - x0) / (x1 - x0)
    set c := (y1 - y) / (y1 - y0)
    set d := (y - y0) / (y1 - y0)
    have : a * c + (a * d + (b * c + b * d)) = (a + b) * (c + d) := by ring
    rw [this, s3, t3, one_mul]
  · simp only [List.zipWith_cons_cons, List.zipWith_nil_left, List.sum_cons, List.sum_nil, add_zero]
    have hD0 : (x1 - x0) * (y1 - y0) ≠ 0 := mul_ne_zero hx' hy'
    apply mul_right_cancel₀ hD0
    rw [h]
    field_simp
    ring

theorem OnLine.isMean {x0 x1 : K} (hx : x0 ≠ x1) {q0 q1 x r : K}
    (h : OnLine x0 x1 q0 q1 x r) (bx : Between x0 x x1) : IsMean [q0, q1] r := by
  obtain ⟨s1, s2, s3⟩ := between_frac hx bx
  have hx' : x1 - x0 ≠ 0 := sub_ne_zero.mpr hx.symm
  refine ⟨[(x1 - x) / (x1 - x0), (x - x0) / (x1 - x0)], rfl, ?_, by simpa using s3, ?_⟩
  · intro v hv
    simp only [List.mem_cons, List.not_mem_nil, or_false] at hv
    rcases hv with rfl | rfl <;> assumption
  · simp only [List.zipWith_cons_cons, List.zipWith_nil_left, List.sum_cons, List.sum_nil, add_zero]
    apply mul_right_cancel₀ hx'
    rw [h]
    field_simp

end Pyinterp.Spec
