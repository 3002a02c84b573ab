import Verif.Model.Variate
import Verif.Lemmas.Cell
import Mathlib.Data.Rat.Floor
import Mathlib.Tactic.Positivity

/-!
C46 – interpolation in a cell: bilinear, nearest corner, inverse distance weighting.
-/
namespace Pyinterp.Variate
open Pyinterp Spec
set_option linter.unusedSectionVars false
set_option linter.unusedVariables false

section
variable {K : Type} [Field K] [LinearOrder K] [IsStrictOrderedRing K]

/-- **C46** Bilinear interpolation returns the value at the query point of the function
`a + b x + c y + d x y` that takes the four given values at the corners of the cell. (With the
corners `p0 = (x0, y0)` and `p1 = (x1, y1)`, the four values are given in the order `(x0, y0)`,
`(x0, y1)`, `(x1, y0)`, `(x1, y1)`.) -/
theorem C46_bilinear (p p0 p1 : K × K) (q00 q01 q10 q11 : K) (hx : p0.1 ≠ p1.1) (hy : p0.2 ≠ p1.2) :
    ∃ r, Method.bilinear.evaluate p p0 p1 (some q00) (some q01) (some q10) (some q11) = some r ∧
      OnBilinear p0.1 p1.1 p0.2 p1.2 q00 q01 q10 q11 p.1 p.2 r := by
  refine ⟨_, rfl, ?_⟩
  have hx' : p1.1 - p0.1 ≠ 0 := sub_ne_zero.mpr hx.symm
  have hy' : p1.2 - p0.2 ≠ 0 := sub_ne_zero.mpr hy.symm
  rw [onBilinear_iff hx hy]
  field_simp
  ring

/-- **C46** Exactness: when the corner values are those of `a + b x + c y + d x y`, so is the
result. -/
theorem C46_bilinear_exact (p p0 p1 : K × K) (hx : p0.1 ≠ p1.1) (hy : p0.2 ≠ p1.2) (a b c d : K)
    (f : K → K → K) (hf : ∀ x y, f x y = a + b * x + c * y + d * (x * y)) :
    Method.bilinear.evaluate p p0 p1 (some (f p0.1 p0.2)) (some (f p0.1 p1.2))
      (some (f p1.1 p0.2)) (some (f p1.1 p1.2)) = some (f p.1 p.2) := by
  obtain ⟨r, h1, h2⟩ := C46_bilinear p p0 p1 (f p0.1 p0.2) (f p0.1 p1.2) (f p1.1 p0.2) (f p1.1 p1.2) hx hy
  rw [h1]
  congr 1
  exact h2.unique hx hy ⟨a, b, c, d, hf _ _, hf _ _, hf _ _, hf _ _, hf _ _⟩

/-- **C46** The four corners are reproduced. -/
theorem C46_bilinear_corners (p0 p1 : K × K) (q00 q01 q10 q11 : K) (hx : p0.1 ≠ p1.1)
    (hy : p0.2 ≠ p1.2) :
    let ev := fun x y => Method.bilinear.evaluate (x, y) p0 p1 (some q00) (some q01) (some q10) (some q11)
    ev p0.1 p0.2 = some q00 ∧ ev p0.1 p1.2 = some q01 ∧ ev p1.1 p0.2 = some q10 ∧
      ev p1.1 p1.2 = some q11 := by
  have hx' : p1.1 - p0.1 ≠ 0 := sub_ne_zero.mpr hx.symm
  have hy' : p1.2 - p0.2 ≠ 0 := sub_ne_zero.mpr hy.symm
  refine ⟨?_, ?_, ?_, ?_⟩ <;>
    simp [Method.evaluate, bilinear, nadd, nmul, div_self hx', div_self hy']

/-- **C46** For a point of the cell the result is a weighted mean, with non-negative weights, of
the corner values; it lies within their range. -/
theorem C46_bilinear_range (p p0 p1 : K × K) (q00 q01 q10 q11 : K) (hx : p0.1 ≠ p1.1)
    (hy : p0.2 ≠ p1.2) (bx : Between p0.1 p.1 p1.1) (b_y : Between p0.2 p.2 p1.2) :
    ∃ r, Method.bilinear.evaluate p p0 p1 (some q00) (some q01) (some q10) (some q11) = some r ∧
      IsMean [q00, q01, q10, q11] r ∧ InRange [q00, q01, q10, q11] r := by
  obtain ⟨r, h1, h2⟩ := C46_bilinear p p0 p1 q00 q01 q10 q11 hx hy
  have := h2.isMean hx hy bx b_y
  exact ⟨r, h1, this, this.inRange⟩

/-- **C46** A corner without value (NaN) makes the bilinear result NaN. -/
theorem C46_bilinear_nan (p p0 p1 : K × K) (q00 q01 q10 q11 : Option K)
    (h : q00 = none ∨ q01 = none ∨ q10 = none ∨ q11 = none) :
    Method.bilinear.evaluate p p0 p1 q00 q01 q10 q11 = none := by
  cases q00 <;> cases q01 <;> cases q10 <;> cases q11 <;> first | rfl | simp at h

example : (Method.bilinear.evaluate ((1 / 4 : ℚ), 1) (0, 0) (1, 2) (some 0) (some 4) (some 8) (some 16))
    = some (9 / 2) := by decide +kernel

/-- the four corners of a cell with their values, in the order in which the code visits them -/
def corners (p0 p1 : K × K) (q00 q01 q10 q11 : Option K) : List ((K × K) × Option K) :=
  [((p0.1, p0.2), q00), ((p0.1, p1.2), q01), ((p1.1, p0.2), q10), ((p1.1, p1.2), q11)]

/-- **C46** The nearest-corner interpolator returns the value of a corner that no other corner
beats in distance (for any distance function). -/
theorem C46_nearest (cdist : K × K → K × K → K) (p p0 p1 : K × K) (q00 q01 q10 q11 : Option K) :
    ∃ c ∈ corners p0 p1 q00 q01 q10 q11,
      (Method.nearest cdist).evaluate p p0 p1 q00 q01 q10 q11 = c.2 ∧
      ∀ c' ∈ corners p0 p1 q00 q01 q10 q11, cdist p c.1 ≤ cdist p c'.1 := by
  simp only [Method.evaluate, nearest, corners]
  by_cases h1 : cdist p (p0.1, p0.2) > cdist p (p0.1, p1.2)
  · simp only [h1, if_true]
    by_cases h2 : cdist p (p0.1, p1.2) > cdist p (p1.1, p0.2)
    · simp only [h2, if_true]
      by_cases h3 : cdist p (p1.1, p0.2) > cdist p (p1.1, p1.2)
      · refine ⟨((p1.1, p1.2), q11), by simp, by simp [h3], ?_⟩
        simp only [List.mem_cons, List.not_mem_nil, or_false]
        rintro c' (rfl | rfl | rfl | rfl) <;> dsimp only <;> linarith
      · refine ⟨((p1.1, p0.2), q10), by simp, by simp [h3], ?_⟩
        simp only [List.mem_cons, List.not_mem_nil, or_false]
        rintro c' (rfl | rfl | rfl | rfl) <;> dsimp only <;> linarith
    · simp only [h2, if_false]
      by_cases h3 : cdist p (p0.1, p1.2) > cdist p (p1.1, p1.2)
      · refine ⟨((p1.1, p1.2), q11), by simp, by simp [h3], ?_⟩
        simp only [List.mem_cons, List.not_mem_nil, or_false]
        rintro c' (rfl | rfl | rfl | rfl) <;> dsimp only <;> linarith
      · refine ⟨((p0.1, p1.2), q01), by simp, by simp [h3], ?_⟩
        simp only [List.mem_cons, List.not_mem_nil, or_false]
        rintro c' (rfl | rfl | rfl | rfl) <;> dsimp only <;> linarith
  · simp only [h1, if_false]
    by_cases h2 : cdist p (p0.1, p0.2) > cdist p (p1.1, p0.2)
    · simp only [h2, if_true]
      by_cases h3 : cdist p (p1.1, p0.2) > cdist p (p1.1, p1.2)
      · refine ⟨((p1.1, p1.2), q11), by simp, by simp [h3], ?_⟩
        simp only [List.mem_cons, List.not_mem_nil, or_false]
        rintro c' (rfl | rfl | rfl | rfl) <;> dsimp only <;> linarith
      · refine ⟨((p1.1, p0.2), q10), by simp, by simp [h3], ?_⟩
        simp only [List.mem_cons, List.not_mem_nil, or_false]
        rintro c' (rfl | rfl | rfl | rfl) <;> dsimp only <;> linarith
    · simp only [h2, if_false]
      by_cases h3 : cdist p (p0.1, p0.2) > cdist p (p1.1, p1.2)
      · refine ⟨((p1.1, p1.2), q11), by simp, by simp [h3], ?_⟩
        simp only [List.mem_cons, List.not_mem_nil, or_false]
        rintro c' (rfl | rfl | rfl | rfl) <;> dsimp only <;> linarith
      · refine ⟨((p0.1, p0.2), q00), by simp, by simp [h3], ?_⟩
        simp only [List.mem_cons, List.not_mem_nil, or_false]
        rintro c' (rfl | rfl | rfl | rfl) <;> dsimp only <;> linarith

/-- square of the plane distance, for the examples -/
def planeDist (p q : ℚ × ℚ) : ℚ := (p.1 - q.1) ^ 2 + (p.2 - q.2) ^ 2

example : (Method.nearest planeDist).evaluate (3 / 4, 1 / 4) (0, 0) (1, 1) (some 1) (some 2) (some 3) none
    = some 3 := by decide +kernel

/-- **C46** Inverse distance weighting, at a corner: the value of a corner at distance at most
`eps` (the first one, if the cell is that small) is returned as it is, whatever the other
values. -/
theorem C46_idw_corner (dist : K × K → K × K → K) (eps : K) (exp : Int) (p p0 p1 : K × K)
    (q00 q01 q10 q11 : Option K)
    (h : ∃ c ∈ corners p0 p1 q00 q01 q10 q11, dist p c.1 ≤ eps) :
    ∃ c ∈ corners p0 p1 q00 q01 q10 q11, dist p c.1 ≤ eps ∧
      (Method.idw dist eps exp).evaluate p p0 p1 q00 q01 q10 q11 = c.2 := by
  simp only [Method.evaluate, idw, corners] at h ⊢
  by_cases h1 : dist p (p0.1, p0.2) ≤ eps
  · exact ⟨((p0.1, p0.2), q00), by simp, h1, by simp only [if_pos h1]⟩
  · by_cases h2 : dist p (p0.1, p1.2) ≤ eps
    · exact ⟨((p0.1, p1.2), q01), by simp, h2, by simp only [if_neg h1, if_pos h2]⟩
    · by_cases h3 : dist p (p1.1, p0.2) ≤ eps
      · exact ⟨((p1.1, p0.2), q10), by simp, h3, by simp only [if_neg h1, if_neg h2, if_pos h3]⟩
      · by_cases h4 : dist p (p1.1, p1.2) ≤ eps
        · exact ⟨((p1.1, p1.2), q11), by simp, h4, by
            simp only [if_neg h1, if_neg h2, if_neg h3, if_pos h4]⟩
        · obtain ⟨c, hc, hd⟩ := h
          simp only [List.mem_cons, List.not_mem_nil, or_false] at hc
          rcases hc with rfl | rfl | rfl | rfl <;> contradiction

/-- **C46** Inverse distance weighting away from the corners: the result `r` satisfies
`Σ (r - q) / d ^ exp = 0`, the sum running over the four corners (value `q` at distance `d`). -/
theorem C46_idw (dist : K × K → K × K → K) (eps : K) (he : 0 ≤ eps) (exp : Int) (p p0 p1 : K × K)
    (q00 q01 q10 q11 : K)
    (h : ∀ c ∈ corners p0 p1 (some q00) (some q01) (some q10) (some q11), eps < dist p c.1) :
    ∃ r, (Method.idw dist eps exp).evaluate p p0 p1 (some q00) (some q01) (some q10) (some q11) = some r ∧
      (r - q00) / dist p (p0.1, p0.2) ^ exp + (r - q01) / dist p (p0.1, p1.2) ^ exp +
        (r - q10) / dist p (p1.1, p0.2) ^ exp + (r - q11) / dist p (p1.1, p1.2) ^ exp = 0 ∧
      IsMean [q00, q01, q10, q11] r ∧ InRange [q00, q01, q10, q11] r := by
  simp only [corners, List.mem_cons, List.not_mem_nil, or_false, forall_eq_or_imp, forall_eq] at h
  obtain ⟨h1, h2, h3, h4⟩ := h
  have pos : ∀ d : K, eps < d → 0 < 1 / d ^ exp := by
    intro d hd
    have : 0 < d := lt_of_le_of_lt he hd
    exact div_pos one_pos (zpow_pos this _)
  have w1 := pos _ h1
  have w2 := pos _ h2
  have w3 := pos _ h3
  have w4 := pos _ h4
  have hev : (Method.idw dist eps exp).evaluate p p0 p1 (some q00) (some q01) (some q10) (some q11) =
      some ((1 / dist p (p0.1, p0.2) ^ exp * q00 + 1 / dist p (p0.1, p1.2) ^ exp * q01 +
        1 / dist p (p1.1, p0.2) ^ exp * q10 + 1 / dist p (p1.1, p1.2) ^ exp * q11) /
        (1 / dist p (p0.1, p0.2) ^ exp + 1 / dist p (p0.1, p1.2) ^ exp +
        1 / dist p (p1.1, p0.2) ^ exp + 1 / dist p (p1.1, p1.2) ^ exp)) := by
    simp only [Method.evaluate, idw, if_neg (not_le.mpr h1), if_neg (not_le.mpr h2),
      if_neg (not_le.mpr h3), if_neg (not_le.mpr h4)]
    rfl
  simp only [div_eq_mul_one_div (_ - _ : K) (_ ^ exp)]
  generalize 1 / dist p (p0.1, p0.2) ^ exp = a at *
  generalize 1 / dist p (p0.1, p1.2) ^ exp = b at *
  generalize 1 / dist p (p1.1, p0.2) ^ exp = c at *
  generalize 1 / dist p (p1.1, p1.2) ^ exp = d at *
  have hs : 0 < a + b + c + d := by linarith
  have hs' : a + b + c + d ≠ 0 := ne_of_gt hs
  have hm : IsMean [q00, q01, q10, q11] ((a * q00 + b * q01 + c * q10 + d * q11) / (a + b + c + d)) := by
    refine ⟨[a / (a + b + c + d), b / (a + b + c + d), c / (a + b + c + d), d / (a + b + c + d)],
      rfl, ?_, ?_, ?_⟩
    · intro v hv
      simp only [List.mem_cons, List.not_mem_nil, or_false] at hv
      rcases hv with rfl | rfl | rfl | rfl <;> exact div_nonneg (by linarith) (by linarith)
    · simp only [List.sum_cons, List.sum_nil, add_zero]
      field_simp
      ring
    · simp only [List.zipWith_cons_cons, List.zipWith_nil_left, List.sum_cons, List.sum_nil, add_zero]
      field_simp
      ring
  refine ⟨_, hev, ?_, hm, hm.inRange⟩
  field_simp
  ring

example : (Method.idw planeDist (1 / 1000000) 1).evaluate (1 / 2, 1 / 4) (0, 0) (1, 1)
    (some 1) (some 2) (some 3) (some 4) = some (41 / 18) := by
  simp only [Method.evaluate, idw, planeDist, nadd, nmul, zpow_one]
  norm_num

end
end Pyinterp.Variate
