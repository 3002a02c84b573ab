import Verif.Props.C37_Binning
import Verif.Lemmas.Loess
import Verif.Lemmas.Frame
import Verif.Spec.Area
import Verif.Lemmas.Delayed

/-
C37 on longitudes, and for the areas of any geometry library.
-/
namespace Pyinterp.Bin2D

open Spec

set_option linter.unusedSectionVars false

section
variable {K : Type} [Field K] [LinearOrder K] [IsStrictOrderedRing K] [FloorRing K]

open Classical in
/-- C37, longitudes: on an axis of longitudes, whatever the turn in which the longitudes of the
samples are given, the linear binning never loses weight: the total weight, the total sum and the
mean position in the grid are those of the samples, with their longitudes brought to the turn that
begins at the smallest longitude `m` of the axis. On a circle the samples are not in the cell
between the largest and the smallest longitude (`C37_wrap_false`); on a decreasing axis no sample is
exactly on the smallest longitude (`C37_decreasing_longitudes_false`). -/
theorem C37_longitudes (tiny eps : K) (htiny : 0 < tiny) (heps : 0 < eps) (x y : Axis K)
    (lx ly : List K) (rx : Reach false x) (ry : Reach false y) (cx : Coordinates x lx)
    (cy : Coordinates y ly) (hx2 : 2 ≤ lx.length) (hy2 : 2 ≤ ly.length)
    (hxa : x.isAngle = true) (hya : y.isAngle = false) (m : K) (hmin : IsMin lx m)
    (samples : List (K × K × Option K))
    (hseam : x.isCircle = true → ∀ s ∈ samples, ¬ Outside lx (onTurn m s.1))
    (hlast : lx.Pairwise (· > ·) → ∀ s ∈ samples, onTurn m s.1 ≠ m)
    (hreg : ∀ s ∈ samples, Regular tiny eps lx ly (onTurn m s.1, s.2)) :
    let located := samples.map fun s => (onTurn m s.1, s.2)
    ∃ acc, pushLinear ringArea tiny eps x y (List.replicate (lx.length * ly.length) Stats.empty) samples =
        .ok acc ∧ acc.length = lx.length * ly.length ∧
      (acc.map (·.sumOfWeights)).sum = ((located.filter fun s => accepted lx ly s).length : K) ∧
      (acc.map (·.sum)).sum = (definedValues (located.filter fun s => accepted lx ly s)).sum ∧
      (acc.mapIdx fun c a => lx.getD (c / ly.length) 0 * a.sumOfWeights).sum =
        ((located.filter fun s => accepted lx ly s).map (·.1)).sum ∧
      (acc.mapIdx fun c a => ly.getD (c % ly.length) 0 * a.sumOfWeights).sum =
        ((located.filter fun s => accepted lx ly s).map (·.2.1)).sum := by
  have okx := reach_axisOk rx cx
  have oky := reach_axisOk ry cy
  refine conservation_core tiny eps htiny heps x y lx ly okx oky hy2 hya (onTurn m) samples
    (fun s hs => ?_) hreg
  have hcirc : x.circle = some (360 : K) := by
    rcases okx.circle with h | h
    · simp [Axis.isAngle, h] at hxa
    · exact h
  obtain ⟨m', c, hm, hn, hr⟩ := findIndexes_spec' okx hx2 s.1
  obtain ⟨hm0, hm1, k, hk⟩ := hn.2 _ hcirc
  have hmm : m' = m := le_antisymm (hm.2 _ hmin.1) (hmin.2 _ hm.1)
  subst hmm
  have hc : c = onTurn m' s.1 := by
    rw [← Loess.normalizeAngleF_eq]
    exact (Interp.normalizeAngleF_unique k hk hm0 hm1).symm
  rw [← hc]
  refine ⟨fun ho => ?_, fun ho => ?_⟩
  · rcases hr with ⟨i, j, e, hf, _, _, hlow⟩ | ⟨_, _, ho'⟩
    · obtain ⟨i0, j0, hi, hj, hf⟩ := hf
      rcases hf with ⟨hij, hb⟩ | ⟨_, _, hall⟩
      · have hle : lx[i.toNat] ≤ c := by
          rcases hlow hi with h | ⟨hd, hmc⟩
          · exact h
          · refine absurd ?_ (hlast (okx.stores.desc hd) s hs)
            rw [← hc]
            exact le_antisymm (hmc.2 _ hmin.1) hm0
        refine ⟨i.toNat, j.toNat, hi, hj, by rw [Int.toNat_of_nonneg i0, Int.toNat_of_nonneg j0, e],
          hb, by omega, ?_, ?_, ?_⟩
        · have := okx.stores.coord_int (i.toNat : Int) (by omega) (by omega)
          simp only [Int.toNat_natCast] at this
          exact this
        · have := okx.stores.coord_int (j.toNat : Int) (by omega) (by omega)
          simp only [Int.toNat_natCast] at this
          exact this
        · rw [if_pos hxa]
          refine Interp.normalizeAngleF_unique k hk hle (lt_of_lt_of_le hm1 ?_)
          have := hm.2 _ (List.getElem_mem hi)
          linarith
      · exact absurd (Or.inr hall) ho
    · exact absurd ho' ho
  · rcases hr with ⟨i, j, e, _, _, hn, _⟩ | ⟨e, _⟩
    · rcases hn with h | h
      · exact absurd (by rw [← hc]; exact ho) (hseam h s hs)
      · exact absurd ho h
    · exact e

/- A regional axis of longitudes from 170 to 190 degrees, samples in three turns; and a circle, with
samples outside of the last cell. -/
example : ∃ x y : Axis ℚ, Reach false x ∧ Reach false y ∧ Coordinates x [170, 180, 190] ∧
    Coordinates y [0, 4] ∧ x.isAngle = true ∧ x.isCircle = false ∧ y.isAngle = false ∧
    (pushLinear ringArea (1 / 10 ^ 12) (1 / 10 ^ 10) x y (List.replicate 6 Stats.empty)
      [(-175, 1, some 8), (535, 4, some 2), (0, 1, some 1)]).map
      (fun acc => acc.map (·.sumOfWeights)) = .ok [0, 1 / 2, 3 / 8, 5 / 8, 3 / 8, 1 / 8] := by
  refine ⟨⟨false, some 360, .regular ⟨3, 170, 10, 1 / 10, true⟩⟩,
    ⟨false, none, .regular ⟨2, 0, 4, 1 / 4, true⟩⟩,
    .regular 170 190 3 (1/1000000) true _ (by decide +kernel),
    .regular 0 4 2 (1/1000000) false _ (by decide +kernel),
    ⟨rfl, by decide +kernel⟩, ⟨rfl, by decide +kernel⟩, rfl, rfl, rfl, by decide +kernel⟩

/- The same samples on the axis in decreasing order. -/
example : ∃ x y : Axis ℚ, Reach false x ∧ Reach false y ∧ Coordinates x [190, 180, 170] ∧
    Coordinates y [0, 4] ∧ x.isAngle = true ∧ IsMin [190, 180, 170] (170 : ℚ) ∧
    (pushLinear ringArea (1 / 10 ^ 12) (1 / 10 ^ 10) x y (List.replicate 6 Stats.empty)
      [(-175, 1, some 8), (535, 4, some 2), (0, 1, some 1)]).map
      (fun acc => acc.map (·.sumOfWeights)) = .ok [3 / 8, 1 / 8, 3 / 8, 5 / 8, 0, 1 / 2] := by
  refine ⟨⟨false, some 360, .regular ⟨3, 190, -10, -1 / 10, false⟩⟩,
    ⟨false, none, .regular ⟨2, 0, 4, 1 / 4, true⟩⟩,
    .regular 190 170 3 (1/1000000) true _ (by decide +kernel),
    .regular 0 4 2 (1/1000000) false _ (by decide +kernel),
    ⟨rfl, by decide +kernel⟩, ⟨rfl, by decide +kernel⟩, rfl, ⟨by simp, by decide +kernel⟩,
    by decide +kernel⟩

/-- C37, what is false: on a decreasing axis of longitudes, a sample exactly on the last (the
smallest) longitude is lost: it is brought to the turn of the cell in which it is not. The sample of
the same grid in increasing order is binned (weights 3/4 and 1/4). -/
theorem C37_decreasing_longitudes_false :
    ∃ x x' y : Axis ℚ, Reach false x ∧ Reach false x' ∧ Reach false y ∧
      Coordinates x [190, 180, 170] ∧ Coordinates x' [170, 180, 190] ∧
      Coordinates y [0, 4] ∧ x.isAngle = true ∧ x'.isAngle = true ∧
      (pushLinear ringArea (1 / 10 ^ 12) (1 / 10 ^ 10) x y (List.replicate 6 Stats.empty)
        [(170, 1, some 8)]).map (fun acc => acc.map (·.sumOfWeights)) = .ok [0, 0, 0, 0, 0, 0] ∧
      (pushLinear ringArea (1 / 10 ^ 12) (1 / 10 ^ 10) x' y (List.replicate 6 Stats.empty)
        [(170, 1, some 8)]).map (fun acc => acc.map (·.sumOfWeights)) =
          .ok [3 / 4, 1 / 4, 0, 0, 0, 0] := by
  refine ⟨⟨false, some 360, .regular ⟨3, 190, -10, -1 / 10, false⟩⟩,
    ⟨false, some 360, .regular ⟨3, 170, 10, 1 / 10, true⟩⟩,
    ⟨false, none, .regular ⟨2, 0, 4, 1 / 4, true⟩⟩,
    .regular 190 170 3 (1/1000000) true _ (by decide +kernel),
    .regular 170 190 3 (1/1000000) true _ (by decide +kernel),
    .regular 0 4 2 (1/1000000) false _ (by decide +kernel),
    ⟨rfl, by decide +kernel⟩, ⟨rfl, by decide +kernel⟩, ⟨rfl, by decide +kernel⟩, rfl, rfl,
    by decide +kernel, by decide +kernel⟩

/-- C37, on any spheroid: whatever the area that the geometry library gives to the polygons, as long
as a polygon has a negative area in one orientation at most, the four weights of a sample are shares between
zero and one. -/
theorem C37_shares (area : List (K × K) → K) (tiny : K) (lx ly : List K) (harea : AreaOk area lx ly)
    (pij p00 p11 : K × K) (w : K × K × K × K) (h : binning2d area tiny pij p00 p11 = .ok w) :
    (0 ≤ w.1 ∧ w.1 ≤ 1) ∧ (0 ≤ w.2.1 ∧ w.2.1 ≤ 1) ∧ (0 ≤ w.2.2.1 ∧ w.2.2.1 ≤ 1) ∧
      (0 ≤ w.2.2.2 ∧ w.2.2.2 ≤ 1) := by
  have hpos : ∀ a b c d, 0 ≤ calculateArea area [a, b, c, d, a] := by
    intro a b c d
    unfold calculateArea
    simp only []
    split
    · rename_i h
      exact (harea.reverse a b c d h).le
    · linarith
  have hn : ∀ a b c d total, 0 ≤ total → 0 ≤ normalizedArea area tiny [a, b, c, d, a] total ∧
      normalizedArea area tiny [a, b, c, d, a] total ≤ total := by
    intro a b c d total ht
    unfold normalizedArea
    simp only []
    split
    · exact ⟨le_rfl, ht⟩
    · rename_i hh
      push Not at hh
      exact ⟨hpos a b c d, hh.1⟩
  unfold binning2d at h
  simp only [] at h
  split at h
  · cases h
  · rename_i h0
    have ht := hpos p00 (p00.1, p11.2) p11 (p11.1, p00.2)
    have ht' := lt_of_le_of_ne ht (Ne.symm h0)
    injection h with h
    subst h
    refine ⟨⟨?_, ?_⟩, ⟨?_, ?_⟩, ⟨?_, ?_⟩, ⟨?_, ?_⟩⟩
    all_goals first
      | exact div_nonneg (hn _ _ _ _ _ ht).1 ht
      | exact (div_le_one ht').2 (hn _ _ _ _ _ ht).2

/- The planar area is such an area; a sample in a cell 10 by 4. -/
example : AreaOk (ringArea : List (ℚ × ℚ) → ℚ) [0, 10] [0, 4] ∧
    binning2d ringArea (1 / 10 ^ 12 : ℚ) (5, 1) (0, 0) (10, 4) =
    .ok (3 / 8, 1 / 8, 1 / 8, 3 / 8) := ⟨Delayed.ringArea_ok _ _, by decide +kernel⟩

end

end Pyinterp.Bin2D
