import Verif.Lemmas.Coordinates
import Mathlib.Data.Rat.Floor

/-!
C59 – nearest index on an axis that goes round the circle.
-/
namespace Pyinterp
open Spec
set_option linter.unusedVariables false
set_option linter.unusedSectionVars false

section
variable {K : Type} [Field K] [LinearOrder K] [IsStrictOrderedRing K] [FloorRing K]

/-- Result of the container search for a coordinate above the last point, on an
ascending container: -1, or (regular containers only) the nearest index, at most
half a step from the coordinate. -/
theorem find_above (k : Container K) (hk : ContInv AuxF k) (hasc : k.isAscending = true) (c : K)
    (hc : ∀ v ∈ contList k, v < c) :
    ∃ i, k.findIndex c false = .ok i ∧
      (i = -1 ∨ (Nearest (contList k) c i ∧ ∃ r, k = .regular r ∧ ∃ v ∈ contList k,
        2 * (c - v) ≤ |r.step|)) := by
  cases k with
  | undefined => exact hk.elim
  | irregular l asc =>
    obtain ⟨i, h1, h2⟩ := irregular_find l asc hk.1 hk.2.1 hk.2.2 c false
    refine ⟨i, h1, ?_⟩
    rcases h2 with h2 | h2
    · exact Or.inl h2.1
    · exact absurd (Or.inr hc) (h2.2 rfl)
  | regular r =>
    obtain ⟨hn, hs, h1, h2, haux⟩ := hk
    have hh := halfStep_float r hs haux
    obtain ⟨i, f1, f2⟩ := regular_find r hn hs hh c false
    obtain ⟨idx, g1, g2⟩ := hh c
    refine ⟨i, f1, ?_⟩
    rcases f2 with f2 | f2
    · exact Or.inl f2.1
    · by_cases hi : i = -1
      · exact Or.inl hi
      · right
        refine ⟨f2, r, rfl, ?_⟩
        simp only [Container.findIndex, g1, bind, Except.bind, pure, Except.pure] at f1
        by_cases ha : idx < 0
        · simp [ha] at f1; exact absurd f1.symm hi
        · by_cases hb : idx ≥ r.size
          · simp [ha, hb] at f1; exact absurd f1.symm hi
          · have hmem : r.start + (idx : K) * r.step ∈ contList (.regular r) := by
              unfold contList
              rw [mem_regCoords]
              refine ⟨idx.toNat, by omega, ?_⟩
              have : ((idx.toNat : Nat) : K) = (idx : K) := by
                have h3 : ((idx.toNat : Nat) : ℤ) = idx := by omega
                exact_mod_cast congrArg (fun z : ℤ => (z : K)) h3
              rw [this]
            refine ⟨_, hmem, ?_⟩
            have := hc _ hmem
            rwa [abs_of_pos (by linarith)] at g2

/-- **C59** On an increasing axis that goes round the circle (its coordinates span
at most 360 degrees and, when it is regular, `size * step ≤ 360`), `find_index`
(not bounded) returns for every angle an index whose coordinate is at minimal
angular distance: no coordinate, whatever the number of turns, is closer. -/
theorem C59_circular_nearest (a : Axis K) (l : List K) (h : Reach false a) (hl : Coordinates a l)
    (hcirc : a.isCircle = true) (hasc : l.Pairwise (· < ·))
    (hspan : ∀ v ∈ l, ∀ w ∈ l, v - w ≤ 360)
    (hreg : a.isRegular = true → ∀ hn : 1 < l.length, (l.length : K) * (l[1] - l[0]) ≤ 360)
    (x : K) :
    ∃ i v, a.findNearestIndex x false = .ok i ∧ 0 ≤ i ∧ l[i.toNat]? = some v ∧
      ∀ w ∈ l, AngularCloser x v w := by
  have hok := reach_axisOk h hl
  have hinv := (reach_inv h).1
  have e := coordinates_eq_contList h hl
  have hcircle := hok.isCircle hcirc
  obtain ⟨m, c, hm, hnorm, hn, -⟩ := normalize_spec hok x
  obtain ⟨mn, hmn1, hmn2⟩ := hok.stores.minValue
  obtain ⟨mx, hmx1, hmx2⟩ := hok.stores.maxValue
  have hmm : m = mn := le_antisymm (hm.2 _ hmn2.1) (hmn2.2 _ hm.1)
  subst hmm
  obtain ⟨c1, c2, k0, c3⟩ := hn.2 360 hcircle
  have hspan' : mx - m ≤ 360 := hspan mx hmx2.1 m hmn2.1
  -- it is enough to look at three turns
  have reduce : ∀ v, ∀ k1 : ℤ, (∀ w ∈ l, |c - v + (k1 : K) * 360| ≤ |c - w| ∧
      |c - v + (k1 : K) * 360| ≤ c - w + 360 ∧ |c - v + (k1 : K) * 360| ≤ 360 - (c - w)) →
      ∀ w ∈ l, AngularCloser x v w := by
    intro v k1 hv w hw k
    obtain ⟨b1, b2, b3⟩ := hv w hw
    refine ⟨k1 + k0, ?_⟩
    have hx : x = c - (k0 : K) * 360 := by rw [c3]; ring
    have e1 : x - v + ((k1 + k0 : ℤ) : K) * 360 = c - v + (k1 : K) * 360 := by
      rw [hx]; push_cast; ring
    have e2 : x - w + (k : K) * 360 = c - w + ((k - k0 : ℤ) : K) * 360 := by
      rw [hx]; push_cast; ring
    rw [e1, e2]
    generalize k - k0 = j
    rcases lt_trichotomy j 0 with hj | hj | hj
    · have : (j : K) ≤ -1 := by exact_mod_cast (by omega : j ≤ -1)
      refine le_trans b3 ?_
      rw [← abs_neg]
      refine le_trans ?_ (le_abs_self _)
      linarith
    · rw [hj]; simpa using b1
    · have : (1 : K) ≤ (j : K) := by exact_mod_cast (by omega : 1 ≤ j)
      refine le_trans b2 ?_
      refine le_trans ?_ (le_abs_self _)
      linarith
  have hlen : 0 < l.length := List.length_pos_iff.2 hok.stores.ne
  have hfirst : l[0] = m := by
    have h1 : m ≤ l[0] := hmn2.2 _ (List.getElem_mem _)
    obtain ⟨j, hj, hj2⟩ := List.getElem_of_mem hmn2.1
    by_cases hj0 : j = 0
    · subst hj0; exact hj2
    · have := List.pairwise_iff_getElem.1 hasc 0 j hlen hj (by omega)
      rw [hj2] at this; linarith
  have hlast : l[l.length - 1]'(by omega) = mx := by
    have h1 : l[l.length - 1]'(by omega) ≤ mx := hmx2.2 _ (List.getElem_mem _)
    obtain ⟨j, hj, hj2⟩ := List.getElem_of_mem hmx2.1
    by_cases hj0 : j = l.length - 1
    · subst hj0; exact hj2
    · have := List.pairwise_iff_getElem.1 hasc j (l.length - 1) hj (by omega) (by omega)
      rw [hj2] at this; linarith
  have hsize : a.size = l.length := hl.1
  have ofi : (AxisNum.ofInt 360 : K) = 360 := ofInt360
  unfold Axis.findNearestIndex
  simp only [hnorm, bind, Except.bind, hcirc, and_true, hmx1, hmn1, pure, Except.pure]
  by_cases hone : l.length = 1
  · -- a single coordinate
    have all : ∀ w ∈ l, w = m := by
      intro w hw
      obtain ⟨j, hj, rfl⟩ := List.getElem_of_mem hw
      have : j = 0 := by omega
      subst this; exact hfirst
    have closer : ∀ w ∈ l, AngularCloser x m w := fun w hw k => ⟨k, by rw [all w hw]⟩
    have get0 : l[(0 : Int).toNat]? = some m := by
      simp only [Int.toNat_zero]
      rw [List.getElem?_eq_getElem hlen, hfirst]
    obtain ⟨i, f1, f2⟩ := hok.find c false
    rw [f1]
    simp only
    by_cases hi : i = -1
    · rw [if_pos hi, hsize, hone]
      refine ⟨0, m, ?_, by omega, get0, closer⟩
      simp
    · rw [if_neg hi]
      rcases f2 with f2 | ⟨v, i0, iv, ih⟩
      · exact absurd f2.1 hi
      · have hv := all v (List.mem_of_getElem? iv)
        exact ⟨i, v, rfl, i0, iv, hv ▸ closer⟩
  have hkasc : a.cont.isAscending = true := by
    cases hb : a.cont.isAscending with
    | true => rfl
    | false =>
      exfalso
      have h1 := List.pairwise_iff_getElem.1 (hok.stores.desc hb) 0 1 hlen (by omega) (by omega)
      have h2 := List.pairwise_iff_getElem.1 hasc 0 1 hlen (by omega) (by omega)
      exact lt_asymm h1 h2
  by_cases hin : c ≤ mx
  · -- inside
    obtain ⟨i, f1, f2⟩ := hok.find c false
    have f3 : Nearest l c i := by
      rcases f2 with ⟨_, _, ho⟩ | f2
      · exfalso
        rcases ho with ho | ho
        · have := ho m hmn2.1; linarith
        · have := ho mx hmx2.1; linarith
      · exact f2
    obtain ⟨v, i0, iv, ih⟩ := f3
    refine ⟨i, v, ?_, i0, iv, ?_⟩
    · rw [f1]; simp only; rw [if_neg (by omega)]
    · apply reduce v 0
      intro w hw
      have hwm := hmn2.2 w hw
      have hwx := hmx2.2 w hw
      have d1 : |c - v| ≤ c - m := by
        have := ih m hmn2.1; rwa [abs_of_nonneg (by linarith : 0 ≤ c - m)] at this
      have d2 : |c - v| ≤ mx - c := by
        have := ih mx hmx2.1
        rwa [abs_of_nonpos (by linarith : c - mx ≤ 0), neg_sub] at this
      simp only [Int.cast_zero, zero_mul, add_zero]
      exact ⟨ih w hw, by linarith, by linarith⟩
  · push Not at hin
    have habove : ∀ w ∈ l, w < c := fun w hw => lt_of_le_of_lt (hmx2.2 w hw) hin
    -- the two candidates
    have candLast : c - mx ≤ m + 360 - c → ∀ w ∈ l, AngularCloser x mx w := by
      intro hd
      apply reduce mx 0
      intro w hw
      have hwm := hmn2.2 w hw
      have hwx := hmx2.2 w hw
      simp only [Int.cast_zero, zero_mul, add_zero]
      rw [abs_of_pos (by linarith : 0 < c - mx), abs_of_pos (by linarith : 0 < c - w)]
      exact ⟨by linarith, by linarith, by linarith⟩
    have candFirst : m + 360 - c ≤ c - mx → ∀ w ∈ l, AngularCloser x m w := by
      intro hd
      apply reduce m (-1)
      intro w hw
      have hwm := hmn2.2 w hw
      have hwx := hmx2.2 w hw
      have : |c - m + ((-1 : ℤ) : K) * 360| = m + 360 - c := by
        rw [abs_of_nonpos (by push_cast; linarith)]; push_cast; ring
      rw [this, abs_of_pos (by linarith : 0 < c - w)]
      exact ⟨by linarith, by linarith, by linarith⟩
    have getLast' : l[((l.length : Int) - 1).toNat]? = some mx := by
      have : ((l.length : Int) - 1).toNat = l.length - 1 := by omega
      rw [this, List.getElem?_eq_getElem (by omega), hlast]
    have getFirst' : l[(0 : Int).toNat]? = some m := by
      simp only [Int.toNat_zero]
      rw [List.getElem?_eq_getElem hlen, hfirst]
    have branch : ∃ i v, (Except.ok (if c - mx < m + 360 - c then a.size - 1 else 0) : Out Int) = .ok i ∧
        0 ≤ i ∧ l[i.toNat]? = some v ∧ ∀ w ∈ l, AngularCloser x v w := by
      rw [hsize]
      split
      · rename_i hlt
        exact ⟨_, mx, rfl, by omega, getLast', candLast hlt.le⟩
      · rename_i hge
        exact ⟨0, m, rfl, by omega, getFirst', candFirst (not_lt.1 hge)⟩
    · obtain ⟨i, f1, f2⟩ := find_above a.cont hinv hkasc c (by rw [← e]; exact habove)
      rw [f1]
      simp only [ofi]
      by_cases hi : i = -1
      · rw [if_pos hi]; exact branch
      · rw [if_neg hi]
        rcases f2 with f2 | ⟨f2, r, hr, v', hv', hstep⟩
        · exact absurd f2 hi
        · rw [← e] at f2 hv'
          obtain ⟨v, i0, iv, ih⟩ := f2
          have hv : v ∈ l := List.mem_of_getElem? iv
          have hvmx : v = mx := by
            have := ih mx hmx2.1
            have q1 := habove v hv
            rw [abs_of_pos (by linarith), abs_of_pos (by linarith)] at this
            exact le_antisymm (hmx2.2 v hv) (by linarith)
          subst hvmx
          refine ⟨i, v, rfl, i0, iv, candLast ?_⟩
          have hv'le := hmx2.2 v' hv'
          have hcoord : ∀ j (hj : j < l.length), l[j] = r.start + (j : K) * r.step := by
            intro j hj
            have e' : l = regCoords r.start r.step r.size.toNat := by rw [e, hr]; rfl
            simp only [e']; rw [regCoords_getElem]
          have h1 : 1 < l.length := by omega
          have hst : l[1] - l[0] = r.step := by
            rw [hcoord 1 h1, hcoord 0 hlen]; push_cast; ring
          have hpos : 0 < r.step := by
            rw [← hst]
            have := List.pairwise_iff_getElem.1 hasc 0 1 hlen h1 (by omega)
            linarith
          have h360 := hreg (by simp [Axis.isRegular, hr]) h1
          rw [hst] at h360
          have hmxm : v - m = ((l.length : K) - 1) * r.step := by
            have p1 := hcoord (l.length - 1) (by omega)
            rw [hlast] at p1
            have p0 := hcoord 0 hlen
            rw [hfirst] at p0
            rw [p1, p0, Nat.cast_sub (by omega)]; push_cast; ring
          rw [abs_of_pos hpos] at hstep
          nlinarith
end

-- Non vacuity: the axis 0, 90, 180, 270; 350 is closest to 0 and 310 to 270.
example : ∃ a : Axis ℚ, mkAxis false [0, 90, 180, 270] (1/1000000) true = .ok a ∧
    a.isCircle = true ∧ Coordinates a [0, 90, 180, 270] ∧
    a.findNearestIndex 350 false = .ok 0 ∧ a.findNearestIndex (-50) false = .ok 3 :=
  ⟨⟨true, some 360, .regular ⟨4, 0, 90, 1/90, true⟩⟩, by decide +kernel, rfl,
    ⟨rfl, by decide +kernel⟩, by decide +kernel, by decide +kernel⟩

/-- C59 fails for decreasing axes: on the axis 270, 180, 90, 0 the index found for
350 is that of 270 (80 degrees away) although 0 is 10 degrees away: the function
takes the last index for the largest coordinate. -/
theorem C59_descending_wrong :
    ∃ a : Axis ℚ, mkAxis false [270, 180, 90, 0] (1/1000000) true = .ok a ∧
      a.isCircle = true ∧ Coordinates a [270, 180, 90, 0] ∧
      a.findNearestIndex 350 false = .ok 0 ∧ ¬ AngularCloser (350 : ℚ) 270 0 := by
  refine ⟨⟨true, some 360, .regular ⟨4, 270, -90, -1/90, false⟩⟩, by decide +kernel, rfl,
    ⟨rfl, by decide +kernel⟩, by decide +kernel, ?_⟩
  intro h
  obtain ⟨k, hk⟩ := h (-1)
  rw [show |(350 : ℚ) - 0 + ((-1 : ℤ) : ℚ) * 360| = 10 by norm_num] at hk
  rw [abs_le] at hk
  have h1 : (-1 : ℚ) < k := by linarith
  have h2 : (k : ℚ) < 0 := by linarith
  have h3 : (-1 : ℤ) < k := by exact_mod_cast h1
  have h4 : k < 0 := by exact_mod_cast h2
  omega

/-- With `bounded` set, the circle is not closed: the last index is returned for
every angle above the last coordinate. -/
theorem C59_bounded_not_circular :
    ∃ a : Axis ℚ, mkAxis false [0, 90, 180, 270] (1/1000000) true = .ok a ∧
      a.findNearestIndex 350 true = .ok 3 :=
  ⟨⟨true, some 360, .regular ⟨4, 0, 90, 1/90, true⟩⟩, by decide +kernel, by decide +kernel⟩

end Pyinterp
