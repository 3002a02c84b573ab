import Mathlib.Tactic.Ring
import Mathlib.Tactic.Positivity
import Mathlib.Tactic.FieldSimp
import Mathlib.Algebra.Order.Field.Rat
import Verif.Lemmas.Orbit
import Verif.Spec.Orbit

/-
C86: the coordinates of a pass at the equator.
-/
namespace Pyinterp
open Passes Spec

section
variable {K : Type} [Field K] [LinearOrder K]

/-- `argmin`: an index of the list, the first one of the smallest absolute value. -/
theorem argminAbs_spec (lat : List K) (h : lat ≠ []) :
    argminAbs lat < lat.length ∧ (∀ k, k < lat.length → |lat.getD (argminAbs lat) 0| ≤ |lat.getD k 0|) := by
  have hn : 0 < lat.length := List.length_pos_iff.mpr h
  unfold argminAbs
  have key : ∀ m, m ≤ lat.length → ((List.range m).foldl (fun b k => if |lat.getD k 0| < |lat.getD b 0| then k else b) 0 < lat.length ∧
      ∀ k, k < m → |lat.getD ((List.range m).foldl (fun b k => if |lat.getD k 0| < |lat.getD b 0| then k else b) 0) 0| ≤ |lat.getD k 0|) := by
    intro m
    induction m with
    | zero => intro _; exact ⟨by simpa using hn, by simp⟩
    | succ m ih =>
      intro hm
      obtain ⟨h1, h2⟩ := ih (by omega)
      rw [List.range_succ, List.foldl_append]
      simp only [List.foldl_cons, List.foldl_nil]
      split_ifs with hc
      · refine ⟨by omega, ?_⟩
        intro k hk
        rcases Nat.lt_or_ge k m with hk' | hk'
        · exact le_trans hc.le (h2 k hk')
        · have : k = m := by omega
          subst this; exact le_rfl
      · refine ⟨h1, ?_⟩
        intro k hk
        rcases Nat.lt_or_ge k m with hk' | hk'
        · exact h2 k hk'
        · have : k = m := by omega
          subst this; exact not_lt.mp hc
  obtain ⟨h1, h2⟩ := key lat.length le_rfl
  exact ⟨h1, h2⟩

/-- C86. The two samples used: neighbours, in this order, in the pass; or, only if the sample nearest to the equator is the first one
and the second one is not on the same side, the samples 1 and 0. -/
theorem C86_neighbours (lat : List K) (h : 2 ≤ lat.length) :
    ((equatorIndexes lat).2 = (equatorIndexes lat).1 + 1 ∧ (equatorIndexes lat).2 < lat.length ∧
      (argminAbs lat = (equatorIndexes lat).1 ∨ argminAbs lat = (equatorIndexes lat).2)) ∨
    (equatorIndexes lat = (1, 0) ∧ argminAbs lat = 0 ∧ lat.getD 1 0 * lat.getD 0 0 ≤ 0) := by
  have hne : lat ≠ [] := List.length_pos_iff.mp (by omega)
  obtain ⟨h1, _⟩ := argminAbs_spec lat hne
  unfold equatorIndexes
  dsimp only
  by_cases hpos : argminAbs lat > 0
  · rw [if_pos hpos]
    left
    split_ifs with hc hd
    · exact ⟨rfl, by simp; omega, Or.inl rfl⟩
    · exact ⟨by simp; omega, by simpa using h1, Or.inr rfl⟩
    · exact ⟨by simp; omega, by simpa using h1, Or.inr rfl⟩
  · have h0 : argminAbs lat = 0 := by omega
    rw [if_neg hpos, h0]
    split_ifs with hc hd
    · left; exact ⟨rfl, by simp; omega, Or.inl rfl⟩
    · omega
    · right; exact ⟨rfl, rfl, not_lt.mp hc⟩

theorem growing_iff {lat : List K} (h : lat.Pairwise (· < ·)) (i j : Nat) (hi : i < j) (hj : j < lat.length) :
    lat.getD i 0 < lat.getD j 0 := by
  rw [List.getD_eq_getElem _ _ (by omega), List.getD_eq_getElem _ _ hj]
  exact List.pairwise_iff_getElem.mp h i j (by omega) hj hi

theorem falling_iff {lat : List K} (h : lat.Pairwise (· > ·)) (i j : Nat) (hi : i < j) (hj : j < lat.length) :
    lat.getD j 0 < lat.getD i 0 := by
  rw [List.getD_eq_getElem _ _ hj, List.getD_eq_getElem _ _ (show i < lat.length by omega)]
  exact List.pairwise_iff_getElem.mp h i j (by omega) hj hi

variable [IsStrictOrderedRing K]

/-- C86. For a half-orbit that crosses the equator, with its nearest sample after the first one, the two samples are on both sides of
the equator (or on it). -/
theorem C86_bracket (lat : List K) (h : 2 ≤ lat.length) (hh : HalfOrbit lat)
    (hcross : lat.getD 0 0 * lat.getD (lat.length - 1) 0 ≤ 0) (hfirst : argminAbs lat ≠ 0) :
    lat.getD (equatorIndexes lat).1 0 * lat.getD (equatorIndexes lat).2 0 ≤ 0 := by
  have hne : lat ≠ [] := List.length_pos_iff.mp (by omega)
  obtain ⟨h1, h2⟩ := argminAbs_spec lat hne
  set i := argminAbs lat with hi
  unfold equatorIndexes
  rw [← hi]
  dsimp only
  rw [if_pos (show i > 0 by omega)]
  by_cases hc : lat.getD (i - 1) 0 * lat.getD i 0 > 0
  · rw [if_pos hc]
    have hprev := h2 (i - 1) (by omega)
    rcases hh with hg | hg
    · -- growing: the two samples are in the south
      have hstep := growing_iff hg (i - 1) i (by omega) h1
      have hneg : lat.getD i 0 < 0 := by
        by_contra hcn
        have hp : 0 < lat.getD i 0 := lt_of_le_of_ne (not_lt.mp hcn) (fun e => by rw [← e] at hc; simp at hc)
        have hp' : 0 < lat.getD (i - 1) 0 := (pos_iff_pos_of_mul_pos hc).mpr hp
        rw [abs_of_pos hp, abs_of_pos hp'] at hprev
        linarith
      have hlt : i < lat.length - 1 := by
        by_contra hge
        have e : lat.length - 1 = i := by omega
        rw [e] at hcross
        rcases Nat.eq_or_lt_of_le (show 0 ≤ i by omega) with h0 | h0
        · omega
        · have := growing_iff hg 0 i h0 h1
          nlinarith
      rw [if_pos hlt]
      have hnext : 0 ≤ lat.getD (i + 1) 0 := by
        by_contra hcn
        have := growing_iff hg i (i + 1) (by omega) (by omega)
        have := h2 (i + 1) (by omega)
        rw [abs_of_neg hneg, abs_of_neg (not_le.mp hcn)] at this
        linarith
      exact mul_nonpos_of_nonpos_of_nonneg hneg.le hnext
    · have hstep := falling_iff hg (i - 1) i (by omega) h1
      have hpos : 0 < lat.getD i 0 := by
        by_contra hcn
        have hp : lat.getD i 0 < 0 := lt_of_le_of_ne (not_lt.mp hcn) (fun e => by rw [e] at hc; simp at hc)
        have hp' : lat.getD (i - 1) 0 < 0 := by
          by_contra hcn'
          nlinarith
        rw [abs_of_neg hp, abs_of_neg hp'] at hprev
        linarith
      have hlt : i < lat.length - 1 := by
        by_contra hge
        have e : lat.length - 1 = i := by omega
        rw [e] at hcross
        have := falling_iff hg 0 i (by omega) h1
        nlinarith
      rw [if_pos hlt]
      have hnext : lat.getD (i + 1) 0 ≤ 0 := by
        by_contra hcn
        have := falling_iff hg i (i + 1) (by omega) (by omega)
        have := h2 (i + 1) (by omega)
        rw [abs_of_pos hpos, abs_of_pos (not_le.mp hcn)] at this
        linarith
      exact mul_nonpos_of_nonneg_of_nonpos hpos.le hnext
  · rw [if_neg hc]
    exact not_lt.mp hc

theorem slice_length {T : Type} (l : List T) (i0 i1 : Nat) : (slice l i0 i1).length = min (i1 + 1) l.length - i0 := by
  simp [slice]

theorem slice_getD {T : Type} (l : List T) (d : T) {i0 i1 k : Nat} (h : i0 + k ≤ i1) : (slice l i0 i1).getD k d = l.getD (i0 + k) d := by
  unfold slice
  rw [List.getD_eq_getElem?_getD, List.getElem?_drop, List.getElem?_take, if_pos (by omega), List.getD_eq_getElem?_getD]

variable [FloorRing K]

/-- Finding (C86): a pass that crosses the equator and whose first sample is the nearest one to the equator (a pass cut by a box, for
instance) is refused: the slice of the two samples is empty, `IndexError`. -/
theorem C86_first_sample_false (meet : List K → List K → Option K) (dist : List K → List K → List K) (lon lat : List K)
    (time : List Int) (hl : lon.length = lat.length) (h : 2 ≤ lat.length) (hh : HalfOrbit lat)
    (hcross : lat.getD 0 0 * lat.getD (lat.length - 1) 0 ≤ 0) (hfirst : argminAbs lat = 0) :
    equatorProperties meet dist lon lat time = .error .exn := by
  have hne : lat ≠ [] := List.length_pos_iff.mp (by omega)
  obtain ⟨h1, h2⟩ := argminAbs_spec lat hne
  rw [hfirst] at h2
  have hprod : ¬ lat.getD 1 0 * lat.getD 0 0 > 0 := by
    intro hc
    have habs := h2 1 (by omega)
    rcases hh with hg | hg
    · have hs := growing_iff hg 0 1 (by omega) (by omega)
      by_cases hp : 0 < lat.getD 0 0
      · have hlast : lat.getD 0 0 < lat.getD (lat.length - 1) 0 := growing_iff hg 0 _ (by omega) (by omega)
        nlinarith
      · have h0 : lat.getD 0 0 < 0 := lt_of_le_of_ne (not_lt.mp hp) (fun e => by rw [e] at hc; simp at hc)
        have h1' : lat.getD 1 0 < 0 := by
          by_contra hcn
          nlinarith
        rw [abs_of_neg h0, abs_of_neg h1'] at habs
        linarith
    · have hs := falling_iff hg 0 1 (by omega) (by omega)
      by_cases hp : lat.getD 0 0 < 0
      · have hlast : lat.getD (lat.length - 1) 0 < lat.getD 0 0 := falling_iff hg 0 _ (by omega) (by omega)
        nlinarith
      · have h0 : 0 < lat.getD 0 0 := lt_of_le_of_ne (not_lt.mp hp) (fun e => by rw [← e] at hc; simp at hc)
        have h1' : 0 < lat.getD 1 0 := (pos_iff_pos_of_mul_pos hc).mpr h0
        rw [abs_of_pos h0, abs_of_pos h1'] at habs
        linarith
  have hidx : equatorIndexes lat = (1, 0) := by
    unfold equatorIndexes
    rw [hfirst]
    dsimp only
    rw [if_neg (show ¬ (0 : Nat) > 0 by omega), if_neg hprod]
  unfold equatorProperties
  rw [if_neg (by omega), hidx]
  have : slice lon 1 0 = [] := by
    apply List.eq_nil_of_length_eq_zero
    rw [slice_length]; omega
  dsimp only
  rw [this]
  rfl

theorem trunc_between {x : K} {a b : Int} (h1 : (a : K) ≤ x) (h2 : x ≤ b) : a ≤ trunc x ∧ trunc x ≤ b := by
  unfold trunc
  split_ifs
  · constructor
    · exact_mod_cast le_trans h1 (Int.le_ceil x)
    · exact Int.ceil_le.mpr h2
  · constructor
    · exact Int.le_floor.mpr h1
    · exact_mod_cast le_trans (Int.floor_le x) h2

/-- C86. In the other cases there is no error: the longitude is the one of the intersection of the segment of the two samples with the
equator (undefined without an intersection), the time is between the times of the two samples, whatever the distances. -/
theorem C86_time (meet : List K → List K → Option K) (dist : List K → List K → List K) (lon lat : List K) (time : List Int)
    (hl : lon.length = lat.length) (ht : time.length = lat.length) (h : 2 ≤ lat.length) (hs : time.Pairwise (· ≤ ·))
    (hok : argminAbs lat ≠ 0 ∨ 0 < lat.getD 0 0 * lat.getD 1 0) :
    ∃ i, i + 1 < lat.length ∧ (argminAbs lat = i ∨ argminAbs lat = i + 1) ∧
      ((meet [lon.getD i 0, lon.getD (i + 1) 0] [lat.getD i 0, lat.getD (i + 1) 0] = none ∧
          equatorProperties meet dist lon lat time = .ok none) ∨
       ∃ x t, meet [lon.getD i 0, lon.getD (i + 1) 0] [lat.getD i 0, lat.getD (i + 1) 0] = some x ∧
          equatorProperties meet dist lon lat time = .ok (some (x, t)) ∧
          time.getD i 0 ≤ t ∧ t ≤ time.getD (i + 1) 0) := by
  have hne : lat ≠ [] := List.length_pos_iff.mp (by omega)
  have hnb := C86_neighbours lat h
  have hcase : (equatorIndexes lat).2 = (equatorIndexes lat).1 + 1 ∧ (equatorIndexes lat).2 < lat.length ∧
      (argminAbs lat = (equatorIndexes lat).1 ∨ argminAbs lat = (equatorIndexes lat).2) := by
    rcases hnb with hx | ⟨_, h0, hp⟩
    · exact hx
    · rcases hok with hx | hx
      · exact absurd h0 hx
      · rw [mul_comm] at hx; linarith
  obtain ⟨e1, e2, e3⟩ := hcase
  set i := (equatorIndexes lat).1 with hi
  have hpair : equatorIndexes lat = (i, i + 1) := by rw [hi, ← e1]
  rw [e1] at e2 e3
  have hslice : ∀ (l : List K), l.length = lat.length → slice l i (i + 1) = [l.getD i 0, l.getD (i + 1) 0] := by
    intro l hll
    apply List.ext_getElem
    · rw [slice_length, hll]; simp; omega
    · intro k k1 k2
      have hk : k < 2 := by simpa using k2
      rw [← List.getD_eq_getElem _ 0 k1, slice_getD l 0 (by omega)]
      rcases k with _ | _ | k
      · simp
      · simp
      · omega
  refine ⟨i, e2, e3, ?_⟩
  have hpre : equatorProperties meet dist lon lat time = (match meet [lon.getD i 0, lon.getD (i + 1) 0] [lat.getD i 0, lat.getD (i + 1) 0] with
      | none => .ok none
      | some x =>
        let d := dist [lon.getD i 0, x, lon.getD (i + 1) 0] [lat.getD i 0, 0, lat.getD (i + 1) 0]
        .ok (some (x, trunc (interp2 (d.getD 1 0) (d.getD 0 0) (d.getD 2 0) ((time.getD i 0 : Int) : K) ((time.getD (i + 1) 0 : Int) : K))))) := by
    unfold equatorProperties
    rw [if_neg (by omega), hpair]
    dsimp only
    rw [hslice lon hl, hslice lat rfl, slice_getD time 0 (show i + 0 ≤ i + 1 by omega), slice_getD time 0 (show i + 1 ≤ i + 1 by omega)]
    rfl
  rw [hpre]
  cases hm : meet [lon.getD i 0, lon.getD (i + 1) 0] [lat.getD i 0, lat.getD (i + 1) 0] with
  | none => left; exact ⟨rfl, rfl⟩
  | some x =>
    right
    refine ⟨x, _, rfl, rfl, ?_⟩
    have htt : time.getD i 0 ≤ time.getD (i + 1) 0 := by
      rw [List.getD_eq_getElem _ _ (show i < time.length by omega), List.getD_eq_getElem _ _ (show i + 1 < time.length by omega)]
      exact List.pairwise_iff_getElem.mp hs i (i + 1) (by omega) (by omega) (by omega)
    apply trunc_between
    · unfold interp2
      have hc : ((time.getD i 0 : Int) : K) ≤ ((time.getD (i + 1) 0 : Int) : K) := by exact_mod_cast htt
      split_ifs with c1 c2
      · exact hc
      · exact le_rfl
      · have hx : 0 ≤ (dist [lon.getD i 0, x, lon.getD (i + 1) 0] [lat.getD i 0, 0, lat.getD (i + 1) 0]).getD 1 0 -
            (dist [lon.getD i 0, x, lon.getD (i + 1) 0] [lat.getD i 0, 0, lat.getD (i + 1) 0]).getD 0 0 := by linarith
        have hw : 0 < (dist [lon.getD i 0, x, lon.getD (i + 1) 0] [lat.getD i 0, 0, lat.getD (i + 1) 0]).getD 2 0 -
            (dist [lon.getD i 0, x, lon.getD (i + 1) 0] [lat.getD i 0, 0, lat.getD (i + 1) 0]).getD 0 0 := by linarith
        have := mul_nonneg (div_nonneg (sub_nonneg.mpr hc) hw.le) hx
        linarith
    · unfold interp2
      have hc : ((time.getD i 0 : Int) : K) ≤ ((time.getD (i + 1) 0 : Int) : K) := by exact_mod_cast htt
      split_ifs with c1 c2
      · exact le_rfl
      · exact hc
      · set d0 := (dist [lon.getD i 0, x, lon.getD (i + 1) 0] [lat.getD i 0, 0, lat.getD (i + 1) 0]).getD 0 0
        set d1 := (dist [lon.getD i 0, x, lon.getD (i + 1) 0] [lat.getD i 0, 0, lat.getD (i + 1) 0]).getD 1 0
        set d2 := (dist [lon.getD i 0, x, lon.getD (i + 1) 0] [lat.getD i 0, 0, lat.getD (i + 1) 0]).getD 2 0
        have hw : 0 < d2 - d0 := by linarith
        have hle : d1 - d0 ≤ d2 - d0 := by linarith
        have h3 := mul_le_mul_of_nonneg_left hle (div_nonneg (sub_nonneg.mpr hc) hw.le)
        rw [div_mul_cancel₀ _ hw.ne'] at h3
        linarith

end

/-- A pass from south to north. -/
example : HalfOrbit ([-60, -20, -3, 5, 30] : List ℚ) ∧ argminAbs ([-60, -20, -3, 5, 30] : List ℚ) = 2 ∧
    equatorIndexes ([-60, -20, -3, 5, 30] : List ℚ) = (2, 3) := by
  refine ⟨Or.inl (by decide +kernel), by decide +kernel, by decide +kernel⟩

/-- The same pass cut by a box south of -4 degrees, and one sample lost: the first sample is the nearest one. -/
example : HalfOrbit ([-3, 5, 30] : List ℚ) ∧ argminAbs ([-3, 5, 30] : List ℚ) = 0 := ⟨Or.inl (by decide +kernel), by decide +kernel⟩

end Pyinterp
