import Mathlib.Tactic.IntervalCases
import Mathlib.Algebra.Order.Ring.Defs
import Mathlib.Algebra.Order.Field.Rat
import Verif.Props.C83_Pass

/-
C84: the passes are half-orbits: from one extreme latitude to the next one.
C85: the orbit rearranged from pass 1.
-/
namespace Pyinterp
open Passes Spec

section
variable {K : Type} [Field K] [LinearOrder K] [IsStrictOrderedRing K]

/-- Between two turning points the latitudes grow or decrease. -/
theorem monotone_between (lat : List K) (hne : ∀ k, k + 1 < lat.length → lat.getD k 0 ≠ lat.getD (k + 1) 0)
    {a b : Nat} (hb : b ≤ lat.length) (hno : ∀ k, a + 1 < k → k < b → k ∉ turnings lat) :
    (∀ i j, a ≤ i → i < j → j < b → lat.getD i 0 < lat.getD j 0) ∨
    (∀ i j, a ≤ i → i < j → j < b → lat.getD j 0 < lat.getD i 0) := by
  have hdy : ∀ k, k + 1 < lat.length → (dyOf lat).getD (k + 1) 0 = lat.getD k 0 - lat.getD (k + 1) 0 := by
    intro k hk
    rw [dyOf_getD lat hk]
    simp [prevIdx]
  by_cases hab : a + 1 < b
  · -- the sign of the first step is kept
    have hstep : ∀ k, a + 1 < k → k < b → ((dyOf lat).getD k 0 < 0 ↔ (dyOf lat).getD (k - 1) 0 < 0) := by
      intro k h1 h2
      have hk := hno k h1 h2
      rw [mem_turnings] at hk
      have hprev : prevIdx lat.length k = k - 1 := by unfold prevIdx; rw [if_neg (by omega)]
      rw [hprev] at hk
      push Not at hk
      obtain ⟨g1, g2⟩ := hk (by omega)
      have n1 : (dyOf lat).getD k 0 ≠ 0 := by
        obtain ⟨k', rfl⟩ : ∃ k', k = k' + 1 := ⟨k - 1, by omega⟩
        rw [hdy k' (by omega)]
        exact sub_ne_zero.mpr (hne k' (by omega))
      constructor
      · exact g1
      · intro h
        by_contra hc
        have : 0 < (dyOf lat).getD k 0 := lt_of_le_of_ne (not_lt.mp hc) (Ne.symm n1)
        have := g2 this
        linarith
    have hall : ∀ m, a + 1 + m < b → ((dyOf lat).getD (a + 1 + m) 0 < 0 ↔ (dyOf lat).getD (a + 1) 0 < 0) := by
      intro m
      induction m with
      | zero => intro _; simp
      | succ m ih =>
        intro hm
        rw [← ih (by omega)]
        have := hstep (a + 1 + (m + 1)) (by omega) hm
        rwa [show a + 1 + (m + 1) - 1 = a + 1 + m by omega] at this
    by_cases hs : (dyOf lat).getD (a + 1) 0 < 0
    · left
      have hup : ∀ k, a ≤ k → k + 1 < b → lat.getD k 0 < lat.getD (k + 1) 0 := by
        intro k h1 h2
        have := (hall (k - a) (by omega)).mpr hs
        rw [show a + 1 + (k - a) = k + 1 by omega, hdy k (by omega)] at this
        linarith
      intro i j hi hij hj
      induction j with
      | zero => omega
      | succ j ih =>
        rcases Nat.lt_or_ge i j with h | h
        · exact lt_trans (ih h (by omega)) (hup j (by omega) hj)
        · have : i = j := by omega
          subst this
          exact hup i hi hj
    · right
      have hdn : ∀ k, a ≤ k → k + 1 < b → lat.getD (k + 1) 0 < lat.getD k 0 := by
        intro k h1 h2
        have := mt (hall (k - a) (by omega)).mp hs
        rw [show a + 1 + (k - a) = k + 1 by omega, hdy k (by omega)] at this
        have := hne k (by omega)
        rcases lt_or_gt_of_ne this with h | h
        · linarith
        · exact h
      intro i j hi hij hj
      induction j with
      | zero => omega
      | succ j ih =>
        rcases Nat.lt_or_ge i j with h | h
        · exact lt_trans (hdn j (by omega) hj) (ih h (by omega))
        · have : i = j := by omega
          subst this
          exact hdn i hi hj
  · left
    intro i j h1 h2 h3
    omega

omit [IsStrictOrderedRing K] in
/-- The dates of the passes are these of the samples 0 and of the turning points after the first one. -/
theorem passTime_eq {lat : List K} {time pt : List Int} (hl : lat.length = time.length)
    (h : calculatePassTime lat time = .ok pt) :
    pt.length = (turnings lat).length ∧ 0 < (turnings lat).length ∧
    (∀ p (hp : p < (turnings lat).length), pt.getD p 0 = time.getD (if p = 0 then 0 else (turnings lat)[p]) 0) := by
  unfold calculatePassTime at h
  cases ht : turnings lat with
  | nil => rw [ht] at h; cases h
  | cons i rest =>
    rw [ht] at h
    have h := Except.ok.inj h
    have hb : ∀ j ∈ (0 :: rest), j < time.length := by
      intro j hj
      have hi := (mem_turnings lat i).mp (by rw [ht]; simp)
      rcases List.mem_cons.mp hj with rfl | hj
      · omega
      · have := (mem_turnings lat j).mp (by rw [ht]; simp [hj])
        omega
    rw [gather_eq_map 0 hb] at h
    refine ⟨by rw [← h]; simp, by simp, ?_⟩
    intro p hp
    rw [← h, List.getD_eq_getElem _ _ (by simpa using hp), List.getElem_map]
    cases p with
    | zero => simp
    | succ p => simp

variable [FloorRing K]

/-- C84. The passes of an orbit whose dates are these computed by `_calculate_pass_time` are half-orbits: the latitudes of the
samples of a pass all grow or all decrease. This holds for every pass from the second one on, and for the first one if the first
turning point is one of the two first samples. Two consecutive latitudes are different and the dates grow. -/
theorem C84_half_orbit (meet : List K → List K → Option K) (dist : List K → List K → List K) (o : Orbit K)
    (h1 : o.longitude.length = o.time.length) (h2 : o.latitude.length = o.time.length) (h3 : o.xAl.length = o.time.length)
    (hpt : calculatePassTime o.latitude o.time = .ok o.passTime) (htime : o.time.Pairwise (· < ·))
    (hne : ∀ k, k + 1 < o.latitude.length → o.latitude.getD k 0 ≠ o.latitude.getD (k + 1) 0)
    {p : Nat} (hp1 : 1 ≤ p) (hp : p ≤ o.passTime.length) (hfirst : p = 1 → (turnings o.latitude).getD 0 0 ≤ 1)
    (r : Pass K) (hr : calculatePass meet dist p o none = .ok (some r)) : HalfOrbit r.lat := by
  obtain ⟨l1, l2, l3⟩ := passTime_eq h2 hpt
  set tn := turnings o.latitude with htn
  have hsort := turnings_sorted o.latitude
  rw [← htn] at hsort
  have hbnd : ∀ i (h : i < tn.length), tn[i] < o.time.length := by
    intro i h
    have := (mem_turnings o.latitude tn[i]).mp (List.getElem_mem h)
    omega
  have htm : ∀ i j, i < o.time.length → j < o.time.length → (o.time.getD i 0 < o.time.getD j 0 ↔ i < j) := by
    intro i j hi hj
    rw [List.getD_eq_getElem _ _ hi, List.getD_eq_getElem _ _ hj]
    constructor
    · intro h
      by_contra hc
      rcases Nat.lt_or_ge j i with h' | h'
      · have := List.pairwise_iff_getElem.mp htime j i hj hi h'
        omega
      · have : i = j := by omega
        subst this
        omega
    · intro h
      exact List.pairwise_iff_getElem.mp htime i j hi hj h
  -- the samples of the pass are the indexes from `a` to `b`
  set a := if p - 1 = 0 then 0 else tn[p - 1]'(by omega) with ha
  set b := if h : p < tn.length then tn[p] else o.time.length with hb
  have hn0 : 0 < o.time.length := by
    have := hbnd 0 l2
    omega
  have hab : ∀ k, k < o.time.length → InPass o.passTime p (o.time.getD k 0) → a ≤ k ∧ k < b := by
    intro k hk hin
    obtain ⟨i1, i2⟩ := hin
    rw [l3 (p - 1) (by omega)] at i1
    have halt : a < o.time.length := by
      rw [ha]; split_ifs
      · exact hn0
      · exact hbnd _ _
    constructor
    · by_contra hc
      have := (htm k a hk halt).mpr (by omega)
      rw [ha] at this
      omega
    · rw [hb]
      split_ifs with hlt
      · have hi2 := i2 (by omega)
        rw [l3 p hlt, if_neg (by omega)] at hi2
        exact (htm k _ hk (hbnd p hlt)).mp hi2
      · exact hk
  have hble : b ≤ o.latitude.length := by
    rw [hb]; split_ifs with hlt
    · have := hbnd p hlt; omega
    · omega
  have hno : ∀ k, a + 1 < k → k < b → k ∉ turnings o.latitude := by
    intro k k1 k2 hmem
    rw [← htn] at hmem
    obtain ⟨i, hi, rfl⟩ := List.getElem_of_mem hmem
    -- `tn[i] < b` means `i < p`
    have hip : i < p := by
      rw [hb] at k2
      by_cases hlt : p < tn.length
      · rw [dif_pos hlt] at k2
        by_contra hc
        rcases Nat.eq_or_lt_of_le (not_lt.mp hc) with h' | h'
        · simp only [h'] at k2; omega
        · have := List.pairwise_iff_getElem.mp hsort p i hlt hi h'
          omega
      · omega
    by_cases hp0 : p - 1 = 0
    · have hf := hfirst (by omega)
      rw [List.getD_eq_getElem _ _ l2] at hf
      have hi0 : i = 0 := by omega
      subst hi0
      omega
    · rw [ha, if_neg hp0] at k1
      rcases Nat.eq_or_lt_of_le (show i ≤ p - 1 by omega) with h' | h'
      · simp only [h'] at k1; omega
      · have := List.pairwise_iff_getElem.mp hsort i (p - 1) hi (by omega) h'
        omega
  have hlat : r.lat = (((List.range o.time.length).filter
      fun k => decide (InPass o.passTime p (o.time.getD k 0))).map fun k => o.latitude.getD k 0) := by
    unfold calculatePass at hr
    rw [passIndexes_eq o hp1 hp] at hr
    have hr' : (if ((List.range o.time.length).filter fun k => decide (InPass o.passTime p (o.time.getD k 0))).length < 5 then
        (Except.ok none : Out (Option (Pass K))) else finishPass meet dist
          (gather o.longitude ((List.range o.time.length).filter fun k => decide (InPass o.passTime p (o.time.getD k 0))))
          (gather o.latitude ((List.range o.time.length).filter fun k => decide (InPass o.passTime p (o.time.getD k 0))))
          (gather o.time ((List.range o.time.length).filter fun k => decide (InPass o.passTime p (o.time.getD k 0))))
          (gather o.xAl ((List.range o.time.length).filter fun k => decide (InPass o.passTime p (o.time.getD k 0))))) =
        .ok (some r) := hr
    split_ifs at hr' with h5
    · cases hr'
    · unfold finishPass at hr'
      cases he : equatorProperties meet dist
        (gather o.longitude ((List.range o.time.length).filter fun k => decide (InPass o.passTime p (o.time.getD k 0))))
        (gather o.latitude ((List.range o.time.length).filter fun k => decide (InPass o.passTime p (o.time.getD k 0))))
        (gather o.time ((List.range o.time.length).filter fun k => decide (InPass o.passTime p (o.time.getD k 0)))) with
      | error e => rw [he] at hr'; cases hr'
      | ok eq =>
        rw [he] at hr'
        have := Option.some.inj (Except.ok.inj hr')
        rw [← this]
        apply gather_eq_map
        intro i hi
        simp only [List.mem_filter, List.mem_range] at hi
        omega
  have hpw : ((List.range o.time.length).filter fun k => decide (InPass o.passTime p (o.time.getD k 0))).Pairwise (· < ·) :=
    List.Pairwise.filter _ List.pairwise_lt_range
  have hin : ∀ k ∈ (List.range o.time.length).filter fun k => decide (InPass o.passTime p (o.time.getD k 0)), a ≤ k ∧ k < b := by
    intro k hk
    simp only [List.mem_filter, List.mem_range, decide_eq_true_eq] at hk
    exact hab k hk.1 hk.2
  rw [hlat]
  rcases monotone_between o.latitude hne hble hno with hm | hm
  · left
    rw [List.pairwise_map]
    refine hpw.imp_of_mem ?_
    intro i j hi hj hij
    exact hm i j (hin i hi).1 hij (hin j hj).2
  · right
    rw [List.pairwise_map]
    refine hpw.imp_of_mem ?_
    intro i j hi hj hij
    exact hm i j (hin i hi).1 hij (hin j hj).2

omit [IsStrictOrderedRing K] [FloorRing K] in
/-- C84. As many passes as turning points; the first one begins with the first sample; an ephemeris without turning point is an
error. -/
theorem C84_pass_time (lat : List K) (time : List Int) (hl : lat.length = time.length) :
    (turnings lat = [] → calculatePassTime lat time = .error .exn) ∧
    (turnings lat ≠ [] → ∃ pt, calculatePassTime lat time = .ok pt ∧ pt.length = (turnings lat).length ∧ pt.getD 0 0 = time.getD 0 0 ∧
      ∀ t ∈ pt, t ∈ time) := by
  constructor
  · intro h
    unfold calculatePassTime; rw [h]
  · intro h
    obtain ⟨i, rest, hir⟩ := List.exists_cons_of_ne_nil h
    have hok : calculatePassTime lat time = .ok (gather time (0 :: rest)) := by
      unfold calculatePassTime; rw [hir]
    obtain ⟨l1, l2, l3⟩ := passTime_eq hl hok
    refine ⟨_, hok, l1, by simpa using l3 0 l2, ?_⟩
    intro t ht
    unfold gather at ht
    rw [List.mem_filterMap] at ht
    obtain ⟨j, _, hj⟩ := ht
    exact List.mem_of_getElem? hj

end

/-- Two and a half orbits from the southernmost point: the passes 1 to 4. -/
def demoLat : List ℚ := [-66, -40, -10, 10, 40, 66, 40, 10, -10, -40, -66, -40, -10, 10, 40, 66, 40, 10, -10, -40]

/-- The orbit of these latitudes, a sample every second. -/
def demoOrbit : Orbit ℚ := ⟨demoLat, List.replicate 20 0, [0, 6, 11, 16], (List.range 20).map (fun i : Nat => (i : Int)), List.replicate 20 0⟩

example : calculatePassTime demoOrbit.latitude demoOrbit.time = .ok demoOrbit.passTime := by decide +kernel

example : ∃ r, calculatePass (fun _ _ => none) (fun _ _ => []) ((3 : Nat) : Int) demoOrbit none = .ok (some r) ∧ HalfOrbit r.lat := by
  have h : (calculatePass (fun _ _ => none) (fun _ _ => []) ((3 : Nat) : Int) demoOrbit none).map (fun r => r.isSome) = .ok true := by
    decide +kernel
  cases hc : calculatePass (fun _ _ => none) (fun _ _ => []) ((3 : Nat) : Int) demoOrbit none with
  | error e => rw [hc] at h; cases h
  | ok x =>
    cases x with
    | none => rw [hc] at h; cases h
    | some r =>
      exact ⟨r, rfl, C84_half_orbit _ _ demoOrbit (by decide) (by decide) (by decide) (by decide +kernel) (by decide)
        (by
          have hall : ∀ k ∈ List.range 19, demoLat.getD k 0 ≠ demoLat.getD (k + 1) 0 := by decide +kernel
          intro k hk
          exact hall k (List.mem_range.mpr (by have : demoOrbit.latitude.length = 20 := by decide
                                               omega)))
        (by decide) (by decide) (by decide) r hc⟩

/-- An orbit that begins in the middle of a pass, above 40 degrees (so that the beginning is not cut): the latitudes of the first pass
go up, then down. -/
def midLat : List ℚ := [50, 60, 66, 40, 10, -10, -40, -66, -40, -10, 10, 40]

/-- Finding (C84): the first pass of an orbit that begins in the middle of a pass is not a half-orbit: the first turning point is
replaced by the first sample. -/
theorem C84_first_pass_false : ∃ (o : Orbit ℚ) (r : Pass ℚ), calculatePassTime o.latitude o.time = .ok o.passTime ∧
    o.time.Pairwise (· < ·) ∧ (skew o.longitude o.latitude o.time = .ok (o.longitude, o.latitude, o.time)) ∧
    calculatePass (fun _ _ => none) (fun _ _ => []) 1 o none = .ok (some r) ∧ r.lat = [50, 60, 66, 40, 10, -10, -40, -66] ∧
    ¬ HalfOrbit r.lat := by
  refine ⟨⟨midLat, List.replicate 12 0, [0, 8], (List.range 12).map (fun i : Nat => (i : Int)), List.replicate 12 0⟩,
    ⟨List.replicate 8 0, [50, 60, 66, 40, 10, -10, -40, -66], [0, 1, 2, 3, 4, 5, 6, 7], List.replicate 8 0, none⟩,
    by decide +kernel, by decide, ?_, ?_, rfl, ?_⟩
  · rfl
  · decide +kernel
  · unfold HalfOrbit
    decide +kernel

/-- Finding (C84): two equal consecutive latitudes split a half-orbit in two passes: five samples grow, two passes begin. -/
theorem C84_plateau_false : turnings ([-66, -40, -10, -10, 10, 40, 66, 0] : List ℚ) = [1, 4, 7] ∧
    turnings ([-66, -40, -10, -9, 10, 40, 66, 0] : List ℚ) = [1, 7] := by decide +kernel

section
variable {K : Type} [Field K] [LinearOrder K]

/-- The ascents are at least two samples apart. -/
theorem ascents_apart (lat : List K) (i j : Nat) (hi : i ∈ ascents lat) (hj : j ∈ ascents lat) (h : i < j) : i + 2 ≤ j := by
  rw [mem_ascents] at hi hj
  by_contra hc
  have : j = i + 1 := by omega
  subst this
  have hp : prevIdx lat.length (i + 1) = i := by simp [prevIdx]
  rw [hp] at hj
  exact absurd hi.2.1 (not_lt.mpr hj.2.2)

/-- Finding (C85): `_rearrange_orbit` returns its arguments whenever the ephemeris has at least two ascents, wherever it begins: the
first index of the ascents is then always below their mean. -/
theorem C85_noop_false (cycle : Int) (lon lat : List K) (time : List Int) (h : 2 ≤ (ascents lat).length) :
    rearrange cycle lon lat time = .ok (lon, lat, time) := by
  unfold rearrange
  cases ha : ascents lat with
  | nil => rw [ha] at h; simp at h
  | cons i0 t =>
    rw [ha] at h
    have ht : 1 ≤ t.length := by simpa using h
    have hsort := ascents_sorted lat
    rw [ha, List.pairwise_cons] at hsort
    have hge : ∀ j ∈ t, i0 + 2 ≤ j := fun j hj =>
      ascents_apart lat i0 j (by rw [ha]; simp) (by rw [ha]; simp [hj]) (hsort.1 j hj)
    have hsum : t.length * (i0 + 2) ≤ t.sum := by
      have := List.card_nsmul_le_sum t (i0 + 2) hge
      simpa using this
    have hlt : i0 < (i0 :: t).sum / (i0 :: t).length := by
      rw [Nat.lt_iff_add_one_le, Nat.le_div_iff_mul_le (by simp)]
      simp only [List.length_cons, List.sum_cons]
      nlinarith
    dsimp only
    rw [if_pos hlt]

/-- C85. Without ascent: an error. -/
theorem C85_none (cycle : Int) (lon lat : List K) (time : List Int) (h : ascents lat = []) :
    rearrange cycle lon lat time = .error .exn := by
  unfold rearrange; rw [h]

/-- C85. With exactly one ascent, the orbit is rotated to begin with it: the latitudes and the longitudes are the same samples, the
first one is the beginning of the ascent, the dates are counted from it, they grow and every step is kept; the step from the last sample
of the ephemeris to the first one is the date of the second sample (the duration of the cycle given by `calculate_orbit`). -/
theorem C85_rotation (lon lat : List K) (time : List Int) (s : Nat) (hl : lat.length = time.length) (h : ascents lat = [s])
    (ht : time.Pairwise (· < ·)) (h2 : 2 ≤ time.length) (h0 : 0 ≤ time.getD 0 0) :
    ∃ t', rearrange (time.getLastD 0 + time.getD 1 0 - time.getD 0 0) lon lat time =
        .ok (lon.drop s ++ lon.take s, lat.drop s ++ lat.take s, t') ∧ t'.length = time.length ∧
      t'.Pairwise (· < ·) ∧ t'.getD 0 0 = 0 ∧
      (∀ k, k < time.length - s → t'.getD k 0 = time.getD (s + k) 0 - time.getD s 0) ∧
      (∀ k, k < s → t'.getD (time.length - s + k) 0 =
        time.getLastD 0 - time.getD s 0 + time.getD 1 0 + (time.getD k 0 - time.getD 0 0)) := by
  have hs : s < time.length := by
    have := (mem_ascents lat s).mp (by rw [h]; simp)
    omega
  have htm : ∀ i j, i < j → j < time.length → time.getD i 0 < time.getD j 0 := by
    intro i j hij hj
    rw [List.getD_eq_getElem _ _ (by omega), List.getD_eq_getElem _ _ hj]
    exact List.pairwise_iff_getElem.mp ht i j (by omega) hj hij
  have hlast : time.getLastD 0 = time.getD (time.length - 1) 0 := by
    rw [List.getLastD_eq_getLast?, List.getLast?_eq_getElem?, List.getD_eq_getElem?_getD]
  set cycle := time.getLastD 0 + time.getD 1 0 - time.getD 0 0 with hcyc
  have hle : ∀ i, i < time.length → time.getD i 0 ≤ time.getLastD 0 := by
    intro i hi
    rw [hlast]
    rcases Nat.eq_or_lt_of_le (show i ≤ time.length - 1 by omega) with rfl | hlt
    · exact le_rfl
    · exact (htm _ _ hlt (by omega)).le
  have hge : ∀ i, i < time.length → time.getD 0 0 ≤ time.getD i 0 := by
    intro i hi
    rcases Nat.eq_or_lt_of_le (Nat.zero_le i) with rfl | hlt
    · exact le_rfl
    · exact (htm _ _ hlt hi).le
  have h01 := htm 0 1 (by omega) (by omega)
  have h1l := hle 1 (by omega)
  have hsl := hle s hs
  have hsg := hge s hs
  have hcpos : 0 < cycle := by omega
  -- the remainders
  have hmodA : ∀ k, k < time.length - s →
      (time.getD (s + k) 0 - time.getD s 0).fmod cycle = time.getD (s + k) 0 - time.getD s 0 := by
    intro k hk
    rw [Int.fmod_eq_emod_of_nonneg _ hcpos.le]
    have a1 := hle (s + k) (by omega)
    have a2 : time.getD s 0 ≤ time.getD (s + k) 0 := by
      rcases Nat.eq_zero_or_pos k with rfl | hk0
      · simp
      · exact (htm _ _ (by omega) (by omega)).le
    exact Int.emod_eq_of_lt (by omega) (by omega)
  have hmodB : ∀ k, k < s → (time.getD k 0 - time.getD s 0).fmod cycle = time.getD k 0 - time.getD s 0 + cycle := by
    intro k hk
    rw [Int.fmod_eq_emod_of_nonneg _ hcpos.le]
    have a1 := htm k s hk hs
    have a2 := hge k (by omega)
    rw [← Int.add_emod_right]
    exact Int.emod_eq_of_lt (by omega) (by omega)
  set t' := (shiftBy time s).map fun v => (v - time.getD s 0).fmod cycle with ht'
  have hlen : t'.length = time.length := by
    rw [ht']; simp [shiftBy]; omega
  have hget : ∀ k, k < time.length → t'.getD k 0 =
      (if k < time.length - s then time.getD (s + k) 0 - time.getD s 0
       else time.getD (k - (time.length - s)) 0 - time.getD s 0 + cycle) := by
    intro k hk
    rw [List.getD_eq_getElem _ _ (by rw [hlen]; exact hk)]
    simp only [ht', List.getElem_map, shiftBy]
    rw [List.getElem_append]
    simp only [List.length_drop]
    split_ifs with hc
    · rw [List.getElem_drop, ← List.getD_eq_getElem _ 0 (show s + k < time.length by omega)]
      exact hmodA k hc
    · rw [List.getElem_take, ← List.getD_eq_getElem _ 0 (show k - (time.length - s) < time.length by omega)]
      exact hmodB _ (by omega)
  have hnonneg : ∀ k, k < time.length → 0 ≤ t'.getD k 0 := by
    intro k hk
    rw [hget k hk]
    split_ifs with hc
    · rcases Nat.eq_zero_or_pos k with rfl | hk0
      · simp
      · have := htm s (s + k) (by omega) (by omega); omega
    · have := hge (k - (time.length - s)) (by omega)
      omega
  refine ⟨t', ?_, hlen, ?_, ?_, ?_, ?_⟩
  · unfold rearrange
    rw [h]
    dsimp only
    rw [if_neg (by simp)]
    have hshift : shiftTime cycle time ([s].getLastD 0) = .ok t' := by
      unfold shiftTime
      have hg : pyGet (shiftBy time s) 0 = .ok (time.getD s 0) := by
        have hl0 : 0 < (shiftBy time s).length := by simp [shiftBy]; omega
        have := pyGet_nat hl0
        simp only [Nat.cast_zero] at this
        rw [this]
        congr 1
        simp only [shiftBy]
        rw [List.getElem_append_left (by simp; omega), List.getElem_drop, List.getD_eq_getElem _ _ hs]
        simp
      show (do let t0 ← pyGet (shiftBy time s) 0; _) = _
      rw [hg]
      show (if cycle = 0 then _ else _) = _
      rw [if_neg (by omega)]
      rw [show ([s].getLastD 0) = s from rfl, ← ht', if_neg]
      rw [List.any_eq_true]
      rintro ⟨v, hv, hv2⟩
      obtain ⟨k, hk, rfl⟩ := List.getElem_of_mem hv
      have := hnonneg k (by omega)
      rw [List.getD_eq_getElem _ _ hk] at this
      simp only [decide_eq_true_eq] at hv2
      omega
    rw [hshift]
    rfl
  · refine List.pairwise_iff_getElem.mpr ?_
    intro i j hi hj hij
    rw [← List.getD_eq_getElem _ 0 hi, ← List.getD_eq_getElem _ 0 hj, hget i (by omega), hget j (by omega)]
    split_ifs with c1 c2 c3
    · have := htm (s + i) (s + j) (by omega) (by omega); omega
    · have a1 := hle (s + i) (by omega)
      have a2 := hge (j - (time.length - s)) (by omega)
      omega
    · omega
    · have := htm (i - (time.length - s)) (j - (time.length - s)) (by omega) (by omega); omega
  · rw [hget 0 (by omega), if_pos (by omega)]; simp
  · intro k hk
    rw [hget k (by omega), if_pos hk]
  · intro k hk
    rw [hget _ (by omega), if_neg (by omega), show time.length - s + k - (time.length - s) = k by omega, hcyc]
    ring

end

/-- One orbit that begins in the middle: it is rotated. -/
example : ∃ t', rearrange (8 : Int) [0, 1, 2, 3, 4, 5, 6, 7] ([10, 60, 10, -10, -60, -30, -10, 0] : List ℚ) [0, 1, 2, 3, 4, 5, 6, 7] =
    .ok ([5, 6, 7, 0, 1, 2, 3, 4], [-30, -10, 0, 10, 60, 10, -10, -60], t') ∧ t' = [0, 1, 2, 3, 4, 5, 6, 7] := by
  refine ⟨_, ?_, rfl⟩; decide +kernel

/-- Finding (C85): two orbits that begin in the middle of a pass (ascending, at 50 degrees): nothing is rotated. -/
theorem C85_start_false : ∃ (lon lat : List ℚ) (time : List Int), lon.length = lat.length ∧ lat.length = time.length ∧
    time.Pairwise (· < ·) ∧ lat.getD 0 0 < lat.getD 1 0 ∧ lat.getD 0 0 = 50 ∧
    ∀ cycle, rearrange cycle lon lat time = .ok (lon, lat, time) := by
  refine ⟨List.replicate 20 0, [50, 60, 66, 40, 10, -10, -40, -66, -40, -10, 10, 50, 60, 66, 40, 10, -10, -66, -40, 10],
    (List.range 20).map (fun i : Nat => (i : Int)), by decide, by decide, by decide, by decide +kernel, by decide +kernel, ?_⟩
  intro cycle
  exact C85_noop_false cycle _ _ _ (by decide +kernel)

/-- Finding (C85): when the ephemeris begins near the equator, `calculate_orbit` means to drop the samples before the first complete
pass; it keeps the turning points only: of the 20 samples of two orbits 3 are left. -/
theorem C85_skew_false : (skew (List.replicate 20 0)
    ([10, 60, 66, 40, 10, -10, -40, -66, -40, -10, 10, 50, 60, 66, 40, 10, -10, -66, -40, 5] : List ℚ)
    ((List.range 20).map (fun i : Nat => (i : Int)))).map (fun r => (r.2.1, r.2.2)) = .ok ([-40, 40, -40], [8, 14, 18]) := by
  decide +kernel

end Pyinterp
