import Verif.Lemmas.Coordinates

/-
An axis built from the values of an arithmetic progression has these coordinates, and finds each of them (used by C105).
-/
namespace Pyinterp
open Spec
set_option linter.unusedSectionVars false

variable {K : Type} [Field K] [LinearOrder K] [IsStrictOrderedRing K] [FloorRing K]

theorem regCoords_succ (s d : K) (m : Nat) : regCoords s d (m + 1) = s :: regCoords (s + d) d m := by
  unfold regCoords
  rw [List.range_succ_eq_map, List.map_cons, List.map_map]
  congr 1
  · push_cast; ring
  · apply List.map_congr_left
    intro i _
    simp only [Function.comp]
    push_cast; ring

theorem regCoords_pairwise {s d : K} (hd : 0 < d) (m : Nat) : (regCoords s d m).Pairwise (· < ·) := by
  unfold regCoords
  rw [List.pairwise_map]
  refine List.pairwise_lt_range.imp fun {a b} h => ?_
  have : (a : K) < b := Nat.cast_lt.2 h
  have := mul_lt_mul_of_pos_right this hd
  linarith

theorem strictlyMonotonic_of_pairwise {l : List K} (h : l.Pairwise (· < ·)) : strictlyMonotonic true l = true := by
  induction l with
  | nil => rfl
  | cons a l ih =>
    cases l with
    | nil => rfl
    | cons b l =>
      rw [List.pairwise_cons] at h
      unfold strictlyMonotonic
      rw [ih h.2]
      simp [h.1 b (by simp)]

theorem isAscending_of_pairwise {l : List K} (h : l.Pairwise (· < ·)) : isAscendingList l = true := by
  cases l with
  | nil => rfl
  | cons a l =>
    cases l with
    | nil => rfl
    | cons b l =>
      rw [List.pairwise_cons] at h
      simp [isAscendingList, h.1 b (by simp)]

theorem evenlyLoop_progression {d eps : K} (he : 0 ≤ eps) (m : Nat) : ∀ s : K, evenlyLoop d eps (regCoords s d m) = true := by
  induction m with
  | zero => intro s; rfl
  | succ m ih =>
    intro s
    cases m with
    | zero => rfl
    | succ m =>
      have h1 := ih (s + d)
      rw [regCoords_succ] at h1
      rw [regCoords_succ, regCoords_succ]
      unfold evenlyLoop
      rw [h1, Bool.and_true]
      simp [AxisNum.isSame, he]

theorem last_progression (s d : K) (m : Nat) : ∀ x : K, (regCoords s d (m + 1)).getLastD x = s + (m : K) * d := by
  intro x
  unfold regCoords
  rw [List.range_succ, List.map_append, List.map_cons, List.map_nil, List.getLastD_concat]

theorem isEvenlySpaced_progression {s d eps : K} (hd : 0 < d) (he : 0 ≤ eps) (m : Nat) :
    isEvenlySpaced (regCoords s d (m + 2)) eps = if d ≤ eps then none else some d := by
  have hl : (((m + 2 : Nat) : Int) - 1 : Int) = (m : Int) + 1 := by push_cast; ring
  have hm : ((m : K) + 1) ≠ 0 := by positivity
  have hinc : AxisNum.divInt (s + d + (m : K) * d - s) (((m + 2 : Nat) : Int) - 1) = d := by
    rw [hl]
    simp only [AxisNum.divInt]
    push_cast
    field_simp
    ring
  have hlen : (regCoords s d (m + 2)).length = m + 2 := regCoords_length s d (m + 2)
  have he' := evenlyLoop_progression (d := d) he (m + 2) s
  rw [regCoords_succ, regCoords_succ] at *
  unfold isEvenlySpaced
  simp only
  rw [hlen]
  have hlast : ((s + d) :: regCoords (s + d + d) d m).getLastD s = s + d + (m : K) * d := by
    rw [← regCoords_succ]; exact last_progression _ _ _ _
  rw [hlast, hinc]
  have : fabs d = d := by unfold fabs; exact max_eq_left (by linarith)
  rw [this]
  by_cases h : d ≤ eps
  · rw [if_pos h, if_pos h]
  · rw [if_neg h, if_neg h, if_pos he']

theorem compute_ok {circle : Option K} {k : Container K} {l : List K} (eps : K) (hs : Stores k l) (hm : k.isMonotonic = true) :
    ∃ a, computeProperties false circle k eps = .ok a ∧ a.cont = k ∧ a.circle = circle := by
  have hl : 0 < l.length := hs.length_pos
  have h0 : ¬ k.size = 0 := by rw [hs.size_eq]; omega
  unfold computeProperties
  rw [if_neg h0, hm]
  simp only [Bool.not_true, Bool.false_eq_true, if_false]
  cases circle with
  | none => exact ⟨_, rfl, rfl, rfl⟩
  | some ci =>
    simp only
    cases hk : k with
    | regular r => exact ⟨_, rfl, rfl, rfl⟩
    | undefined =>
      exfalso
      rw [hk] at h0
      exact h0 rfl
    | irregular p asc =>
      simp only
      by_cases h1 : (Container.irregular p asc).size = 1
      · rw [if_pos h1]
        exact ⟨_, rfl, rfl, rfl⟩
      · rw [if_neg h1]
        rw [hk] at hs
        obtain ⟨mx, hmx, -⟩ := hs.maxValue
        obtain ⟨mn, hmn, -⟩ := hs.minValue
        have hb : (Container.irregular p asc).back = .ok (l[((Container.irregular p asc).size - 1).toNat]'(by
            rw [hs.size_eq]; omega)) := by
          unfold Container.back
          exact hs.coord_int _ (by rw [hs.size_eq]; omega) (by rw [hs.size_eq]; omega)
        have hf : (Container.irregular p asc).front = .ok (l[(0 : Int).toNat]'hl) := by
          unfold Container.front
          exact hs.coord_int 0 le_rfl (by omega)
        rw [hb, hf, hmx, hmn]
        exact ⟨_, rfl, rfl, rfl⟩

/-- The axis of an arithmetic progression. -/
theorem mkAxis_progression {s d eps : K} (hd : 0 < d) (he : 0 ≤ eps) (m : Nat) (ang : Bool) :
    ∃ a, mkAxis false (regCoords s d (m + 2)) eps ang = .ok a ∧ Coordinates a (regCoords s d (m + 2)) ∧
      a.circle = if ang then some 360 else none := by
  have hp := regCoords_pairwise (s := s) hd (m + 2)
  have hnl : normalizeLongitude (AxisNum.ofInt 360 : K) (regCoords s d (m + 2)) = none := by
    unfold normalizeLongitude
    rw [isAscending_of_pairwise hp]
    dsimp only
    rw [strictlyMonotonic_of_pairwise hp]
    rfl
  have hmk : mkAxis false (regCoords s d (m + 2)) eps ang =
      initializeFromValues false (if ang then some (AxisNum.ofInt 360) else none) (regCoords s d (m + 2)) eps := by
    unfold mkAxis
    cases ang
    · rfl
    · simp only [if_true]
      rw [hnl]
  have hlen : (regCoords s d (m + 2)).length = m + 2 := regCoords_length s d (m + 2)
  have key : ∃ a, initializeFromValues false (if ang then some (AxisNum.ofInt 360) else none) (regCoords s d (m + 2)) eps =
      .ok a ∧ contList a.cont = regCoords s d (m + 2) ∧ a.circle = if ang then some (AxisNum.ofInt 360) else none := by
    unfold initializeFromValues
    rw [isEvenlySpaced_progression hd he]
    by_cases h : d ≤ eps
    · rw [if_pos h]
      have hirr : mkIrregular (regCoords s d (m + 2)) =
          .ok (.irregular (regCoords s d (m + 2)) (isAscendingList (regCoords s d (m + 2)))) := by
        unfold mkIrregular
        rw [if_neg (by rw [hlen]; omega)]
      have hmon := (isMonotonic_mk (regCoords s d (m + 2))).2 (Or.inl hp)
      have hne : regCoords s d (m + 2) ≠ [] := by
        intro e; rw [e] at hlen; simp at hlen
      have hst := (irregular_inv (P := fun _ => True) hne hmon).stores
      obtain ⟨a, ha, h1, h2⟩ := compute_ok (circle := if ang then some (AxisNum.ofInt 360) else none) eps hst hmon
      refine ⟨a, ?_, by rw [h1]; rfl, h2⟩
      simp only
      rw [hirr]
      exact ha
    · rw [if_neg h]
      have hreg : mkRegular s (s + d + (m : K) * d) ((m + 2 : Nat) : Int) = .ok (.regular {
          size := ((m + 2 : Nat) : Int), start := s, step := d, aux := AxisNum.regAux d, asc := true }) := by
        unfold mkRegular
        have hm : ((m : K) + 1) ≠ 0 := by positivity
        have hstep : AxisNum.divInt (s + d + (m : K) * d - s) (((m + 2 : Nat) : Int) - 1) = d := by
          simp only [AxisNum.divInt]
          push_cast
          rw [show (m : K) + 2 - 1 = m + 1 by ring]
          field_simp
          ring
        have hne : ¬ s = s + d + (m : K) * d := by
          have : (0 : K) ≤ (m : K) * d := by positivity
          intro e; linarith
        rw [if_neg (by omega), if_neg (by omega), if_neg hne, if_neg (by omega), hstep]
        dsimp only
        rw [if_neg (by omega)]
        have : decide (s + AxisNum.mulInt 0 d < s + AxisNum.mulInt 1 d) = true := by
          simp [AxisNum.mulInt, hd]
        rw [this]
      have hinv := (mkRegular_float hreg).1
      obtain ⟨a, ha, h1, h2⟩ := compute_ok (circle := if ang then some (AxisNum.ofInt 360) else none) eps hinv.stores rfl
      refine ⟨a, ?_, by rw [h1]; show regCoords s d ((m + 2 : Nat) : Int).toNat = _; rw [Int.toNat_natCast], h2⟩
      rw [← ha]
      have hcons : regCoords s d (m + 2) = s :: regCoords (s + d) d (m + 1) := regCoords_succ _ _ _
      rw [hcons]
      simp only
      rw [last_progression, ← hcons, hlen, hreg]
      rfl
  obtain ⟨a, ha, h1, h2⟩ := key
  refine ⟨a, by rw [hmk]; exact ha, ?_, ?_⟩
  · have hr : Reach false a := .values _ eps ang a he (by rw [hmk]; exact ha)
    rw [← h1]
    exact (reach_ok hr).stores.coordinates
  · rw [h2]
    cases ang
    · rfl
    · simp only [if_true]
      rw [ofInt360]

/-- Each coordinate of an axis is found at its place. On an axis of angles, the coordinates must be less than a turn apart. -/
theorem findNearest_own {a : Axis K} {l : List K} (hr : Reach false a) (hl : Coordinates a l) (k : Nat) (c : K)
    (hk : l[k]? = some c) (hturn : ∀ t, a.circle = some t → ∀ x ∈ l, ∀ y ∈ l, y < x + t) (bounded : Bool) :
    a.findNearestIndex c bounded = .ok (k : Int) := by
  have hok := reach_axisOk hr hl
  obtain ⟨hkl, hkc⟩ := List.getElem?_eq_some_iff.1 hk
  have hmem : c ∈ l := List.mem_of_getElem? hk
  obtain ⟨mn, hmn, hmn1, hmn2⟩ := hok.stores.minValue
  have hnorm : a.normalizeCoordinate c = .ok c := by
    unfold Axis.normalizeCoordinate
    rw [hmn]
    simp only [bind, Except.bind, pure, Except.pure, Axis.normalizeCoordinate']
    cases hc : a.circle with
    | none => rfl
    | some t =>
      simp only
      rw [if_neg]
      rw [not_or, not_le, not_lt]
      exact ⟨hturn t hc mn hmn1 c hmem, hmn2 c hmem⟩
  obtain ⟨i, hi1, hi2⟩ := hok.find c bounded
  have hik : i = (k : Int) := by
    rcases hi2 with ⟨-, -, ho⟩ | ⟨v, h0, hv, hmin⟩
    · exfalso
      rcases ho with h | h
      · exact lt_irrefl _ (h c hmem)
      · exact lt_irrefl _ (h c hmem)
    · have := hmin c hmem
      rw [sub_self, abs_zero] at this
      have hcv : c = v := by
        have := abs_eq_zero.1 (le_antisymm this (abs_nonneg _))
        linarith
      obtain ⟨hil, hiv⟩ := List.getElem?_eq_some_iff.1 hv
      have hnd : l.Nodup := by
        cases hasc : a.cont.isAscending
        · exact (hok.stores.desc hasc).imp fun h => (ne_of_gt h)
        · exact (hok.stores.asc hasc).imp fun h => ne_of_lt h
      have : i.toNat = k := (List.Nodup.getElem_inj_iff hnd).1 (by rw [hiv, hkc, hcv])
      omega
  unfold Axis.findNearestIndex
  rw [hnorm]
  simp only [bind, Except.bind]
  rw [hi1, hik]
  simp only
  rw [if_neg (by omega)]
  rfl

end Pyinterp
