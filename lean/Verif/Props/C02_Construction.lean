import Verif.Lemmas.Coordinates
import Mathlib.Data.Rat.Floor

/-
C02 – an axis can be built exactly from strictly monotone values.

-/
namespace Pyinterp
open Spec
set_option linter.unusedVariables false
set_option linter.unusedSectionVars false

section
variable {T : Type} [CommRing T] [LinearOrder T] [IsStrictOrderedRing T] [AxisNum T] [LawfulAxisNum T]

theorem mkIrregular_compute (it : Bool) (v : List T) (eps : T) (hne : v ≠ []) (hm : StrictlyMonotone v) :
    (do let k ← mkIrregular v; computeProperties it none k eps) =
      .ok { isCircle := false, circle := none, cont := .irregular v (isAscendingList v) } := by
  have hl : v.length ≠ 0 := by simpa using hne
  have hm' := (isMonotonic_mk v).mpr hm
  have hs : ¬ ((Container.irregular v (isAscendingList v)).size = 0) := by
    simp only [Container.size]; omega
  simp only [mkIrregular, hl, if_false, bind, Except.bind, computeProperties, hs, hm', Bool.not_true,
    Bool.false_eq_true, pure, Except.pure]

/-- Monotonicity from evenly spaced steps of the same sign. -/
theorem evenly_monotone (inc eps : T)
    (hsame : ∀ d, AxisNum.isSame d inc eps = true → (0 < inc → 0 < d) ∧ (inc < 0 → d < 0)) (hinc : inc ≠ 0)
    (v : List T) (h : evenlyLoop inc eps v = true) :
    (0 < inc → v.Pairwise (· < ·)) ∧ (inc < 0 → v.Pairwise (· > ·)) := by
  induction v with
  | nil => simp
  | cons a v ih =>
    cases v with
    | nil => simp
    | cons b v =>
      simp only [evenlyLoop, Bool.and_eq_true] at h
      obtain ⟨ih1, ih2⟩ := ih h.2
      obtain ⟨s1, s2⟩ := hsame _ h.1
      constructor
      · intro hp
        rw [List.pairwise_cons]
        refine ⟨?_, ih1 hp⟩
        have hab : a < b := by have := s1 hp; linarith
        intro x hx
        rcases List.mem_cons.mp hx with e | e
        · rw [e]; exact hab
        · exact lt_trans hab ((List.pairwise_cons.mp (ih1 hp)).1 x e)
      · intro hp
        rw [List.pairwise_cons]
        refine ⟨?_, ih2 hp⟩
        have hab : b < a := by have := s2 hp; linarith
        intro x hx
        rcases List.mem_cons.mp hx with e | e
        · rw [e]; exact hab
        · exact lt_trans ((List.pairwise_cons.mp (ih2 hp)).1 x e) hab

/-- Generic form of C02 for values that are not angles. -/
theorem mkAxis_iff (it : Bool) (v : List T) (eps : T) (heps : 0 ≤ eps)
    (hsame : ∀ d inc, eps < |inc| → AxisNum.isSame d inc eps = true → (0 < inc → 0 < d) ∧ (inc < 0 → d < 0)) :
    (∃ a, mkAxis it v eps false = .ok a) ↔ (v ≠ [] ∧ StrictlyMonotone v) := by
  have habs : ∀ x : T, fabs x = |x| := fun _ => rfl
  have hmono : ∀ inc, isEvenlySpaced v eps = some inc → inc ≠ 0 ∧ 2 ≤ v.length ∧ StrictlyMonotone v := by
    intro inc h
    unfold isEvenlySpaced at h
    match v, h with
    | [], h => cases h
    | [_], h => cases h
    | x :: y :: r, h =>
      simp only at h
      split at h
      · cases h
      · rename_i hi
        split at h
        · rename_i he
          have hin := Option.some.inj h
          rw [hin, habs, not_le] at hi
          rw [hin] at he
          have hne : inc ≠ 0 := by rintro rfl; simp at hi; exact absurd hi (not_lt.mpr heps)
          have := evenly_monotone inc eps (fun d hd => hsame d inc hi hd) hne _ he
          refine ⟨hne, by simp, ?_⟩
          rcases lt_or_gt_of_ne hne with h' | h'
          · exact Or.inr (this.2 h')
          · exact Or.inl (this.1 h')
        · cases h
  unfold mkAxis
  simp only [Bool.false_eq_true, if_false]
  constructor
  · rintro ⟨a, h⟩
    unfold initializeFromValues at h
    split at h
    · rename_i inc x y he
      exact ⟨by simp, (hmono inc he).2.2⟩
    · simp only [bind, Except.bind] at h
      split at h
      · cases h
      · rename_i k hk
        obtain ⟨e1, e2⟩ := mkIrregular_ok hk
        have := (computeProperties_ok h).2.2.2.1
        rw [e2] at this
        exact ⟨e1, (isMonotonic_mk _).mp this⟩
  · rintro ⟨h1, h2⟩
    unfold initializeFromValues
    split
    · rename_i inc x y he
      have hlen := (hmono inc he).2.1
      have hxy : x ≠ y.getLastD x := by
        cases y with
        | nil => simp at hlen
        | cons z zs =>
          have hmem : (z :: zs).getLastD x ∈ (z :: zs) := by
            simp only [List.getLastD_cons]
            rcases zs.eq_nil_or_concat with rfl | ⟨L, b, rfl⟩
            · simp
            · simp
          rcases h2 with h2 | h2
          · exact ne_of_lt ((List.pairwise_cons.mp h2).1 _ hmem)
          · exact ne_of_gt ((List.pairwise_cons.mp h2).1 _ hmem)
      have hn0 : ¬ (((x :: y).length : Int) < 0) := by omega
      have hn1 : ¬ (((x :: y).length : Int) = 0) := by omega
      simp only [mkRegular, hn0, hn1, if_false, hxy, bind, Except.bind, computeProperties,
        Container.size, Container.isMonotonic, Bool.not_true, Bool.false_eq_true, pure, Except.pure]
      exact ⟨_, rfl⟩
    · exact ⟨_, mkIrregular_compute it _ eps h1 h2⟩
end

section
variable {K : Type} [Field K] [LinearOrder K] [IsStrictOrderedRing K] [FloorRing K]

theorem isSame_sign_float (d inc eps : K) (he1 : eps ≤ 1) (hi : eps < |inc|)
    (h : AxisNum.isSame d inc eps = true) : (0 < inc → 0 < d) ∧ (inc < 0 → d < 0) := by
  simp only [AxisNum.isSame, Bool.or_eq_true, decide_eq_true_eq] at h
  constructor
  · intro hp
    by_contra hd
    push Not at hd
    rw [abs_of_pos hp] at hi h
    rw [abs_of_nonpos hd, abs_of_nonpos (by linarith)] at h
    rcases h with h | h
    · linarith
    · rcases le_total (-d) inc with hm | hm
      · rw [max_eq_right hm] at h; nlinarith
      · rw [max_eq_left hm] at h; nlinarith
  · intro hp
    by_contra hd
    push Not at hd
    rw [abs_of_neg hp] at hi h
    rw [abs_of_nonneg hd, abs_of_nonneg (by linarith)] at h
    rcases h with h | h
    · linarith
    · rcases le_total d (-inc) with hm | hm
      · rw [max_eq_right hm] at h; nlinarith
      · rw [max_eq_left hm] at h; nlinarith

/-- **C02** (floating point axis, tolerance between 0 and 1): `Axis(values, epsilon)`
succeeds exactly when the values are strictly monotone and not empty. -/
theorem C02_axis_accepts_iff_monotone (v : List K) (eps : K) (h0 : 0 ≤ eps) (h1 : eps ≤ 1) :
    (∃ a, mkAxis false v eps false = .ok a) ↔ (v ≠ [] ∧ StrictlyMonotone v) :=
  mkAxis_iff false v eps h0 (fun d inc hi h => isSame_sign_float d inc eps h1 hi h)

/-- C02: whatever the way the axis was obtained (values, angles, start/stop, flip,
pickle), its coordinates are strictly monotone and there is at least one. -/
theorem C02_coordinates_monotone (a : Axis K) (l : List K) (h : Reach false a) (hl : Coordinates a l) :
    l ≠ [] ∧ StrictlyMonotone l := by
  have hok := reach_axisOk h hl
  refine ⟨hok.stores.ne, ?_⟩
  cases ha : a.cont.isAscending
  · exact Or.inr (hok.stores.desc ha)
  · exact Or.inl (hok.stores.asc ha)

/-- Every reachable axis has coordinates (so the previous theorem is not vacuous). -/
theorem C02_coordinates_exist (a : Axis K) (h : Reach false a) : ∃ l, Coordinates a l :=
  ⟨_, (reach_ok h).stores.coordinates⟩
end

/-- **C02** for integer axes (`AxisInt64`, `TemporalAxis`: tolerance 0). -/
theorem C02_axis_accepts_iff_monotone_int (v : List Int) (eps : Int) (h0 : 0 ≤ eps) :
    (∃ a, mkAxis true v eps false = .ok a) ↔ (v ≠ [] ∧ StrictlyMonotone v) := by
  apply mkAxis_iff true v eps h0
  intro d inc hi h
  simp only [AxisNum.isSame, decide_eq_true_eq] at h
  have hi' : |inc| > eps := hi
  rcases abs_cases inc with h1 | h1 <;> rcases abs_cases (d - inc) with h2 | h2 <;> omega

example : (∃ a, mkAxis false [(0 : ℚ), 1, 3] (1/1000000) false = .ok a) ∧
    ¬ (∃ a, mkAxis false [(0 : ℚ), 1, 1] (1/1000000) false = .ok a) ∧
    (∃ a, mkAxis true [(12 : Int), 9, 6, 3] 0 false = .ok a) := by
  refine ⟨(C02_axis_accepts_iff_monotone _ _ (by norm_num) (by norm_num)).mpr ⟨by simp, Or.inl ?_⟩, ?_,
    (C02_axis_accepts_iff_monotone_int _ _ (by norm_num)).mpr ⟨by simp, Or.inr ?_⟩⟩
  · simp
  · rw [C02_axis_accepts_iff_monotone _ _ (by norm_num) (by norm_num)]
    rintro ⟨-, h | h⟩ <;> norm_num at h
  · simp

end Pyinterp
