import Verif.Model.Axis
import Verif.Lemmas.Regular

namespace Pyinterp
open Spec

set_option linter.unusedSectionVars false
set_option linter.unusedVariables false

section
variable {T : Type} [CommRing T] [LinearOrder T] [IsStrictOrderedRing T] [AxisNum T] [LawfulAxisNum T]

/-- An axis whose container stores `l`, answers nearest-index queries correctly,
and whose circle is 360 degrees. -/
structure AxisOk (a : Axis T) (l : List T) : Prop where
  stores : Stores a.cont l
  find : FindOk a.cont l
  circle : a.circle = none ∨ a.circle = some (360 : T)
  isCircle : a.isCircle = true → a.circle = some (360 : T)

/-- the smallest value of the list -/
def IsMin (l : List T) (m : T) : Prop := m ∈ l ∧ ∀ v ∈ l, m ≤ v
def IsMax (l : List T) (m : T) : Prop := m ∈ l ∧ ∀ v ∈ l, v ≤ m

/-- `c'` is the coordinate `c`, brought on an angular axis to the turn that starts
at the smallest coordinate `m` of the axis. -/
def NormOf (circle : Option T) (m c c' : T) : Prop :=
  (circle = none → c' = c) ∧
  (∀ t, circle = some t → m ≤ c' ∧ c' < m + t ∧ ∃ k : ℤ, c' = c + (k : T) * t)

theorem pairwise_head_min {l : List T} (h : l.Pairwise (· < ·)) (hne : 0 < l.length) :
    IsMin l (l[0]'hne) ∧ IsMax l (l[l.length - 1]'(by omega)) := by
  have hget : ∀ i j (hi : i < l.length) (hj : j < l.length), i < j → l[i] < l[j] :=
    fun i j hi hj hij => List.pairwise_iff_getElem.mp h i j hi hj hij
  refine ⟨⟨List.getElem_mem _, ?_⟩, ⟨List.getElem_mem _, ?_⟩⟩ <;> intro v hv <;>
    obtain ⟨j, hj, rfl⟩ := List.getElem_of_mem hv
  · rcases Nat.eq_zero_or_pos j with h | h
    · subst h; exact le_refl _
    · exact (hget 0 j hne hj h).le
  · rcases Nat.lt_or_ge j (l.length - 1) with h | h
    · exact (hget j _ hj (by omega) h).le
    · exact le_of_eq (by congr 1; omega)

theorem pairwise_head_max {l : List T} (h : l.Pairwise (· > ·)) (hne : 0 < l.length) :
    IsMax l (l[0]'hne) ∧ IsMin l (l[l.length - 1]'(by omega)) := by
  have hget : ∀ i j (hi : i < l.length) (hj : j < l.length), i < j → l[i] > l[j] :=
    fun i j hi hj hij => List.pairwise_iff_getElem.mp h i j hi hj hij
  refine ⟨⟨List.getElem_mem _, ?_⟩, ⟨List.getElem_mem _, ?_⟩⟩ <;> intro v hv <;>
    obtain ⟨j, hj, rfl⟩ := List.getElem_of_mem hv
  · rcases Nat.eq_zero_or_pos j with h | h
    · subst h; exact le_refl _
    · exact (hget 0 j hne hj h).le
  · rcases Nat.lt_or_ge j (l.length - 1) with h | h
    · exact (hget j _ hj (by omega) h).le
    · exact le_of_eq (by congr 1; omega)

theorem Stores.length_pos {k : Container T} {l : List T} (h : Stores k l) : 0 < l.length :=
  List.length_pos_iff.mpr h.ne

theorem Stores.coord_int {k : Container T} {l : List T} (h : Stores k l) (i : Int) (h0 : 0 ≤ i)
    (h1 : i < l.length) : k.coord i = .ok (l[i.toNat]'(by omega)) := by
  have := h.coord_eq i.toNat (by omega)
  rwa [Int.toNat_of_nonneg h0] at this

theorem Stores.minValue {k : Container T} {l : List T} (h : Stores k l) :
    ∃ m, k.minValue = .ok m ∧ IsMin l m := by
  have hp := h.length_pos
  unfold Container.minValue
  cases ha : k.isAscending
  · simp only [Bool.false_eq_true, if_false]
    rw [h.size_eq, h.coord_int _ (by omega) (by omega)]
    refine ⟨_, rfl, ?_⟩
    have := (pairwise_head_max (h.desc ha) hp).2
    convert this using 2; omega
  · simp only [if_true]
    rw [h.coord_int 0 (by omega) (by omega)]
    exact ⟨_, rfl, (pairwise_head_min (h.asc ha) hp).1⟩

theorem Stores.maxValue {k : Container T} {l : List T} (h : Stores k l) :
    ∃ m, k.maxValue = .ok m ∧ IsMax l m := by
  have hp := h.length_pos
  unfold Container.maxValue
  cases ha : k.isAscending
  · simp only [Bool.false_eq_true, if_false]
    rw [h.coord_int 0 (by omega) (by omega)]
    exact ⟨_, rfl, (pairwise_head_max (h.desc ha) hp).1⟩
  · simp only [if_true]
    rw [h.size_eq, h.coord_int _ (by omega) (by omega)]
    refine ⟨_, rfl, ?_⟩
    have := (pairwise_head_min (h.asc ha) hp).2
    convert this using 2; omega

theorem normalize'_spec (a : Axis T) (m c : T) (hc : a.circle = none ∨ a.circle = some (360 : T)) :
    NormOf a.circle m c (a.normalizeCoordinate' c m) ∧
    a.normalizeCoordinate' (a.normalizeCoordinate' c m) m = a.normalizeCoordinate' c m := by
  unfold Axis.normalizeCoordinate'
  rcases hc with h | h
  · simp [h, NormOf]
  · simp only [h]
    have h360 : (0 : T) < 360 := by norm_num
    obtain ⟨r1, r2, k, r3⟩ := LawfulAxisNum.rem_spec (c - m) (360 : T) h360
    split
    · rename_i hb
      constructor
      · refine ⟨by simp, ?_⟩
        intro t ht
        have ht' : (360 : T) = t := by simpa using ht
        subst ht'
        refine ⟨by linarith, by linarith, k, ?_⟩
        rw [r3]; ring
      · rw [if_neg]
        rintro (h1 | h1) <;> linarith
    · rename_i hb
      have hb' : ¬ (c ≥ m + 360) ∧ ¬ (c < m) := by
        constructor <;> intro hh <;> exact hb (by tauto)
      constructor
      · refine ⟨by simp, ?_⟩
        intro t ht
        have ht' : (360 : T) = t := by simpa using ht
        subst ht'
        exact ⟨not_lt.mp hb'.2, not_le.mp hb'.1, 0, by simp⟩
      · rfl

/-- Normalisation, as a computation. -/
theorem normalize_spec {a : Axis T} {l : List T} (h : AxisOk a l) (c : T) :
    ∃ m c', IsMin l m ∧ a.normalizeCoordinate c = .ok c' ∧ NormOf a.circle m c c' ∧
      a.normalizeCoordinate c' = .ok c' := by
  obtain ⟨m, h1, h2⟩ := h.stores.minValue
  obtain ⟨h3, h4⟩ := normalize'_spec a m c h.circle
  refine ⟨m, _, h2, ?_, h3, ?_⟩
  · simp [Axis.normalizeCoordinate, h1, bind, Except.bind, pure, Except.pure]
  · simp [Axis.normalizeCoordinate, h1, bind, Except.bind, pure, Except.pure, h4]

/-- Neighbour bound: if `i` is nearest to `c` and `c` is on the side of the
neighbour `j`, then `c` does not go beyond the neighbour. -/
theorem nearest_le {l : List T} {c v w : T} (h : |c - v| ≤ |c - w|) (h1 : v < c) (h2 : v < w) : c ≤ w := by
  by_contra hh
  push Not at hh
  rw [abs_of_pos (by linarith), abs_of_pos (by linarith)] at h
  linarith

theorem nearest_ge {l : List T} {c v w : T} (h : |c - v| ≤ |c - w|) (h1 : c < v) (h2 : w < v) : w ≤ c := by
  by_contra hh
  push Not at hh
  rw [abs_of_neg (by linarith), abs_of_neg (by linarith)] at h
  linarith

theorem findIndexes_spec' {a : Axis T} {l : List T} (h : AxisOk a l) (h2 : 2 ≤ l.length) (c : T) :
    ∃ m c', IsMin l m ∧ NormOf a.circle m c c' ∧
      ((∃ i j, a.findIndexes c = .ok (some (i, j)) ∧ Frames l a.isCircle c' i j ∧
          (a.cont.isAscending = true → j = i + 1 ∨ (a.isCircle = true ∧ i = (l.length : Int) - 1 ∧ j = 0)) ∧
          (a.isCircle = true ∨ ¬ Outside l c') ∧
          (∀ hi : i.toNat < l.length, l[i.toNat] ≤ c' ∨ (a.cont.isAscending = false ∧ IsMin l c'))) ∨
       (a.findIndexes c = .ok none ∧ a.isCircle = false ∧ Outside l c')) := by
  obtain ⟨m, c', hm, hn1, hn2, hn3⟩ := normalize_spec h c
  refine ⟨m, c', hm, hn2, ?_⟩
  obtain ⟨i, hi1, hi2⟩ := h.find c' false
  have hsz : a.size = (l.length : Int) := h.stores.size_eq
  have hcirc : a.isCircle = true → m ≤ c' := by
    intro hc
    exact (hn2.2 _ (h.isCircle hc)).1
  have hget : (a.cont.isAscending = true → ∀ i j (hi : i < l.length) (hj : j < l.length), i < j → l[i] < l[j]) :=
    fun ha i j hi hj hij => List.pairwise_iff_getElem.mp (h.stores.asc ha) i j hi hj hij
  have hget' : (a.cont.isAscending = false → ∀ i j (hi : i < l.length) (hj : j < l.length), i < j → l[j] < l[i]) :=
    fun ha i j hi hj hij => List.pairwise_iff_getElem.mp (h.stores.desc ha) i j hi hj hij
  unfold Axis.findIndexes
  rw [hn1]
  simp only [bind, Except.bind]
  have hfi : a.findIndex c' false = .ok i := by
    unfold Axis.findIndex
    rw [hn3]; simpa [bind, Except.bind] using hi1
  rw [hfi]
  simp only [pure, Except.pure, hsz]
  rcases hi2 with ⟨rfl, -, hout⟩ | ⟨v, hi0, hiv, hnear⟩
  · -- outside
    simp only [if_true]
    cases hc : a.isCircle
    · right; simp [hout]
    · left
      have hgt : ∀ v ∈ l, v < c' := by
        rcases hout with ho | ho
        · have := ho m hm.1
          exact absurd (hcirc hc) (not_le.mpr this)
        · exact ho
      refine ⟨(l.length : Int) - 1, 0, by simp, ?_, ?_, Or.inl rfl, fun hi => Or.inl (hgt _ (List.getElem_mem hi)).le⟩
      · refine ⟨by omega, le_refl _, by omega, by simp; omega, Or.inr ⟨rfl, Or.inl ⟨rfl, rfl⟩, ?_⟩⟩
        rcases hout with ho | ho
        · have := ho m hm.1
          exact absurd (hcirc hc) (not_le.mpr this)
        · exact ho
      · intro _; exact Or.inr ⟨rfl, rfl, rfl⟩
  · have hne : ¬ (i = -1) := by omega
    simp only [hne, if_false]
    have hilt : i.toNat < l.length := by
      by_contra hh
      rw [List.getElem?_eq_none (by omega)] at hiv
      cases hiv
    have hve : l[i.toNat] = v := by
      rw [List.getElem?_eq_getElem hilt] at hiv
      exact Option.some.inj hiv
    rw [h.stores.coord_int i hi0 (by omega)]
    simp only [hve]
    have hnear' : ∀ k (hk : k < l.length), |c' - v| ≤ |c' - l[k]| :=
      fun k hk => hnear _ (List.getElem_mem hk)
    -- facts about remainders
    have hrem : ∀ k : Int, -1 ≤ k → k ≤ l.length → Math.remainderI k l.length =
        if k = -1 then (l.length : Int) - 1 else if k = l.length then 0 else k := by
      intro k h1 h2
      rw [Math.remainderI_eq_emod _ _ (by omega)]
      split
      · rename_i hk; subst hk
        rw [show (-1 : Int) = ((l.length : Int) - 1) + (l.length : Int) * (-1) by ring,
          Int.add_mul_emod_self_left, Int.emod_eq_of_lt (by omega) (by omega)]
      · split
        · rename_i _ hk; rw [hk]; exact Int.emod_self
        · exact Int.emod_eq_of_lt (by omega) (by omega)
    by_cases hd0 : c' - v = 0
    · -- on a node
      have hcv : c' = v := sub_eq_zero.mp hd0
      have hnout : ¬ Outside l c' := by
        rintro (ho | ho)
        · exact lt_irrefl _ (hcv ▸ ho v (hve ▸ List.getElem_mem _))
        · exact lt_irrefl _ (hcv ▸ ho v (hve ▸ List.getElem_mem _))
      simp only [hd0, if_true]
      left
      have hbetw : ∀ w, Between v c' w := by
        intro w; rcases le_total v w with hh | hh
        · exact Or.inl ⟨hcv ▸ le_refl _, hcv ▸ hh⟩
        · exact Or.inr ⟨hcv ▸ hh, hcv ▸ le_refl _⟩
      have hbetw' : ∀ w, Between w c' v := by
        intro w; rcases le_total v w with hh | hh
        · exact Or.inr ⟨hcv ▸ le_refl _, hcv ▸ hh⟩
        · exact Or.inl ⟨hcv ▸ hh, hcv ▸ le_refl _⟩
      by_cases hlast : i = (l.length : Int) - 1
      · simp only [hlast, if_true]
        refine ⟨(l.length : Int) - 1 - 1, (l.length : Int) - 1, ?_, ?_, ?_, Or.inr hnout, ?_⟩
        · rw [if_pos]; omega
        · refine ⟨by omega, by omega, by omega, by omega, Or.inl ⟨Or.inl (by omega), ?_⟩⟩
          have e : l[((l.length : Int) - 1).toNat]'(by omega) = v := by
            rw [← hve]; congr 1; omega
          rw [e]; exact hbetw' _
        · intro _; left; omega
        · intro hi
          have e : l[l.length - 1]'(by omega) = v := by rw [← hve]; congr 1; omega
          cases hasc : a.cont.isAscending
          · refine Or.inr ⟨rfl, ?_⟩
            have := (pairwise_head_max (h.stores.desc hasc) (by omega)).2
            rw [e, ← hcv] at this
            exact this
          · refine Or.inl ?_
            rw [hcv, ← e]
            exact (hget hasc _ _ hi (by omega) (by omega)).le
      · simp only [hlast, if_false]
        refine ⟨i, i + 1, ?_, ?_, ?_, Or.inr hnout, fun hi => Or.inl (by rw [hve, hcv])⟩
        · rw [if_pos]; omega
        · refine ⟨hi0, by omega, hilt, by omega, Or.inl ⟨Or.inl rfl, ?_⟩⟩
          rw [hve]; exact hbetw _
        · intro _; left; rfl
    · simp only [hd0, if_false]
      by_cases hneg : c' - v < 0
      · have hcv : c' < v := by linarith
        have hnout : ∀ w, w ∈ l → w ≤ c' → ¬ Outside l c' := by
          rintro w hw hle (ho | ho)
          · exact absurd (ho w hw) (not_lt.mpr hle)
          · exact absurd (ho v (hve ▸ List.getElem_mem _)) (not_lt.mpr hcv.le)
        simp only [hneg, if_true]
        cases hasc : a.cont.isAscending
        · -- descending: neighbour i + 1
          simp only [Bool.false_eq_true, if_false]
          by_cases hlast : i = (l.length : Int) - 1
          · -- c' below the minimum
            have hmin := (pairwise_head_max (h.stores.desc hasc) (by omega)).2
            have hcm : ∀ w ∈ l, c' < w := by
              intro w hw
              have := hmin.2 w hw
              have e : l[l.length - 1] = v := by rw [← hve]; congr 1; omega
              rw [e] at this; linarith
            cases hc : a.isCircle
            · right
              simp only [Bool.false_eq_true, if_false]
              rw [if_neg (by omega)]
              exact ⟨rfl, by simp, Or.inl hcm⟩
            · exact absurd (hcirc hc) (not_le.mpr (hcm m hm.1))
          · left
            have hk : (i + 1).toNat < l.length := by omega
            have hlt : l[(i+1).toNat] < v := by
              rw [← hve]; exact hget' hasc _ _ hilt hk (by omega)
            have hle := nearest_ge (l := l) (hnear' _ hk) hcv hlt
            have hval : (if a.isCircle = true then Math.remainderI (i + 1) ↑l.length else i + 1) = i + 1 := by
              rw [hrem (i + 1) (by omega) (by omega)]
              rw [if_neg (by omega : ¬ (i + 1 = -1)), if_neg (by omega : ¬ (i + 1 = (l.length : Int)))]
              simp
            rw [hval]
            refine ⟨i + 1, i, by rw [if_pos]; omega, ?_, by simp, Or.inr (hnout _ (List.getElem_mem _) hle),
              fun _ => Or.inl hle⟩
            refine ⟨by omega, hi0, hk, hilt, Or.inl ⟨Or.inr rfl, Or.inl ⟨hle, ?_⟩⟩⟩
            rw [hve]; exact hcv.le
        · simp only [if_true]
          by_cases hfirst : i = 0
          · have hmin := (pairwise_head_min (h.stores.asc hasc) (by omega)).1
            have hcm : ∀ w ∈ l, c' < w := by
              intro w hw
              have := hmin.2 w hw
              have e : l[0] = v := by rw [← hve]; congr 1; omega
              rw [e] at this; linarith
            cases hc : a.isCircle
            · right
              simp only [Bool.false_eq_true, if_false]
              rw [if_neg (by omega)]
              exact ⟨rfl, by simp, Or.inl hcm⟩
            · exact absurd (hcirc hc) (not_le.mpr (hcm m hm.1))
          · left
            have hk : (i - 1).toNat < l.length := by omega
            have hlt : l[(i-1).toNat] < v := by
              rw [← hve]; exact hget hasc _ _ hk hilt (by omega)
            have hle := nearest_ge (l := l) (hnear' _ hk) hcv hlt
            have hval : (if a.isCircle = true then Math.remainderI (i - 1) ↑l.length else i - 1) = i - 1 := by
              rw [hrem (i - 1) (by omega) (by omega)]
              rw [if_neg (by omega : ¬ (i - 1 = -1)), if_neg (by omega : ¬ (i - 1 = (l.length : Int)))]
              simp
            rw [hval]
            refine ⟨i - 1, i, by rw [if_pos]; omega, ?_, ?_, Or.inr (hnout _ (List.getElem_mem _) hle),
              fun _ => Or.inl hle⟩
            · refine ⟨by omega, hi0, hk, hilt, Or.inl ⟨Or.inl (by omega), Or.inl ⟨hle, ?_⟩⟩⟩
              rw [hve]; exact hcv.le
            · intro _; left; omega
      · simp only [hneg, if_false]
        have hcv : v < c' := lt_of_le_of_ne (by linarith) (fun hh => hd0 (by rw [hh]; ring))
        have hnout : ∀ w, w ∈ l → c' ≤ w → ¬ Outside l c' := by
          rintro w hw hle (ho | ho)
          · exact absurd (ho v (hve ▸ List.getElem_mem _)) (not_lt.mpr hcv.le)
          · exact absurd (ho w hw) (not_lt.mpr hle)
        cases hasc : a.cont.isAscending
        · simp only [Bool.false_eq_true, if_false]
          by_cases hfirst : i = 0
          · have hmax := (pairwise_head_max (h.stores.desc hasc) (by omega)).1
            have hcm : ∀ w ∈ l, w < c' := by
              intro w hw
              have := hmax.2 w hw
              have e : l[0] = v := by rw [← hve]; congr 1; omega
              rw [e] at this; linarith
            cases hc : a.isCircle
            · right
              simp only [Bool.false_eq_true, if_false]
              rw [if_neg (by omega)]
              exact ⟨rfl, by simp, Or.inr hcm⟩
            · left
              simp only [if_true]
              rw [hrem (i - 1) (by omega) (by omega), if_pos (by omega)]
              refine ⟨i, (l.length : Int) - 1, by rw [if_pos]; omega, ?_, by simp, Or.inl (by simp),
                fun hi => Or.inl (hcm _ (List.getElem_mem hi)).le⟩
              exact ⟨hi0, by omega, hilt, by omega, Or.inr ⟨by simp, Or.inr ⟨hfirst, rfl⟩, hcm⟩⟩
          · left
            have hk : (i - 1).toNat < l.length := by omega
            have hlt : v < l[(i-1).toNat] := by
              rw [← hve]; exact hget' hasc _ _ hk hilt (by omega)
            have hle := nearest_le (l := l) (hnear' _ hk) hcv hlt
            have hval : (if a.isCircle = true then Math.remainderI (i - 1) ↑l.length else i - 1) = i - 1 := by
              rw [hrem (i - 1) (by omega) (by omega)]
              rw [if_neg (by omega : ¬ (i - 1 = -1)), if_neg (by omega : ¬ (i - 1 = (l.length : Int)))]
              simp
            rw [hval]
            refine ⟨i, i - 1, by rw [if_pos]; omega, ?_, by simp, Or.inr (hnout _ (List.getElem_mem _) hle),
              fun _ => Or.inl (by rw [hve]; exact hcv.le)⟩
            refine ⟨hi0, by omega, hilt, hk, Or.inl ⟨Or.inr (by omega), Or.inl ⟨?_, hle⟩⟩⟩
            rw [hve]; exact hcv.le
        · simp only [if_true]
          by_cases hlast : i = (l.length : Int) - 1
          · have hmax := (pairwise_head_min (h.stores.asc hasc) (by omega)).2
            have hcm : ∀ w ∈ l, w < c' := by
              intro w hw
              have := hmax.2 w hw
              have e : l[l.length - 1] = v := by rw [← hve]; congr 1; omega
              rw [e] at this; linarith
            cases hc : a.isCircle
            · right
              simp only [Bool.false_eq_true, if_false]
              rw [if_neg (by omega)]
              exact ⟨rfl, by simp, Or.inr hcm⟩
            · left
              simp only [if_true]
              rw [hrem (i + 1) (by omega) (by omega), if_neg (by omega : ¬ (i + 1 = -1)),
                if_pos (by omega : i + 1 = (l.length : Int))]
              refine ⟨i, 0, by rw [if_pos]; omega, ?_, ?_, Or.inl (by simp),
                fun hi => Or.inl (hcm _ (List.getElem_mem hi)).le⟩
              · exact ⟨hi0, by omega, hilt, by simp; omega, Or.inr ⟨by simp, Or.inl ⟨hlast, rfl⟩, hcm⟩⟩
              · intro _; exact Or.inr ⟨by simp, hlast, rfl⟩
          · left
            have hk : (i + 1).toNat < l.length := by omega
            have hlt : v < l[(i+1).toNat] := by
              rw [← hve]; exact hget hasc _ _ hilt hk (by omega)
            have hle := nearest_le (l := l) (hnear' _ hk) hcv hlt
            have hval : (if a.isCircle = true then Math.remainderI (i + 1) ↑l.length else i + 1) = i + 1 := by
              rw [hrem (i + 1) (by omega) (by omega)]
              rw [if_neg (by omega : ¬ (i + 1 = -1)), if_neg (by omega : ¬ (i + 1 = (l.length : Int)))]
              simp
            rw [hval]
            refine ⟨i, i + 1, by rw [if_pos]; omega, ?_, ?_, Or.inr (hnout _ (List.getElem_mem _) hle),
              fun _ => Or.inl (by rw [hve]; exact hcv.le)⟩
            · refine ⟨hi0, by omega, hilt, hk, Or.inl ⟨Or.inl rfl, Or.inl ⟨?_, hle⟩⟩⟩
              rw [hve]; exact hcv.le
            · intro _; left; rfl

theorem findIndexes_spec {a : Axis T} {l : List T} (h : AxisOk a l) (h2 : 2 ≤ l.length) (c : T) :
    ∃ m c', IsMin l m ∧ NormOf a.circle m c c' ∧
      ((∃ i j, a.findIndexes c = .ok (some (i, j)) ∧ Frames l a.isCircle c' i j ∧
          (a.cont.isAscending = true → j = i + 1 ∨ (a.isCircle = true ∧ i = (l.length : Int) - 1 ∧ j = 0)) ∧
          (a.isCircle = true ∨ ¬ Outside l c')) ∨
       (a.findIndexes c = .ok none ∧ a.isCircle = false ∧ Outside l c')) := by
  obtain ⟨m, c', hm, hn, hr⟩ := findIndexes_spec' h h2 c
  refine ⟨m, c', hm, hn, ?_⟩
  rcases hr with ⟨i, j, h1, h2, h3, h4, _⟩ | hr
  · exact Or.inl ⟨i, j, h1, h2, h3, h4⟩
  · exact Or.inr hr

end
end Pyinterp
