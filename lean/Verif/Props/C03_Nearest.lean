import Verif.Lemmas.Coordinates
import Mathlib.Data.Rat.Floor

/-
C03 – nearest index on an irregular axis;
C04 – nearest index on a regular (evenly spaced) floating point axis;
C05 – nearest index on a regular integral axis.
`findNearestIndex` is the method `Axis.find_index` seen from Python.
-/
namespace Pyinterp
open Spec
set_option linter.unusedVariables false
set_option linter.unusedSectionVars false

section
variable {T : Type} [CommRing T] [LinearOrder T] [IsStrictOrderedRing T] [AxisNum T] [LawfulAxisNum T]

theorem findNearest_nonAngle {a : Axis T} (hang : a.isAngle = false) (hcirc : a.isCircle = false)
    {l : List T} (hs : Stores a.cont l) (c : T) (b : Bool) :
    a.findNearestIndex c b = a.cont.findIndex c b := by
  obtain ⟨m, hm, _⟩ := hs.minValue
  have hc : a.circle = none := by simpa [Axis.isAngle] using hang
  have hn : a.normalizeCoordinate c = .ok c := by
    simp [Axis.normalizeCoordinate, hm, Axis.normalizeCoordinate', hc, bind, Except.bind, pure, Except.pure]
  unfold Axis.findNearestIndex
  simp only [hn, bind, Except.bind, hcirc, Bool.false_eq_true, and_false, if_false]
  cases a.cont.findIndex c b <;> rfl

theorem not_circle_of_not_angle {a : Axis T} {l : List T} (h : AxisOk a l) (hang : a.isAngle = false) :
    a.isCircle = false := by
  cases hc : a.isCircle
  · rfl
  · have := h.isCircle hc
    simp [Axis.isAngle, this] at hang

theorem outside_of_lt_end (l : List T) (c : T) : Outside l c → ∀ v ∈ l, c ≠ v := by
  rintro (h | h) v hv rfl
  · exact lt_irrefl _ (h _ hv)
  · exact lt_irrefl _ (h _ hv)
end

section
variable {K : Type} [Field K] [LinearOrder K] [IsStrictOrderedRing K] [FloorRing K]

/-- **C03**: on an irregular axis that is not an angle, `find_index` never fails; inside
the axis, or when `bounded` is set, the index returned is that of a closest coordinate;
outside the axis and unbounded, it is -1. -/
theorem C03_find_index_irregular (a : Axis K) (l : List K) (h : Reach false a) (hl : Coordinates a l)
    (hirr : a.isRegular = false) (hang : a.isAngle = false) (c : K) (bounded : Bool) :
    ∃ i, a.findNearestIndex c bounded = .ok i ∧
      (bounded = false ∧ Outside l c → i = -1) ∧
      (¬ (bounded = false ∧ Outside l c) → Nearest l c i) := by
  have hok := reach_axisOk h hl
  have e := coordinates_eq_contList h hl
  have inv := reach_irregular h hirr
  rw [findNearest_nonAngle hang (not_circle_of_not_angle hok hang) hok.stores]
  cases hc : a.cont with
  | undefined => rw [hc] at inv; exact inv.elim
  | regular r => simp [Axis.isRegular, hc] at hirr
  | irregular p asc =>
    rw [hc] at inv e
    simp only [contList] at e
    subst e
    obtain ⟨i, h1, h2⟩ := irregular_find l asc inv.1 inv.2.1 inv.2.2 c bounded
    refine ⟨i, h1, ?_, ?_⟩
    · rintro ⟨hb, ho⟩
      rcases h2 with h2 | h2
      · exact h2.1
      · exact absurd ho (h2.2 hb)
    · intro hn
      rcases h2 with h2 | h2
      · exact absurd ⟨h2.2.1, h2.2.2⟩ hn
      · exact h2.1

/-- **C04**: on every floating point axis that is not an angle (regular or not),
`find_index` never fails; it returns the index of a closest coordinate, or -1 and then
the coordinate is outside the axis and `bounded` is not set. In particular -1 is never
returned for a coordinate inside the axis. -/
theorem C04_find_index (a : Axis K) (l : List K) (h : Reach false a) (hl : Coordinates a l)
    (hang : a.isAngle = false) (c : K) (bounded : Bool) :
    ∃ i, a.findNearestIndex c bounded = .ok i ∧
      ((i = -1 ∧ bounded = false ∧ Outside l c) ∨ Nearest l c i) := by
  have hok := reach_axisOk h hl
  rw [findNearest_nonAngle hang (not_circle_of_not_angle hok hang) hok.stores]
  exact hok.find c bounded

/-- **C04**, second half: on a regular axis `start + i * step`, `0 ≤ i < n`, the answer is
exactly -1 when `bounded` is not set and the coordinate is farther than half a step from
both ends. (At most half a step outside, the end index is returned: see the example.) -/
theorem C04_far_outside (a : Axis K) (l : List K) (h : Reach false a) (hl : Coordinates a l)
    (hang : a.isAngle = false) (start step : K)
    (hreg : a.isRegular = true) (hco : ∀ i (hi : i < l.length), l[i] = start + (i : K) * step)
    (h2 : 2 ≤ l.length) (c : K)
    (hfar : ∀ v ∈ l, |step| < 2 * |c - v|) (ho : Outside l c) :
    a.findNearestIndex c false = .ok (-1) := by
  have hok := reach_axisOk h hl
  have inv := (reach_inv h).1
  rw [findNearest_nonAngle hang (not_circle_of_not_angle hok hang) hok.stores]
  have e := coordinates_eq_contList h hl
  cases hc : a.cont with
  | undefined => simp [Axis.isRegular, hc] at hreg
  | irregular p asc => simp [Axis.isRegular, hc] at hreg
  | regular r =>
    rw [hc] at inv e
    simp only [contList] at e
    obtain ⟨hn, hs, _, _, hP⟩ := inv
    obtain ⟨idx, hi1, hi2⟩ := halfStep_float r hs hP c
    have hlen : l.length = r.size.toNat := by rw [e]; simp
    have g : ∀ i (hi : i < l.length), l[i] = r.start + (i : K) * r.step := by
      intro i hi
      subst e
      exact regCoords_getElem _ _ _ i hi
    have e0 := hco 0 (by omega)
    have e1 := hco 1 (by omega)
    rw [g 0 (by omega)] at e0
    rw [g 1 (by omega)] at e1
    have es : r.step = step := by push_cast at e0 e1; linarith
    simp only [Container.findIndex, hi1, bind, Except.bind, pure, Except.pure]
    by_cases c0 : idx < 0
    · simp [c0]
    · by_cases c1 : idx ≥ r.size
      · simp [c0, c1]
      · exfalso
        have hlt : idx.toNat < l.length := by omega
        have hm := hfar _ (List.getElem_mem hlt)
        rw [g _ hlt] at hm
        have ec : ((idx.toNat : Nat) : K) = ((idx : Int) : K) := by
          have : ((idx.toNat : Nat) : Int) = idx := Int.toNat_of_nonneg (by omega)
          exact_mod_cast congrArg (Int.cast : Int → K) this
        rw [ec, es] at hm
        rw [es] at hi2
        linarith
end

/-- **C05** (part): integral axes – `AxisInt64` and `TemporalAxis` – whose regular
container was built ascending (then possibly flipped), or irregular in any direction:
`find_index` returns a closest index or -1 outside. The missing part (regular axes built
from descending values) is false: see `C05_descending_wrong`. -/
theorem C05_find_index_int_partial (a : Axis Int) (l : List Int) (h : ReachI a) (hl : Coordinates a l)
    (hang : a.isAngle = false) (c : Int) (bounded : Bool) :
    ∃ i, a.findNearestIndex c bounded = .ok i ∧
      ((i = -1 ∧ bounded = false ∧ Outside l c) ∨ Nearest l c i) := by
  have hok := reachI_axisOk h hl
  rw [findNearest_nonAngle hang (not_circle_of_not_angle hok hang) hok.stores]
  exact hok.find c bounded

/-- C05 fails for descending evenly spaced integral axes: on the axis 12, 9, 6, 3, 0 the
index found for 8 is that of 12. The rounding term `step_2_ = step >> 1` is negative
there. -/
theorem C05_descending_wrong :
    ∃ (a : Axis Int), mkAxis true [12, 9, 6, 3, 0] 0 false = .ok a ∧
      Coordinates a [12, 9, 6, 3, 0] ∧ a.findNearestIndex 8 false = .ok 0 ∧
      ¬ Nearest [12, 9, 6, 3, 0] (8 : Int) 0 := by
  refine ⟨⟨false, none, .regular ⟨5, 12, -3, -2, false⟩⟩, by decide, ⟨rfl, by decide⟩, by decide, ?_⟩
  · rintro ⟨v, _, hv, hw⟩
    simp only [Int.toNat_zero, List.getElem?_cons_zero, Option.some.injEq] at hv
    have := hw 9 (by simp)
    rw [← hv] at this
    norm_num at this

/-- With a step of -1 even the first coordinate of the axis is reported as being outside. -/
theorem C05_descending_front_lost :
    ∃ (a : Axis Int), mkAxis true [3, 2, 1, 0] 0 false = .ok a ∧ a.findNearestIndex 3 false = .ok (-1) :=
  ⟨⟨false, none, .regular ⟨4, 3, -1, -1, false⟩⟩, by decide, by decide⟩

/- Non vacuity: an irregular descending axis, a regular one (half a step outside the
index of the end is returned), and an integral one. -/
example : ∃ a : Axis ℚ, mkAxis false [5, 3, 2] (1/1000000) false = .ok a ∧
    Reach false a ∧ a.isRegular = false ∧ a.isAngle = false := by
  have h : mkAxis false [(5 : ℚ), 3, 2] (1/1000000) false =
      .ok ⟨false, none, .irregular [5, 3, 2] false⟩ := by
    simp [mkAxis, initializeFromValues, isEvenlySpaced, evenlyLoop, AxisNum.isSame, AxisNum.divInt, fabs,
      mkIrregular, computeProperties, Container.size, Container.isMonotonic, adjacentFind, isSortedBy,
      isAscendingList, bind, Except.bind, pure, Except.pure]
    norm_num
  exact ⟨_, h, .values _ _ _ _ (by norm_num) h, rfl, rfl⟩

example : ∃ a : Axis ℚ, mkAxisRegular false 0 3 4 (1/1000000) false = .ok a ∧
    Reach false a ∧ a.isRegular = true ∧ a.isAngle = false ∧ a.findNearestIndex (13/4) false = .ok 3 := by
  refine ⟨⟨false, none, .regular ⟨4, 0, 1, 1, true⟩⟩, by decide +kernel, ?_, rfl, rfl, by decide +kernel⟩
  exact .regular 0 3 4 (1/1000000) false _ (by decide +kernel)

example : ∃ a : Axis Int, mkAxis true [0, 3, 6, 9] 0 false = .ok a ∧ ReachI a.flip ∧
    a.flip.findNearestIndex 7 false = .ok 1 :=
  ⟨⟨false, none, .regular ⟨4, 0, 3, 1, true⟩⟩, by decide,
    .flip _ (.values [0, 3, 6, 9] 0 false _ (by decide) (by decide) (by decide)), by decide⟩

end Pyinterp
