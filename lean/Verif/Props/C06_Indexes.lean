import Verif.Lemmas.Coordinates
import Verif.Lemmas.Window
import Mathlib.Data.Rat.Floor

/-
C06 – bracketing indexes; C07 – windows of indexes.
-/
namespace Pyinterp
open Spec
set_option linter.unusedVariables false
set_option linter.unusedSectionVars false

section
variable {T : Type} [CommRing T] [LinearOrder T] [IsStrictOrderedRing T] [AxisNum T] [LawfulAxisNum T]

theorem onTurn_of_normOf {a : Axis T} {l : List T} (h : AxisOk a l) {m x c : T} (hm : IsMin l m)
    (hn : NormOf a.circle m x c) : OnTurn a l x c := by
  constructor
  · intro hang
    exact hn.1 (by simpa [Axis.isAngle] using hang)
  · intro hang
    have hc : a.circle = some 360 := by
      rcases h.circle with h' | h'
      · simp [Axis.isAngle, h'] at hang
      · exact h'
    obtain ⟨h1, h2, h3⟩ := hn.2 _ hc
    refine ⟨?_, h3⟩
    intro v hv hle
    have e : v = m := le_antisymm (hle m hm.1) (hm.2 v hv)
    rw [e]; exact ⟨h1, h2⟩

theorem findIndexes_onTurn {a : Axis T} {l : List T} (h : AxisOk a l) (h2 : 2 ≤ l.length) (x : T) :
    ∃ c, OnTurn a l x c ∧
      ((∃ i j, a.findIndexes x = .ok (some (i, j)) ∧ Frames l a.isCircle c i j ∧
          (a.isCircle = true ∨ ¬ Outside l c)) ∨
       (a.findIndexes x = .ok none ∧ a.isCircle = false ∧ Outside l c)) := by
  obtain ⟨m, c, hm, hn, hr⟩ := findIndexes_spec h h2 x
  refine ⟨c, onTurn_of_normOf h hm hn, ?_⟩
  rcases hr with ⟨i, j, e, hf, _, ho⟩ | hr
  · exact Or.inl ⟨i, j, e, hf, ho⟩
  · exact Or.inr hr

/-- Windows on ascending axes. -/
theorem window_of_ok {a : Axis T} {l : List T} (h : AxisOk a l) (h2 : 2 ≤ l.length)
    (hasc : a.cont.isAscending = true) (x : T) (n : Nat) (hn : 0 < n) (b : Boundary)
    (hsym : b = .sym → n ≤ l.length) :
    ∃ c, OnTurn a l x c ∧
      ((a.isCircle = false ∧ Outside l c ∧
          a.findIndexesWindow x n b = .ok []) ∨
       (∃ i0 i1 : Int, Frames l a.isCircle c i0 i1 ∧ (i1 = i0 + 1 ∨ (i0 = (l.length : Int) - 1 ∧ i1 = 0)) ∧
         ∃ w, a.findIndexesWindow x n b = .ok w ∧
          let spec := (List.range (2 * n)).map
            (fun k : Nat => windowIndex a.isCircle b l.length (i0 + 1 - n + k))
          (none ∈ spec → w = []) ∧ (none ∉ spec → w.map some = spec))) := by
  obtain ⟨m, c, hm, hnn, hr⟩ := findIndexes_spec h h2 x
  refine ⟨c, onTurn_of_normOf h hm hnn, ?_⟩
  have hne : n ≠ 0 := by omega
  rcases hr with ⟨i, j, e, hf, hp, ho⟩ | ⟨e, hc, ho⟩
  · right
    refine ⟨i, j, hf, ?_, Axis.windowLoop a.isCircle a.size b i j (n - 1) 1 [i, j], ?_, ?_⟩
    · rcases hp hasc with hp | hp
      · exact Or.inl hp
      · exact Or.inr hp.2
    · unfold Axis.findIndexesWindow
      rw [if_neg hne, e]
      rfl
    · have hsz : a.size = (l.length : Int) := h.stores.size_eq
      rw [hsz]
      obtain ⟨f1, f2, f3, f4, _⟩ := hf
      apply windowLoop_window
      · exact hn
      · omega
      · omega
      · rcases hp hasc with hp | hp
        · left; omega
        · exact Or.inr hp
      · intro hb _
        have := hsym hb
        omega
  · left
    refine ⟨hc, ho, ?_⟩
    unfold Axis.findIndexesWindow
    rw [if_neg hne, e]
    have h0 : a.cont.coord 0 = .ok (l[0]'(by omega)) := h.stores.coord_eq 0 (by omega)
    by_cases h1 : n = 1
    · simp only [h1, if_true, bind, Except.bind, h0, pure, Except.pure]
      rw [if_neg]
      intro hx
      have hmin := (pairwise_head_min (h.stores.asc hasc) (by omega)).1
      have hcx : c = x := by
        rcases h.circle with hc' | hc'
        · exact hnn.1 hc'
        · obtain ⟨g1, g2, k, g3⟩ := hnn.2 _ hc'
          have em : m = l[0] := le_antisymm (hm.2 _ hmin.1) (hmin.2 _ hm.1)
          rw [g3, hx, em] at g1 g2
          have k1 : (0 : T) ≤ (k : T) := by linarith
          have k2 : (k : T) < 1 := by linarith
          have k1' : 0 ≤ k := by exact_mod_cast k1
          have k2' : k < 1 := by exact_mod_cast k2
          have k0 : k = 0 := by omega
          rw [g3, k0]; simp
      rw [hcx, hx] at ho
      rcases ho with ho | ho
      · exact lt_irrefl _ (ho _ hmin.1)
      · exact lt_irrefl _ (ho _ hmin.1)
    · simp only [h1, if_false, bind, Except.bind, pure, Except.pure]
end

section
variable {K : Type} [Field K] [LinearOrder K] [IsStrictOrderedRing K] [FloorRing K]

/-- **C06**: `find_indexes` on any floating point axis with at least two coordinates:
the answer frames the coordinate (brought on the turn of the axis for an angle); there
is no answer exactly when the axis is not a full circle and the coordinate is outside. -/
theorem C06_find_indexes (a : Axis K) (l : List K) (h : Reach false a) (hl : Coordinates a l)
    (h2 : 2 ≤ l.length) (x : K) :
    ∃ c, OnTurn a l x c ∧
      ((∃ i j, a.findIndexes x = .ok (some (i, j)) ∧ Frames l a.isCircle c i j ∧
          (a.isCircle = true ∨ ¬ Outside l c)) ∨
       (a.findIndexes x = .ok none ∧ a.isCircle = false ∧ Outside l c)) :=
  findIndexes_onTurn (reach_axisOk h hl) h2 x

/-- **C07** (ascending axes): a window of `2 * n` indexes around the framing pair
`(i0, i0 + 1)` (or the closing pair of a circle). Each index is the one designated by the
specification `windowIndex`; the window is refused exactly when one index designates
nothing. For the symmetric mode the half-size is at most the length of the axis. -/
theorem C07_window_partial (a : Axis K) (l : List K) (h : Reach false a) (hl : Coordinates a l)
    (h2 : 2 ≤ l.length) (hasc : l.Pairwise (· < ·)) (x : K) (n : Nat) (hn : 0 < n) (b : Boundary)
    (hsym : b = .sym → n ≤ l.length) :
    ∃ c, OnTurn a l x c ∧
      ((a.isCircle = false ∧ Outside l c ∧
          a.findIndexesWindow x n b = .ok []) ∨
       (∃ i0 i1 : Int, Frames l a.isCircle c i0 i1 ∧ (i1 = i0 + 1 ∨ (i0 = (l.length : Int) - 1 ∧ i1 = 0)) ∧
         ∃ w, a.findIndexesWindow x n b = .ok w ∧
          let spec := (List.range (2 * n)).map
            (fun k : Nat => windowIndex a.isCircle b l.length (i0 + 1 - n + k))
          (none ∈ spec → w = []) ∧ (none ∉ spec → w.map some = spec))) := by
  have hok := reach_axisOk h hl
  refine window_of_ok hok h2 ?_ x n hn b hsym
  cases ha : a.cont.isAscending
  · exfalso
    have hd := hok.stores.desc ha
    have e1 := List.pairwise_iff_getElem.mp hasc 0 1 (by omega) (by omega) (by omega)
    have e2 := List.pairwise_iff_getElem.mp hd 0 1 (by omega) (by omega) (by omega)
    exact lt_asymm e1 e2
  · rfl
end

/-- C06 for the integral axes on which the search is right. -/
theorem C06_find_indexes_int_partial (a : Axis Int) (l : List Int) (h : ReachI a) (hl : Coordinates a l)
    (h2 : 2 ≤ l.length) (x : Int) :
    ∃ c, OnTurn a l x c ∧
      ((∃ i j, a.findIndexes x = .ok (some (i, j)) ∧ Frames l a.isCircle c i j ∧
          (a.isCircle = true ∨ ¬ Outside l c)) ∨
       (a.findIndexes x = .ok none ∧ a.isCircle = false ∧ Outside l c)) :=
  findIndexes_onTurn (reachI_axisOk h hl) h2 x

/-- C06 fails on descending regular integral axes: 8 is not between 12 and 9. -/
theorem C06_int_descending_wrong :
    ∃ (a : Axis Int), mkAxis true [12, 9, 6, 3, 0] 0 false = .ok a ∧
      Coordinates a [12, 9, 6, 3, 0] ∧ a.findIndexes 8 = .ok (some (1, 0)) ∧
      ¬ Frames [12, 9, 6, 3, 0] false (8 : Int) 1 0 := by
  refine ⟨⟨false, none, .regular ⟨5, 12, -3, -2, false⟩⟩, by decide, ⟨rfl, by decide⟩, by decide, ?_⟩
  rintro ⟨_, _, _, _, h | h⟩
  · obtain ⟨_, h⟩ := h
    simp [Between] at h
  · exact absurd h.1 (by decide)

/-- C07, symmetric mode with a window larger than the axis: an index of -1 is returned
(axis with 2 coordinates, half-size 3). -/
theorem C07_sym_out_of_range :
    ∃ (a : Axis Int) (w : List Int), mkAxis true [0, 3] 0 false = .ok a ∧
      a.findIndexesWindow 1 3 .sym = .ok w ∧ -1 ∈ w :=
  ⟨⟨false, none, .regular ⟨2, 0, 3, 1, true⟩⟩, [0, 1, 0, 1, 0, -1], by decide, by decide, by decide⟩

/-- C07 fails on descending axes: the framing pair is returned in decreasing order and the
window around it repeats indexes although nothing is near the boundary. -/
theorem C07_descending_wrong :
    ∃ (a : Axis ℚ) (w : List Int), Reach false a ∧ Coordinates a [5, 4, 3, 2, 1, 0] ∧
      a.findIndexesWindow (11/4) 2 .undef = .ok w ∧ w = [2, 3, 2, 3] := by
  refine ⟨⟨false, none, .regular ⟨6, 5, -1, -1, false⟩⟩, [2, 3, 2, 3], ?_, ⟨rfl, ?_⟩, by decide +kernel, rfl⟩
  · exact .regular 5 0 6 (1/1000000) false _ (by decide +kernel)
  · decide +kernel

/- Non vacuity: a circular axis 0, 90, 180, 270 and a window over the end. -/
example : ∃ a : Axis ℚ, Reach false a ∧ Coordinates a [0, 90, 180, 270] ∧ a.isCircle = true ∧
    a.findIndexes (-10) = .ok (some (3, 0)) ∧ a.findIndexesWindow (-10) 2 .undef = .ok [2, 3, 0, 1] := by
  refine ⟨⟨true, some 360, .regular ⟨4, 0, 90, 1/90, true⟩⟩, ?_, ⟨rfl, by decide +kernel⟩, rfl, by decide +kernel, by decide +kernel⟩
  exact .regular 0 270 4 (1/1000000) true _ (by decide +kernel)

end Pyinterp
