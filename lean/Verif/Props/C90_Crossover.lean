import Verif.Lemmas.Crossover
import Mathlib.Data.Rat.Floor
import Mathlib.Tactic.NormNum

/-
C90: unrolling of two half-orbits before the search of their crossover in the plane
(detail/geometry/crossover.hpp:16-121).
-/
namespace Pyinterp.Crossover

open Spec

variable {K : Type} [Field K] [LinearOrder K] [IsStrictOrderedRing K] [FloorRing K]

/-- C90: two half-orbits that together span less than one turn, recorded with longitudes in
[w, w + 360), come out as their true continuous tracks, each one shifted as a whole by a number of
turns; the latitudes are unchanged and the longitudes of both lie in one window of one turn, so that two
points are on the same meridian exactly when they have the same longitude. -/
theorem C90_unrolled (w s1 s2 : K) (u1 u2 : List K) (l1 l2 : Line K)
    (h1 : Recorded w u1 (l1.map Prod.fst)) (h2 : Recorded w u2 (l2.map Prod.fst))
    (t1 : Track u1) (t2 : Track u2) (n1 : 3 ≤ l1.length) (n2 : 3 ≤ l2.length)
    (p1 : Spans u1 s1) (p2 : Spans u2 s2) (hs : s1 + s2 < 360) :
    ∃ (k1 k2 : ℤ) (B : K) (l1' l2' : Line K), normalize l1 l2 = .ok (l1', l2') ∧
      l1'.map Prod.fst = u1.map (fun t => t + (k1 : K) * 360) ∧ l1'.map Prod.snd = l1.map Prod.snd ∧
      l2'.map Prod.fst = u2.map (fun t => t + (k2 : K) * 360) ∧ l2'.map Prod.snd = l2.map Prod.snd ∧
      (∀ p ∈ l1' ++ l2', B - 360 < p.1 ∧ p.1 ≤ B) := by
  obtain ⟨r1, r2, A, B, hr1, hr2, hA, hB, he⟩ := normalize_eq l1 l2 n1 n2
  obtain ⟨a1, e1, le1, sp1, in1, wm1, em1⟩ := ends h1 t1 p1 n1
  obtain ⟨a2, e2, le2, sp2, in2, wm2, em2⟩ := ends h2 t2 p2 n2
  rw [← hr1] at wm1 em1
  rw [← hr2] at wm2 em2
  have m1 := recorded_mem h1
  have m2 := recorded_mem h2
  have hAw : w ≤ A ∧ A < w + 360 := by
    rcases hA with h | h <;> rw [h]
    · exact m1 _ (westEnd_mem _ _ _)
    · exact m2 _ (westEnd_mem _ _ _)
  have c1 := m1 _ (eastEnd_mem r1 l1 (by omega))
  have c2 := m2 _ (eastEnd_mem r2 l2 (by omega))
  have W1 := shiftUp_window c1.1 c1.2 hAw.1 hAw.2
  have W2 := shiftUp_window c2.1 c2.2 hAw.1 hAw.2
  have E1 := sm_trans em1 (shiftUp_spec A _).1
  have E2 := sm_trans em2 (shiftUp_spec A _).1
  have hBA : A ≤ B ∧ B < A + 360 := by
    rw [hB]; exact ⟨le_trans W1.1 (le_max_left _ _), max_lt W1.2 W2.2⟩
  have key : ∃ k1 k2 : ℤ, (∀ t ∈ u1, B - 360 < t + (k1 : K) * 360 ∧ t + (k1 : K) * 360 ≤ B) ∧
      (∀ t ∈ u2, B - 360 < t + (k2 : K) * 360 ∧ t + (k2 : K) * 360 ≤ B) := by
    rcases hA with h | h
    · rw [← h] at wm1
      obtain ⟨k1, k2, x, y⟩ := unroll (by linarith) le1 le2 wm1 E1 E2 W1.1 W1.2 W2.1 W2.2
      rw [← hB] at x y
      exact ⟨k1, k2, fun t ht => x t (in1 t ht).1 (in1 t ht).2, fun t ht => y t (in2 t ht).1 (in2 t ht).2⟩
    · rw [← h] at wm2
      obtain ⟨k2, k1, y, x⟩ := unroll (by linarith) le2 le1 wm2 E2 E1 W2.1 W2.2 W1.1 W1.2
      rw [max_comm, ← hB] at x y
      exact ⟨k1, k2, fun t ht => x t (in1 t ht).1 (in1 t ht).2, fun t ht => y t (in2 t ht).1 (in2 t ht).2⟩
  obtain ⟨k1, k2, x, y⟩ := key
  refine ⟨k1, k2, B, _, _, he, shifted_line h1 hAw.1 hAw.2 hBA.1 hBA.2 k1 x, ?_,
    shifted_line h2 hAw.1 hAw.2 hBA.1 hBA.2 k2 y, ?_, ?_⟩
  · simp only [List.map_map]
    apply List.map_congr_left
    intro p _
    simp [(shiftUp_spec A p).2, (shiftDown_spec B (shiftUp A p)).2]
  · simp only [List.map_map]
    apply List.map_congr_left
    intro p _
    simp [(shiftUp_spec A p).2, (shiftDown_spec B (shiftUp A p)).2]
  · intro p hp
    rw [List.mem_append] at hp
    have : ∃ q, (w ≤ q.1 ∧ q.1 < w + 360) ∧ p = shiftDown B (shiftUp A q) := by
      rcases hp with hp | hp
      · simp only [List.map_map, List.mem_map, Function.comp] at hp
        obtain ⟨q, hq, rfl⟩ := hp
        exact ⟨q, m1 q hq, rfl⟩
      · simp only [List.map_map, List.mem_map, Function.comp] at hp
        obtain ⟨q, hq, rfl⟩ := hp
        exact ⟨q, m2 q hq, rfl⟩
    obtain ⟨q, hq, rfl⟩ := this
    have a := shiftUp_window hq.1 hq.2 hAw.1 hAw.2
    exact shiftDown_window a.1 a.2 hBA.1 hBA.2

/-- C90, for any two lines whatever: an exception if one has fewer than three points; otherwise no point
leaves its meridian or its parallel. -/
theorem C90_same_places (l1 l2 : Line K) :
    (l1.length < 3 ∨ l2.length < 3 → normalize l1 l2 = .error .exn) ∧
    (3 ≤ l1.length → 3 ≤ l2.length → ∃ l1' l2', normalize l1 l2 = .ok (l1', l2') ∧
      List.Forall₂ (fun p q => SameMeridian p.1 q.1 ∧ q.2 = p.2) l1 l1' ∧
      List.Forall₂ (fun p q => SameMeridian p.1 q.1 ∧ q.2 = p.2) l2 l2') := by
  constructor
  · intro h
    unfold normalize
    rw [if_pos h]
    rfl
  · intro n1 n2
    obtain ⟨r1, r2, A, B, -, -, -, -, he⟩ := normalize_eq l1 l2 n1 n2
    refine ⟨_, _, he, ?_, ?_⟩ <;>
    · rw [List.map_map, List.forall₂_map_right_iff, List.forall₂_same]
      intro p _
      exact ⟨sm_trans (shiftUp_spec A p).1 (shiftDown_spec B _).1, by
        simp [(shiftUp_spec A p).2, (shiftDown_spec B (shiftUp A p)).2]⟩

/-- Two tracks that cross the date line, recorded in [-180, 180). -/
def exTrack1 : List ℚ := [170, 175, 185, 190]
def exTrack2 : List ℚ := [195, 180, 165]
def exLine1 : Line ℚ := [(170, 0), (175, 10), (-175, 20), (-170, 30)]
def exLine2 : Line ℚ := [(-165, 0), (-180, 15), (165, 30)]

theorem ex_recorded1 : Recorded (-180) exTrack1 (exLine1.map Prod.fst) := by
  simp only [Recorded, exTrack1, exLine1, List.map_cons, List.map_nil, List.forall₂_cons, SameMeridian]
  refine ⟨⟨⟨0, ?_⟩, ?_, ?_⟩, ⟨⟨0, ?_⟩, ?_, ?_⟩, ⟨⟨-1, ?_⟩, ?_, ?_⟩, ⟨⟨-1, ?_⟩, ?_, ?_⟩, List.Forall₂.nil⟩ <;> norm_num

theorem ex_recorded2 : Recorded (-180) exTrack2 (exLine2.map Prod.fst) := by
  simp only [Recorded, exTrack2, exLine2, List.map_cons, List.map_nil, List.forall₂_cons, SameMeridian]
  refine ⟨⟨⟨-1, ?_⟩, ?_, ?_⟩, ⟨⟨-1, ?_⟩, ?_, ?_⟩, ⟨⟨0, ?_⟩, ?_, ?_⟩, List.Forall₂.nil⟩ <;> norm_num

theorem ex_track1 : Track exTrack1 := by
  unfold Track exTrack1; constructor
  · left; decide +kernel
  · simp [List.isChain_cons_cons]; norm_num [abs_lt]

theorem ex_track2 : Track exTrack2 := by
  unfold Track exTrack2; constructor
  · right; decide +kernel
  · simp [List.isChain_cons_cons]; norm_num [abs_lt]

theorem ex_spans1 : Spans exTrack1 20 := by unfold Spans exTrack1; decide +kernel
theorem ex_spans2 : Spans exTrack2 30 := by unfold Spans exTrack2; decide +kernel

example : normalize exLine1 exLine2 =
    .ok ([(170, 0), (175, 10), (185, 20), (190, 30)], [(195, 0), (180, 15), (165, 30)]) := by
  decide +kernel

example : ∃ (k1 k2 : ℤ) (B : ℚ) (l1' l2' : Line ℚ), normalize exLine1 exLine2 = .ok (l1', l2') ∧
      l1'.map Prod.fst = exTrack1.map (fun t => t + (k1 : ℚ) * 360) ∧ l1'.map Prod.snd = exLine1.map Prod.snd ∧
      l2'.map Prod.fst = exTrack2.map (fun t => t + (k2 : ℚ) * 360) ∧ l2'.map Prod.snd = exLine2.map Prod.snd ∧
      (∀ p ∈ l1' ++ l2', B - 360 < p.1 ∧ p.1 ≤ B) :=
  C90_unrolled (-180) 20 30 exTrack1 exTrack2 exLine1 exLine2 ex_recorded1 ex_recorded2 ex_track1 ex_track2
    (by decide) (by decide) ex_spans1 ex_spans2 (by norm_num)

/-- C90 is false without the bound on the spans: two half-orbits of 200° of longitude each, as those of
a sun-synchronous satellite (about 192°), where the second comes out torn: two consecutive points, 100°
apart on the track, are 260° apart in the plane, so that its line there is drawn across the map. -/
theorem C90_wide_false :
    ∃ (u1 u2 : List ℚ) (l1 l2 l1' l2' : Line ℚ), Recorded (-180) u1 (l1.map Prod.fst) ∧
      Recorded (-180) u2 (l2.map Prod.fst) ∧ Track u1 ∧ Track u2 ∧ Spans u1 200 ∧ Spans u2 200 ∧
      normalize l1 l2 = .ok (l1', l2') ∧
      ¬ ∃ k : ℤ, l2'.map Prod.fst = u2.map (fun t => t + (k : ℚ) * 360) := by
  refine ⟨[100, 0, -100], [-80, -180, -280], [(100, 0), (0, 10), (-100, 20)], [(-80, 0), (-180, 10), (80, 20)],
    [(100, 0), (0, 10), (-100, 20)], [(-80, 0), (-180, 10), (80, 20)], ?_, ?_, ?_, ?_, ?_, ?_, ?_, ?_⟩
  · simp only [Recorded, List.map_cons, List.map_nil, List.forall₂_cons, SameMeridian]
    refine ⟨⟨⟨0, ?_⟩, ?_, ?_⟩, ⟨⟨0, ?_⟩, ?_, ?_⟩, ⟨⟨0, ?_⟩, ?_, ?_⟩, List.Forall₂.nil⟩ <;> norm_num
  · simp only [Recorded, List.map_cons, List.map_nil, List.forall₂_cons, SameMeridian]
    refine ⟨⟨⟨0, ?_⟩, ?_, ?_⟩, ⟨⟨0, ?_⟩, ?_, ?_⟩, ⟨⟨1, ?_⟩, ?_, ?_⟩, List.Forall₂.nil⟩ <;> norm_num
  · constructor
    · right; decide +kernel
    · simp [List.isChain_cons_cons]; norm_num [abs_lt]
  · constructor
    · right; decide +kernel
    · simp [List.isChain_cons_cons]; norm_num [abs_lt]
  · unfold Spans; decide +kernel
  · unfold Spans; decide +kernel
  · decide +kernel
  · rintro ⟨k, hk⟩
    simp only [List.map_cons, List.map_nil, List.cons.injEq, and_true] at hk
    linarith [hk.1, hk.2.1, hk.2.2]

end Pyinterp.Crossover
