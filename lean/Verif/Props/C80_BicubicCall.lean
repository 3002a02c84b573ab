import Verif.Lemmas.FrameLayers
import Verif.Props.C79_Frame
import Verif.Props.C48_Grid34

/-!
C80 – `pyinterp.bicubic`: the points of a call, the 3-D and 4-D grids, the names.

`newPoint point k p` is the result for the point `p` with a new interpolator of the class `k`
(Lemmas/FrameLayers.lean).
-/
namespace Pyinterp.Interp
open Pyinterp Spec Variate
set_option linter.unusedSectionVars false
set_option linter.unusedVariables false
set_option linter.unusedSimpArgs false

section
variable {K : Type} [Field K] [LinearOrder K] [IsStrictOrderedRing K] [FloorRing K]

/-! ### the points of a call -/

theorem mapM_error {α β : Type} (f : α → Out β) (l : List α) (h : ∃ a ∈ l, ∃ e, f a = .error e) :
    ∃ a ∈ l, ∃ e, f a = .error e ∧ l.mapM f = .error e := by
  induction l with
  | nil => obtain ⟨a, ha, -⟩ := h; cases ha
  | cons a l ih =>
    rw [List.mapM_cons]
    cases e : f a with
    | error er => exact ⟨a, List.mem_cons_self, er, e, rfl⟩
    | ok v =>
      obtain ⟨a', ha', er, her⟩ := h
      rcases List.mem_cons.1 ha' with rfl | ha'
      · rw [e] at her; cases her
      · obtain ⟨b, hb, er, h1, h2⟩ := ih ⟨a', ha', er, her⟩
        refine ⟨b, List.mem_cons_of_mem _ hb, er, h1, ?_⟩
        simp only [bind, Except.bind, h2]

theorem dispatch_ok {P : Type} {same : Nat → Nat → Bool} {nx ny : Nat} {k : Kind2D}
    {point : (Nat → K) → Obj2D K → P → Out (Option K × Obj2D K)}
    (hp : ∀ p, Steady same nx ny k (fun junk o => point junk o p)) (ps : List P) (v : P → Option K)
    (h : ∀ p ∈ ps, newPoint point k p = .ok (v p)) (junk : Nat × Nat → Nat → Nat → K) (hw n : Nat)
    (hhw : 1 ≤ hw) : bicubicDispatch point (.ok k) junk hw n ps = .ok (ps.map v) := by
  obtain ⟨sl, hsl, -, hb, hf⟩ := Thread.C29_slices hw ps.length n hhw
  unfold bicubicDispatch
  have hm : (sl.mapM fun s => (do
      let k ← (.ok k : Out Kind2D)
      bicubicLoop point (junk s) 0 (Obj2D.new (junk s 0) k) ((ps.drop s.1).take (s.2 - s.1)) : Out (List (Option K)))) =
      .ok (sl.map fun s => ((ps.drop s.1).take (s.2 - s.1)).map v) := by
    apply mapM_ok
    intro s hs
    exact loop_ok hp v (fun _ => 0) _ (fun p hp => h p (List.mem_of_mem_drop (List.mem_of_mem_take hp)))
      _ _ _ (Obj2D.new_used _ _ _ _ _)
  simp only [bind, Except.bind] at hm
  simp only [hsl, hm, bind, Except.bind]
  have := slices_list ps sl hb hf
  conv_rhs => rw [← this]
  rw [List.map_flatten, List.map_map]
  rfl

theorem dispatch_error {P : Type} {same : Nat → Nat → Bool} {nx ny : Nat} {k : Kind2D}
    {point : (Nat → K) → Obj2D K → P → Out (Option K × Obj2D K)}
    (hp : ∀ p, Steady same nx ny k (fun junk o => point junk o p)) (ps : List P)
    (h : ∃ p ∈ ps, ∃ e, newPoint point k p = .error e) (junk : Nat × Nat → Nat → Nat → K) (hw n : Nat)
    (hhw : 1 ≤ hw) :
    ∃ p ∈ ps, ∃ e, newPoint point k p = .error e ∧ bicubicDispatch point (.ok k) junk hw n ps = .error e := by
  obtain ⟨sl, hsl, -, hb, hf⟩ := Thread.C29_slices hw ps.length n hhw
  have hlist := slices_list ps sl hb hf
  have hsome : ∃ s ∈ sl, ∃ p ∈ (ps.drop s.1).take (s.2 - s.1), ∃ e, newPoint point k p = .error e := by
    obtain ⟨p, hpm, e, he⟩ := h
    rw [← hlist] at hpm
    obtain ⟨l, hl, hpl⟩ := List.mem_flatten.1 hpm
    obtain ⟨s, hs, rfl⟩ := List.mem_map.1 hl
    exact ⟨s, hs, p, hpl, e, he⟩
  obtain ⟨s, hs, hse⟩ := hsome
  have key := fun s => loop_error hp (fun _ => 0) ((ps.drop s.1).take (s.2 - s.1)) (junk s) 0
    (Obj2D.new (junk s 0) k) (Obj2D.new_used _ _ _ _ _)
  obtain ⟨p1, -, e1, -, hl1⟩ := key s hse
  obtain ⟨s', hs', e', h1, h2⟩ := mapM_error (fun s => (do
      let k ← (.ok k : Out Kind2D)
      bicubicLoop point (junk s) 0 (Obj2D.new (junk s 0) k) ((ps.drop s.1).take (s.2 - s.1)) :
        Out (List (Option K)))) sl ⟨s, hs, e1, hl1⟩
  have herr : ∃ p ∈ (ps.drop s'.1).take (s'.2 - s'.1), ∃ e, newPoint point k p = .error e := by
    by_contra hno
    have hall : ∀ p ∈ (ps.drop s'.1).take (s'.2 - s'.1), ∃ w, newPoint point k p = .ok w := by
      intro p hpm
      cases e : newPoint point k p with
      | error er => exact absurd ⟨p, hpm, er, e⟩ hno
      | ok w => exact ⟨w, rfl⟩
    have := loop_ok hp (fun p => match newPoint point k p with | .ok w => w | .error _ => none) (fun _ => 0)
      ((ps.drop s'.1).take (s'.2 - s'.1)) (by
        intro p hpm
        obtain ⟨w, hw⟩ := hall p hpm
        simp only [hw]
        exact hw) (junk s') 0 (Obj2D.new (junk s' 0) k) (Obj2D.new_used _ _ _ _ _)
    have h1' : bicubicLoop point (junk s') 0 (Obj2D.new (junk s' 0) k) ((ps.drop s'.1).take (s'.2 - s'.1)) =
      .error e' := h1
    rw [this] at h1'
    cases h1'
  obtain ⟨p, hpm, e, he, hl⟩ := key s' herr
  have h1' : bicubicLoop point (junk s') 0 (Obj2D.new (junk s' 0) k) ((ps.drop s'.1).take (s'.2 - s'.1)) =
      .error e' := h1
  rw [hl] at h1'
  have hee : e = e' := by injection h1'
  subst hee
  refine ⟨p, List.mem_of_mem_drop (List.mem_of_mem_take hpm), e, he, ?_⟩
  unfold bicubicDispatch
  simp only [hsl, bind, Except.bind]
  simp only [bind, Except.bind] at h2
  rw [h2]

/-- **C80** The values returned by `bicubic` on a 2-D grid are, in the order of the points, those obtained for
each point with a new interpolator: they do not depend on the number of threads, on the other points of the
call, nor on the content of the memory. The call raises an exception if and only if the interpolation of
a point does. -/
theorem C80_points (same : Nat → Nat → Bool) (g : Grid2D K) (x y : List K) (nx ny : Nat)
    (model boundary : String) (boundsError : Bool) (k : Kind2D) (b : Boundary)
    (hc : pyBicubicCheck g.x.cont.isAscending g.y.cont.isAscending model boundary = .ok (.ok k, b))
    (hxy : x.length = y.length) (junk : Nat × Nat → Nat → Nat → K) (hw : Nat) (hhw : 1 ≤ hw)
    (numThreads : Nat) :
    (∀ v : K × K → Option K,
      (∀ p ∈ x.zip y, newPoint (bicubicPoint same nx ny b boundsError g) k p = .ok (v p)) →
      pyBicubic2D same junk hw g x y nx ny model boundary boundsError numThreads =
        .ok ((x.zip y).map v)) ∧
    ((∃ p ∈ x.zip y, ∃ e, newPoint (bicubicPoint same nx ny b boundsError g) k p = .error e) →
      ∃ p ∈ x.zip y, ∃ e, newPoint (bicubicPoint same nx ny b boundsError g) k p = .error e ∧
        pyBicubic2D same junk hw g x y nx ny model boundary boundsError numThreads = .error e) := by
  have e : pyBicubic2D same junk hw g x y nx ny model boundary boundsError numThreads =
      bicubicDispatch (bicubicPoint same nx ny b boundsError g) (.ok k) junk hw numThreads (x.zip y) := by
    unfold pyBicubic2D
    simp only [hc, bind, Except.bind, hxy, ne_eq, not_true_eq_false, if_false]
  rw [e]
  exact ⟨fun v h => dispatch_ok (bicubicPoint_steady same nx ny k b boundsError g) _ v h junk hw _ hhw,
    fun h => dispatch_error (bicubicPoint_steady same nx ny k b boundsError g) _ h junk hw _ hhw⟩

section
variable {T : Type} [LinearOrder T] [AddCommGroup T] [AxisNum T] [ZNum T K]

/-- **C80** The same for a 3-D grid. -/
theorem C80_points_3d (same : Nat → Nat → Bool) (g : Grid3D T K) (x y : List K) (z : List T) (nx ny : Nat)
    (model boundary : String) (boundsError : Bool) (k : Kind2D) (b : Boundary)
    (hc : pyBicubicCheck g.x.cont.isAscending g.y.cont.isAscending model boundary = .ok (.ok k, b))
    (hxy : x.length = y.length) (hxz : x.length = z.length) (junk : Nat × Nat → Nat → Nat → K) (hw : Nat)
    (hhw : 1 ≤ hw) (numThreads : Nat) :
    (∀ v : K × K × T → Option K,
      (∀ p ∈ x.zip (y.zip z), newPoint (bicubicPoint3 same nx ny b boundsError g) k p = .ok (v p)) →
      pyBicubic3D same junk hw g x y (some z) nx ny model boundary boundsError numThreads =
        .ok ((x.zip (y.zip z)).map v)) ∧
    ((∃ p ∈ x.zip (y.zip z), ∃ e, newPoint (bicubicPoint3 same nx ny b boundsError g) k p = .error e) →
      ∃ p ∈ x.zip (y.zip z), ∃ e, newPoint (bicubicPoint3 same nx ny b boundsError g) k p = .error e ∧
        pyBicubic3D same junk hw g x y (some z) nx ny model boundary boundsError numThreads = .error e) := by
  have e : pyBicubic3D same junk hw g x y (some z) nx ny model boundary boundsError numThreads =
      bicubicDispatch (bicubicPoint3 same nx ny b boundsError g) (.ok k) junk hw numThreads (x.zip (y.zip z)) := by
    unfold pyBicubic3D
    simp only [hc, bind, Except.bind, ← hxy, ← hxz, ne_eq, not_true_eq_false, if_false, or_self]
  rw [e]
  exact ⟨fun v h => dispatch_ok (bicubicPoint3_steady same nx ny k b boundsError g) _ v h junk hw _ hhw,
    fun h => dispatch_error (bicubicPoint3_steady same nx ny k b boundsError g) _ h junk hw _ hhw⟩

/-- **C80** The same for a 4-D grid. -/
theorem C80_points_4d (same : Nat → Nat → Bool) (g : Grid4D T K) (x y : List K) (z : List T) (u : List K)
    (nx ny : Nat) (model boundary : String) (boundsError : Bool) (k : Kind2D) (b : Boundary)
    (hc : pyBicubicCheck g.x.cont.isAscending g.y.cont.isAscending model boundary = .ok (.ok k, b))
    (hxy : x.length = y.length) (hxz : x.length = z.length) (hxu : x.length = u.length)
    (junk : Nat × Nat → Nat → Nat → K) (hw : Nat) (hhw : 1 ≤ hw) (numThreads : Nat) :
    (∀ v : K × K × T × K → Option K,
      (∀ p ∈ x.zip (y.zip (z.zip u)), newPoint (bicubicPoint4 same nx ny b boundsError g) k p = .ok (v p)) →
      pyBicubic4D same junk hw g x y (some z) (some u) nx ny model boundary boundsError numThreads =
        .ok ((x.zip (y.zip (z.zip u))).map v)) ∧
    ((∃ p ∈ x.zip (y.zip (z.zip u)), ∃ e, newPoint (bicubicPoint4 same nx ny b boundsError g) k p = .error e) →
      ∃ p ∈ x.zip (y.zip (z.zip u)), ∃ e, newPoint (bicubicPoint4 same nx ny b boundsError g) k p = .error e ∧
        pyBicubic4D same junk hw g x y (some z) (some u) nx ny model boundary boundsError numThreads =
          .error e) := by
  have e : pyBicubic4D same junk hw g x y (some z) (some u) nx ny model boundary boundsError numThreads =
      bicubicDispatch (bicubicPoint4 same nx ny b boundsError g) (.ok k) junk hw numThreads
        (x.zip (y.zip (z.zip u))) := by
    unfold pyBicubic4D
    simp only [hc, bind, Except.bind, ← hxy, ← hxz, ← hxu, ne_eq, not_true_eq_false, if_false, or_self]
  rw [e]
  exact ⟨fun v h => dispatch_ok (bicubicPoint4_steady same nx ny k b boundsError g) _ v h junk hw _ hhw,
    fun h => dispatch_error (bicubicPoint4_steady same nx ny k b boundsError g) _ h junk hw _ hhw⟩

end

/-! ### the arguments -/

/-- **C80** The arguments accepted: increasing x and y axes, eight names of models and four names of
boundary modes; the model `bicubic` uses the class of this name, and the other ones the 1-D class with the name of
the model. Everything else raises an exception. -/
theorem C80_arguments (xAsc yAsc : Bool) (model boundary : String) (k : Kind2D) (b : Boundary) :
    (pyBicubicCheck xAsc yAsc model boundary = .ok (.ok k, b) ↔
      xAsc = true ∧ yAsc = true ∧
      (model, k) ∈ [("bicubic", Kind2D.bicubic), ("linear", .spline .linear),
        ("polynomial", .spline .polynomial), ("c_spline", .spline .cspline),
        ("c_spline_periodic", .spline .csplinePeriodic), ("akima", .spline .akima),
        ("akima_periodic", .spline .akimaPeriodic), ("steffen", .spline .steffen)] ∧
      (boundary, b) ∈ [("expand", Boundary.expand), ("wrap", .wrap), ("sym", .sym), ("undef", .undef)]) ∧
    ((∀ k' b', pyBicubicCheck xAsc yAsc model boundary ≠ .ok (.ok k', b')) →
      pyBicubicCheck xAsc yAsc model boundary = .error .exn) := by
  have hb : ∀ s, s ∈ ["expand", "wrap", "sym", "undef"] → ∃ b', boundaryOf s = .ok b' ∧
      ∀ b, (s, b) ∈ [("expand", Boundary.expand), ("wrap", .wrap), ("sym", .sym), ("undef", .undef)] ↔ b' = b := by
    intro s hs
    simp only [List.mem_cons, List.not_mem_nil, or_false] at hs
    rcases hs with rfl | rfl | rfl | rfl <;> exact ⟨_, rfl, fun b => by cases b <;> decide⟩
  have hm : ∀ s, s ∈ ["akima_periodic", "akima", "bicubic", "c_spline_periodic", "c_spline", "linear",
      "polynomial", "steffen"] → ∃ k', (if s = "bicubic" then kind2DOf s else kindSplineOf s) = .ok k' ∧
      ∀ k, (s, k) ∈ [("bicubic", Kind2D.bicubic), ("linear", .spline .linear),
        ("polynomial", .spline .polynomial), ("c_spline", .spline .cspline),
        ("c_spline_periodic", .spline .csplinePeriodic), ("akima", .spline .akima),
        ("akima_periodic", .spline .akimaPeriodic), ("steffen", .spline .steffen)] ↔ k' = k := by
    intro s hs
    simp only [List.mem_cons, List.not_mem_nil, or_false] at hs
    rcases hs with rfl | rfl | rfl | rfl | rfl | rfl | rfl | rfl <;>
      exact ⟨_, rfl, fun k => by
        rcases k with _ | _ | k
        · decide
        · decide
        · cases k <;> decide⟩
  unfold pyBicubicCheck
  cases xAsc
  · simp
  cases yAsc
  · simp
  simp only [Bool.not_true, Bool.false_eq_true, if_false]
  by_cases h1 : model ∈ ["akima_periodic", "akima", "bicubic", "c_spline_periodic", "c_spline",
      "linear", "polynomial", "steffen"]
  · by_cases h2 : boundary ∈ ["expand", "wrap", "sym", "undef"]
    · obtain ⟨b', e1, e2⟩ := hb _ h2
      obtain ⟨k', e3, e4⟩ := hm _ h1
      rw [e2, e4]
      simp only [not_true_eq_false, h1, h2, if_false, e1, e3, bind, Except.bind]
      constructor
      · constructor
        · intro h
          cases h
          simp
        · rintro ⟨-, -, rfl, rfl⟩; rfl
      · intro h
        exact absurd rfl (h k' b')
    · simp only [h1, h2, not_true_eq_false, not_false_eq_true, if_true, if_false, true_implies, implies_true, and_true]
      constructor
      · intro h; cases h
      · rintro ⟨-, -, -, h⟩
        exfalso
        apply h2
        simp only [List.mem_cons, Prod.mk.injEq, List.not_mem_nil, or_false] at h ⊢
        tauto
  · simp only [h1, not_false_eq_true, if_true, implies_true, and_true]
    constructor
    · intro h; cases h
    · rintro ⟨-, -, h, -⟩
      exfalso
      apply h1
      simp only [List.mem_cons, Prod.mk.injEq, List.not_mem_nil, or_false] at h ⊢
      tauto

/-- **C80** Missing coordinates and vectors of different lengths raise an exception. -/
theorem C80_vectors {T : Type} [LinearOrder T] [AddCommGroup T] [AxisNum T] [ZNum T K]
    (same : Nat → Nat → Bool) (junk : Nat × Nat → Nat → Nat → K) (hw : Nat) (g2 : Grid2D K) (g3 : Grid3D T K)
    (g4 : Grid4D T K) (x y : List K) (z : Option (List T)) (u : Option (List K)) (nx ny : Nat)
    (model boundary : String) (boundsError : Bool) (numThreads : Nat) :
    (x.length ≠ y.length →
      ∃ e, pyBicubic2D same junk hw g2 x y nx ny model boundary boundsError numThreads = .error e ∧ e = .exn) ∧
    (x.length ≠ y.length ∨ (∀ l, z = some l → x.length ≠ l.length) →
      pyBicubic3D same junk hw g3 x y z nx ny model boundary boundsError numThreads = .error .exn) ∧
    (x.length ≠ y.length ∨ (∀ l, z = some l → x.length ≠ l.length) ∨ (∀ l, u = some l → x.length ≠ l.length) →
      pyBicubic4D same junk hw g4 x y z u nx ny model boundary boundsError numThreads = .error .exn) := by
  have hc : ∀ a b, (∃ c, pyBicubicCheck a b model boundary = .ok c) ∨
      pyBicubicCheck a b model boundary = .error .exn := by
    intro a b
    by_cases h : ∃ k' b', pyBicubicCheck a b model boundary = .ok (.ok k', b')
    · obtain ⟨k', b', h⟩ := h; exact Or.inl ⟨_, h⟩
    · push Not at h
      exact Or.inr ((C80_arguments a b model boundary .bicubic .undef).2 h)
  refine ⟨fun h => ?_, fun h => ?_, fun h => ?_⟩
  · unfold pyBicubic2D
    rcases hc g2.x.cont.isAscending g2.y.cont.isAscending with ⟨c, e⟩ | e <;>
      simp only [e, bind, Except.bind, if_pos h] <;> exact ⟨_, rfl, rfl⟩
  · unfold pyBicubic3D
    rcases hc g3.x.cont.isAscending g3.y.cont.isAscending with ⟨c, e⟩ | e
    · simp only [e, bind, Except.bind]
      cases z with
      | none => rfl
      | some l =>
        have : x.length ≠ y.length ∨ x.length ≠ l.length := by
          rcases h with h | h
          · exact Or.inl h
          · exact Or.inr (h l rfl)
        simp only [if_pos this]
    · simp only [e, bind, Except.bind]
  · unfold pyBicubic4D
    rcases hc g4.x.cont.isAscending g4.y.cont.isAscending with ⟨c, e⟩ | e
    · simp only [e, bind, Except.bind]
      cases z with
      | none => rfl
      | some l =>
        cases u with
        | none => rfl
        | some m =>
          have : x.length ≠ y.length ∨ x.length ≠ l.length ∨ x.length ≠ m.length := by
            rcases h with h | h | h
            · exact Or.inl h
            · exact Or.inr (Or.inl (h l rfl))
            · exact Or.inr (Or.inr (h m rfl))
          simp only [if_pos this]
    · simp only [e, bind, Except.bind]

/-! ### 3-D and 4-D grids -/

section
variable {T : Type} [CommRing T] [LinearOrder T] [IsStrictOrderedRing T] [AxisNum T]
  [LawfulAxisNum T] [ZNum T K] [LawfulZNum T K] [ZAxis T]

theorem combine_layers {r0 r1 r : Out (Option K)} {z z0 z1 : T} (hne : z0 ≠ z1) (hb : Between z0 z z1)
    (h : r = (do let s0 ← r0; let s1 ← r1; .ok (zLinear z z0 z1 s0 s1)) ∨
      (r = .ok none ∧ (r0 = .ok none ∨ r1 = .ok none))) :
    (∀ s0 s1, r0 = .ok (some s0) → r1 = .ok (some s1) → ∃ v, r = .ok (some v) ∧
      OnLine (ZNum.toK z0) (ZNum.toK z1) s0 s1 (ZNum.toK z) v ∧ InRange [s0, s1] v) ∧
    (∀ s0 s1, r0 = .ok s0 → r1 = .ok s1 → s0 = none ∨ s1 = none → r = .ok none) ∧
    (∀ e e', r0 = .error e → r1 = .error e' → r = .error e) := by
  refine ⟨?_, ?_, ?_⟩
  · rintro s0 s1 rfl rfl
    rcases h with rfl | ⟨-, h | h⟩
    · obtain ⟨v, h1, h2, h3⟩ := linear_combine hne hb s0 s1
      simp only [ZMethod.evaluate, Except.ok.injEq] at h1
      exact ⟨v, by simp [bind, Except.bind, h1], h2, h3⟩
    · cases h
    · cases h
  · rintro s0 s1 rfl rfl hn
    rcases h with rfl | ⟨h, -⟩
    · simp [bind, Except.bind, zLinear_none hne s0 s1 hn]
    · exact h
  · rintro e e' rfl rfl
    rcases h with rfl | ⟨-, h | h⟩
    · rfl
    · cases h
    · cases h

/-- **C80** 3-D grids: for a coordinate `z` within the z axis there are two neighbouring layers `k`, `k'` whose
coordinates frame `z`; the result is the value at `z` of the straight line between the results `s0` and `s1` of the
interpolation of these two layers of the array, and lies between them; it is NaN if one of them
is NaN. -/
theorem C80_layers (ax ay : Axis K) (az : Axis T) (arr : Arr K) (g : Grid3D T K) (lz : List T)
    (haz : ZAxis.Reachable az) (hlz : Coordinates az lz) (hg : mkGrid3D ax ay az arr = .ok g)
    (h2z : 2 ≤ lz.length) (z : T) (htz : OnTurn az lz z z) (hinz : ¬ Outside lz z) :
    ∃ (k k' : Nat) (g0 g1 : Grid2D K), Frames lz false z k k' ∧
      mkGrid2D ax ay (arr.layer k) = .ok g0 ∧ mkGrid2D ax ay (arr.layer k') = .ok g1 ∧
      ∀ (same : Nat → Nat → Bool) (nx ny : Nat) (b : Boundary) (boundsError : Bool) (kind : Kind2D) (x y : K),
        let r0 := newPoint (bicubicPoint same nx ny b boundsError g0) kind (x, y)
        let r1 := newPoint (bicubicPoint same nx ny b boundsError g1) kind (x, y)
        let r := newPoint (bicubicPoint3 same nx ny b boundsError g) kind (x, y, z)
        (∀ s0 s1, r0 = .ok (some s0) → r1 = .ok (some s1) → ∃ v, r = .ok (some v) ∧
          OnLine (ZNum.toK (lz.getD k 0)) (ZNum.toK (lz.getD k' 0)) s0 s1 (ZNum.toK z) v ∧
          InRange [s0, s1] v) ∧
        (∀ s0 s1, r0 = .ok s0 → r1 = .ok s1 → s0 = none ∨ s1 = none → r = .ok none) ∧
        (∀ e e', r0 = .error e → r1 = .error e' → r = .error e) := by
  have okz := ZAxis.ok az lz haz hlz
  obtain ⟨k, k', hk, hk', hadj, hb, hwin, c0, c1⟩ := layer_window okz h2z htz hinz
  have hne := strict_ne (axisOk_strict okz) hk hk' (by omega)
  refine ⟨k, k', _, _, frames_of hk hk' hadj hb, layer_grid2D hg k, layer_grid2D hg k', ?_⟩
  intro same nx ny b be kind x y
  obtain ⟨rfl, rfl, rfl, rfl, -, -, n1, n2, n3, hs, -, -, hn3⟩ := mkGrid3D_ok hg
  have hn3' : n3 = lz.length := by have := okz.stores.size_eq; unfold Axis.size at hn3; omega
  subst hn3'
  have := point3_layers (same := same) (nx := nx) (ny := ny) (k := kind) (b := b) (be := be) (ax := g.x) (ay := g.y)
    hs hk hk' (hwin b) c0 c1 x y
  have e0 : lz.getD k 0 = lz[k] := by simp [hk]
  have e1 : lz.getD k' 0 = lz[k'] := by simp [hk']
  rw [e0, e1]
  exact combine_layers hne hb this

/-- **C80** 3-D grids whose z axis has one coordinate: the result at this coordinate is the one of the only
layer; NaN elsewhere, or an exception if `bounds_error` is set. -/
theorem C80_single_layer (ax ay : Axis K) (az : Axis T) (arr : Arr K) (g : Grid3D T K) (w : T)
    (haz : ZAxis.Reachable az) (hlz : Coordinates az [w]) (hg : mkGrid3D ax ay az arr = .ok g)
    (same : Nat → Nat → Bool) (nx ny : Nat) (b : Boundary) (boundsError : Bool) (kind : Kind2D) (x y : K) :
    ∃ g0 : Grid2D K, mkGrid2D ax ay (arr.layer 0) = .ok g0 ∧
      newPoint (bicubicPoint3 same nx ny b boundsError g) kind (x, y, w) =
        newPoint (bicubicPoint same nx ny b boundsError g0) kind (x, y) ∧
      ∀ z, z ≠ w → ∀ wx wy, ax.findIndexesWindow x nx b = .ok wx → ay.findIndexesWindow y ny b = .ok wy →
        newPoint (bicubicPoint3 same nx ny b boundsError g) kind (x, y, z) =
          if boundsError then .error .exn else .ok none := by
  have okz := ZAxis.ok az [w] haz hlz
  have hw0 := okz.stores.coord_eq 0 (by simp)
  simp only [Nat.cast_zero, List.getElem_cons_zero] at hw0
  refine ⟨_, layer_grid2D hg 0, ?_, ?_⟩
  · obtain ⟨rfl, rfl, rfl, rfl, -, hcz, n1, n2, n3, hs, -, -, hn3⟩ := mkGrid3D_ok hg
    have hn3' : n3 = 1 := by have := okz.stores.size_eq; unfold Axis.size at hn3; simp at this; omega
    subst hn3'
    have hw := single_window okz hcz w b
    rw [if_pos rfl] at hw
    rcases point3_layers (same := same) (nx := nx) (ny := ny) (k := kind) (b := b) (be := boundsError) (ax := g.x)
      (ay := g.y) hs (c := 0) (c' := 0) (by omega) (by omega) hw hw0 hw0 x y with h | ⟨h, h' | h'⟩
    · rw [show ({ x := g.x, y := g.y, arr := g.arr, z := g.z } : Grid3D T K) = g from rfl] at h
      rw [h]
      have hz : ∀ s : Option K, zLinear w w w s s = s := by
        intro s
        have h0 : (ZNum.toK (w - w) : K) = 0 := by rw [LawfulZNum.toK_sub]; ring
        unfold zLinear
        rw [h0]
        simp
      cases newPoint (bicubicPoint same nx ny b boundsError { x := g.x, y := g.y, arr := g.arr.layer 0 }) kind (x, y) with
      | error => rfl
      | ok s => simp [bind, Except.bind, hz]
    · rw [h', ← h]
    · rw [h', ← h]
  · obtain ⟨rfl, rfl, rfl, rfl, -, hcz, -⟩ := mkGrid3D_ok hg
    intro z hz wx wy hwx hwy
    have hw := single_window okz hcz z b
    rw [if_neg hz] at hw
    unfold newPoint bicubicPoint3
    simp only [hw, hwx, hwy, bind, Except.bind, or_true, if_true]
    cases boundsError <;> rfl

/-- **C80** 4-D grids: for a coordinate `u` within the u axis there are two neighbouring layers `n`, `n'` (along the
last dimension) whose coordinates frame `u`; the result is the value at `u` of the straight line between the
results of the 3-D interpolation of these two layers, and lies between them; it is NaN if one of
them is NaN. -/
theorem C80_layers_4d (ax ay : Axis K) (az : Axis T) (au : Axis K) (arr : Arr K) (g : Grid4D T K) (lu : List K)
    (hau : Reach false au) (hlu : Coordinates au lu) (hg : mkGrid4D ax ay az au arr = .ok g)
    (h2u : 2 ≤ lu.length) (u : K) (htu : OnTurn au lu u u) (hinu : ¬ Outside lu u) :
    ∃ (n n' : Nat) (g0 g1 : Grid3D T K), Frames lu false u n n' ∧
      mkGrid3D ax ay az (arr.layer n) = .ok g0 ∧ mkGrid3D ax ay az (arr.layer n') = .ok g1 ∧
      ∀ (same : Nat → Nat → Bool) (nx ny : Nat) (b : Boundary) (boundsError : Bool) (kind : Kind2D) (x y : K) (z : T),
        let r0 := newPoint (bicubicPoint3 same nx ny b boundsError g0) kind (x, y, z)
        let r1 := newPoint (bicubicPoint3 same nx ny b boundsError g1) kind (x, y, z)
        let r := newPoint (bicubicPoint4 same nx ny b boundsError g) kind (x, y, z, u)
        (∀ s0 s1, r0 = .ok (some s0) → r1 = .ok (some s1) → ∃ v, r = .ok (some v) ∧
          OnLine (lu.getD n 0) (lu.getD n' 0) s0 s1 u v ∧ InRange [s0, s1] v) ∧
        (∀ s0 s1, r0 = .ok s0 → r1 = .ok s1 → s0 = none ∨ s1 = none → r = .ok none) ∧
        (∀ e e', r0 = .error e → r1 = .error e' → r = .error e) := by
  have oku := reach_axisOk hau hlu
  obtain ⟨k, k', hk, hk', hadj, hb, hwin, c0, c1⟩ := layer_window oku h2u htu hinu
  have hne := strict_ne (axisOk_strict oku) hk hk' (by omega)
  refine ⟨k, k', _, _, frames_of hk hk' hadj hb, layer_grid3D hg k, layer_grid3D hg k', ?_⟩
  intro same nx ny b be kind x y z
  obtain ⟨rfl, rfl, rfl, rfl, rfl, -, -, -, n1, n2, n3, n4, hs, -, -, -, hn4⟩ := mkGrid4D_ok hg
  have hn4' : n4 = lu.length := by have := oku.stores.size_eq; unfold Axis.size at hn4; omega
  subst hn4'
  have := point4_layers (same := same) (nx := nx) (ny := ny) (k := kind) (b := b) (be := be) (ax := g.x) (ay := g.y)
    (az := g.z) hs hk hk' (hwin b) c0 c1 x y z
  have e0 : lu.getD k 0 = lu[k] := by simp [hk]
  have e1 : lu.getD k' 0 = lu[k'] := by simp [hk']
  rw [e0, e1]
  exact combine_layers hne hb this

end
end

/-! ### Examples -/

/-- a call of `bicubic` on a 2-D grid with a circular x axis -/
def exCall (model boundary : String) (x y : List ℚ) (be : Bool) (threads : Nat) : Out (List (Option ℚ)) := do
  let ax ← exAxis [0, 60, 120, 180, 240, 300] true
  let ay ← exAxis [0, 1, 3, 4, 5] false
  let g ← mkGrid2D ax ay (exArr 6 5)
  pyBicubic2D (fun _ _ => false) (fun s n i => s.1 + 7 * n + i) 3 g x y 2 2 model boundary be threads

/-- The hypotheses of `C80_points`: points with a value, outside, in any number of threads; an exception. -/
example : exCall "bicubic" "undef" [65, 370, 65, 120] [3, 2, 9, 3] false 1 = exCall "bicubic" "undef" [65, 370, 65, 120] [3, 2, 9, 3] false 0 ∧
    exCall "bicubic" "undef" [65, 370, 65, 120] [3, 2, 9, 3] false 1 = exCall "bicubic" "undef" [65, 370, 65, 120] [3, 2, 9, 3] false 2 ∧
    exCall "c_spline" "undef" [65, 370, 65, 120] [3, 2, 9, 3] false 2 = exCall "bicubic" "undef" [65, 370, 65, 120] [3, 2, 9, 3] false 5 ∧
    (exCall "bicubic" "undef" [65, 370, 65, 120] [3, 2, 9, 3] false 2).map (fun l => l.map Option.isSome) =
      .ok [true, true, false, true] ∧
    exCall "bicubic" "undef" [65, 370, 65, 120] [3, 2, 9, 3] true 2 = .error .exn ∧
    exCall "bicubic" "undef" [65, 370, 65] [3, 2, 9, 3] false 2 = .error .exn ∧
    exCall "bicubics" "undef" [65] [3] false 2 = .error .exn := by
  decide +kernel

/-- one point of 3-D and 4-D grids -/
def exPoint3 (vz : List Int) (x y : ℚ) (z : Int) (be : Bool) : Out (Option ℚ) := do
  let ax ← exAxis [0, 60, 120, 180, 240, 300] true
  let ay ← exAxis [0, 1, 3, 4, 5] false
  let az ← mkAxis true vz 0 false
  let g ← mkGrid3D ax ay az (exArr3 [6, 5, vz.length])
  newPoint (bicubicPoint3 (fun _ _ => false) 2 2 .undef be g) .bicubic (x, y, z)

def exPoint4 (x y z u : ℚ) (be : Bool) : Out (Option ℚ) := do
  let ax ← exAxis [0, 60, 120, 180, 240, 300] true
  let ay ← exAxis [0, 1, 3, 4, 5] false
  let az ← exAxis [0, 1, 4] false
  let au ← exAxis [0, 1, 2] false
  let g ← mkGrid4D ax ay az au (exArr3 [6, 5, 3, 3])
  newPoint (bicubicPoint4 (fun _ _ => false) 2 2 .undef be g) .bicubic (x, y, z, u)

/-- The hypotheses of `C80_layers`, `C80_single_layer` and `C80_layers_4d`: between layers, on a single
layer, outside. -/
example : exPoint3 [0, 10, 40] 120 3 25 false = .ok (some (220 + 3 / 2)) ∧
    exPoint3 [0, 10, 40] 120 3 41 false = .ok none ∧ exPoint3 [0, 10, 40] 120 3 41 true = .error .exn ∧
    exPoint3 [7] 120 3 7 false = .ok (some 220) ∧ exPoint3 [7] 120 3 8 false = .ok none ∧
    exPoint4 120 3 (5 / 2) (3 / 2) false = .ok (some (220 + 3 / 2 + 15 / 100)) ∧
    exPoint4 120 3 (5 / 2) 3 true = .error .exn := by
  decide +kernel

end Pyinterp.Interp
