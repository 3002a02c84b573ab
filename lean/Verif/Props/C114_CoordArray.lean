import Verif.Model.CoordArray
import Verif.Props.C29_Threads
import Verif.Props.C01_Angle
import Verif.Props.C72_Accuracy
import Mathlib.Data.List.GetD

/-
C114. `Coordinates.ecef_to_lla`, `lla_to_ecef` and `transform` on arrays, for every number of threads and every
schedule: the element of index `i` is the conversion of the position of index `i`; the round trip is accurate (C72).

C115. `normalize_longitudes` of Python.
-/
set_option linter.unusedVariables false
set_option linter.unusedSectionVars false
namespace Pyinterp.CoordArray
open Pyinterp Pyinterp.Math Pyinterp.Geodetic Pyinterp.RTree Real

theorem rd_get {T : Type} {l : List T} {i : Nat} (h : i < l.length) : rd l i = .ok l[i] := by
  unfold rd
  simp [h]

theorem check_ok {n m k : Nat} : Shapes.checkEigenAll (n, 1) [(m, 1), (k, 1)] = .ok () ↔ n = m ∧ n = k := by
  unfold Shapes.checkEigenAll Shapes.checkEigenAll Shapes.checkEigenAll Shapes.checkEigen
  by_cases h1 : n = m
  · by_cases h2 : n = k
    · subst h1 h2
      simp [bind, Except.bind]
    · subst h1
      simp [h2, bind, Except.bind]
  · simp [h1, bind, Except.bind]

theorem check_error {n m k : Nat} (h : ¬ (n = m ∧ n = k)) : Shapes.checkEigenAll (n, 1) [(m, 1), (k, 1)] = .error .exn := by
  unfold Shapes.checkEigenAll Shapes.checkEigenAll Shapes.checkEigenAll Shapes.checkEigen
  by_cases h1 : n = m
  · have h2 : n ≠ k := fun h2 => h ⟨h1, h2⟩
    subst h1
    simp [h2, bind, Except.bind]
  · simp [h1, bind, Except.bind]

/-- The common pattern of the three functions. -/
theorem run_pattern {β : Type} (hw n : Nat) (hhw : 1 ≤ hw) (at_ : Nat → Out β) (f : ℝ → ℝ → ℝ → β) (a b c : List ℝ)
    (hat : ∀ ix, at_ ix = (do let x ← rd a ix; let y ← rd b ix; let z ← rd c ix; pure (f x y z)))
    (h1 : a.length = b.length) (h2 : a.length = c.length) (schedule : List Nat) :
    ∃ sl, Thread.slices hw a.length n = .ok sl ∧
      (Thread.joined (Thread.run at_ (Thread.init sl) schedule) →
        (Thread.run at_ (Thread.init sl) schedule).except = none ∧
        ∀ i, (a.length ≤ i → (Thread.run at_ (Thread.init sl) schedule).result i = none) ∧
          ∀ h : i < a.length, (Thread.run at_ (Thread.init sl) schedule).result i = some (f a[i] b[i] c[i])) := by
  obtain ⟨sl, hsl, -⟩ := Thread.C29_slices hw a.length n hhw
  refine ⟨sl, hsl, fun hj => ?_⟩
  have hf : ∀ ix, ix < a.length → at_ ix = .ok ((fun i => f (a.getD i 0) (b.getD i 0) (c.getD i 0)) ix) := by
    intro ix hix
    rw [hat, rd_get hix, rd_get (l := b) (by omega), rd_get (l := c) (by omega)]
    simp only [bind, Except.bind, pure, Except.pure]
    rw [List.getD_eq_getElem _ _ hix, List.getD_eq_getElem _ _ (by omega), List.getD_eq_getElem _ _ (by omega)]
  obtain ⟨-, he, hr⟩ := Thread.C29_result hw a.length n sl hsl _ _ hf schedule hj
  refine ⟨he, fun i => ⟨fun hi => by rw [hr, if_neg (by omega)], fun hi => ?_⟩⟩
  rw [hr, if_pos hi]
  rw [List.getD_eq_getElem _ _ hi, List.getD_eq_getElem _ _ (by omega), List.getD_eq_getElem _ _ (by omega)]

/-- **C114** `lla_to_ecef`: arrays of different sizes are refused; otherwise, once the threads are joined, whatever their number
and their interleaving, there is no exception, nothing is written outside of the arrays, and the element of index `i`
is the point at the distance `alt` above the ellipsoid at the position of index `i` (formula of C71). -/
theorem C114_lla_to_ecef (hw bits n : Nat) (hhw : 1 ≤ hw) (co : Coordinates) (lon lat alt : List ℝ) :
    (¬ (lon.length = lat.length ∧ lon.length = alt.length) →
      ∀ schedule, llaToEcef hw bits co lon lat alt n schedule = .error .exn) ∧
    (∀ (h1 : lon.length = lat.length) (h2 : lon.length = alt.length), ∀ schedule, ∃ s,
      llaToEcef hw bits co lon lat alt n schedule = .ok s ∧
      (Thread.joined s → s.except = none ∧ ∀ i, (lon.length ≤ i → s.result i = none) ∧
        ∀ h : i < lon.length, s.result i = some (co.llaToEcef bits ⟨lon[i], lat[i], alt[i]⟩))) := by
  constructor
  · intro h schedule
    unfold llaToEcef
    rw [check_error h]
    rfl
  · intro h1 h2 schedule
    obtain ⟨sl, hsl, hr⟩ := run_pattern hw n hhw (llaAt bits co lon lat alt) (fun x y z => co.llaToEcef bits ⟨x, y, z⟩) lon lat alt
      (fun _ => rfl) h1 h2 schedule
    refine ⟨_, ?_, hr⟩
    unfold llaToEcef
    rw [check_ok.2 ⟨h1, h2⟩, hsl]
    rfl

/-- **C114** `ecef_to_lla`, the same. -/
theorem C114_ecef_to_lla (hw n : Nat) (hhw : 1 ≤ hw) (co : Coordinates) (x y z : List ℝ) :
    (¬ (x.length = y.length ∧ x.length = z.length) →
      ∀ schedule, ecefToLla hw co x y z n schedule = .error .exn) ∧
    (∀ (h1 : x.length = y.length) (h2 : x.length = z.length), ∀ schedule, ∃ s,
      ecefToLla hw co x y z n schedule = .ok s ∧
      (Thread.joined s → s.except = none ∧ ∀ i, (x.length ≤ i → s.result i = none) ∧
        ∀ h : i < x.length, s.result i = some (co.ecefToLla ⟨x[i], y[i], z[i]⟩))) := by
  constructor
  · intro h schedule
    unfold ecefToLla
    rw [check_error h]
    rfl
  · intro h1 h2 schedule
    obtain ⟨sl, hsl, hr⟩ := run_pattern hw n hhw (ecefAt co x y z) (fun x y z => co.ecefToLla ⟨x, y, z⟩) x y z
      (fun _ => rfl) h1 h2 schedule
    refine ⟨_, ?_, hr⟩
    unfold ecefToLla
    rw [check_ok.2 ⟨h1, h2⟩, hsl]
    rfl

/-- **C114** `transform`, the same. -/
theorem C114_transform (hw bits n : Nat) (hhw : 1 ≤ hw) (co target : Coordinates) (lon lat alt : List ℝ) :
    (¬ (lon.length = lat.length ∧ lon.length = alt.length) →
      ∀ schedule, transform hw bits co target lon lat alt n schedule = .error .exn) ∧
    (∀ (h1 : lon.length = lat.length) (h2 : lon.length = alt.length), ∀ schedule, ∃ s,
      transform hw bits co target lon lat alt n schedule = .ok s ∧
      (Thread.joined s → s.except = none ∧ ∀ i, (lon.length ≤ i → s.result i = none) ∧
        ∀ h : i < lon.length, s.result i = some (target.ecefToLla (co.llaToEcef bits ⟨lon[i], lat[i], alt[i]⟩)))) := by
  constructor
  · intro h schedule
    unfold transform
    rw [check_error h]
    rfl
  · intro h1 h2 schedule
    obtain ⟨sl, hsl, hr⟩ := run_pattern hw n hhw (transformAt bits co target lon lat alt)
      (fun x y z => co.transform bits target ⟨x, y, z⟩) lon lat alt (fun _ => rfl) h1 h2 schedule
    refine ⟨_, ?_, hr⟩
    unfold transform
    rw [check_ok.2 ⟨h1, h2⟩, hsl]
    rfl

/-- **C114** The round trip of arrays: the arrays returned by `lla_to_ecef`, given to `ecef_to_lla`, whatever the numbers of
threads and the schedules of the two calls, give back the longitudes exactly and the latitudes and altitudes within the bounds
of C72. -/
theorem C114_round_trip (hw bits n n' : Nat) (hhw : 1 ≤ hw) (hb : 3 ≤ bits) (s : Spheroid) (hv : s.Valid) (hf : 0 ≤ s.f)
    (he : s.e2 ≤ 1 / 100) (lon lat alt x y z : List ℝ) (h1 : lon.length = lat.length) (h2 : lon.length = alt.length)
    (hx : x.length = lon.length) (hy : y.length = lon.length) (hz : z.length = lon.length)
    (schedule schedule' : List Nat) (st : Thread.State Point Err)
    (hst : llaToEcef hw bits (Coordinates.make (some s)) lon lat alt n schedule = .ok st) (hj : Thread.joined st)
    (hxyz : ∀ i (h : i < lon.length), st.result i = some ⟨x[i], y[i], z[i]⟩)
    (hlon : ∀ v ∈ lon, -180 < v ∧ v ≤ 180) (hlat : ∀ v ∈ lat, -90 < v ∧ v < 90) (halt : ∀ v ∈ alt, -s.a / 10 ≤ v) :
    ∃ st', ecefToLla hw (Coordinates.make (some s)) x y z n' schedule' = .ok st' ∧ (Thread.joined st' →
      ∀ i (h : i < lon.length), ∃ q, st'.result i = some q ∧ q.lon = lon[i] ∧
        |q.lat - lat[i]| * π / 180 ≤ 200 * s.e2 ^ 7 ∧ |q.alt - alt[i]| ≤ 3000 * (s.a + |alt[i]|) * s.e2 ^ 10) := by
  obtain ⟨st0, e0, r0⟩ := (C114_lla_to_ecef hw bits n hhw (Coordinates.make (some s)) lon lat alt).2 h1 h2 schedule
  rw [hst] at e0
  cases e0
  obtain ⟨st', e1, r1⟩ := (C114_ecef_to_lla hw n' hhw (Coordinates.make (some s)) x y z).2 (by omega) (by omega) schedule'
  refine ⟨st', e1, fun hj' i h => ?_⟩
  have a1 := (r1 hj').2 i |>.2 (by omega)
  have a0 := (r0 hj).2 i |>.2 h
  rw [hxyz i h] at a0
  simp only [Option.some.injEq] at a0
  rw [a0] at a1
  obtain ⟨l1, l2⟩ := hlon _ (List.getElem_mem h)
  obtain ⟨l3, l4⟩ := hlat _ (List.getElem_mem (l := lat) (n := i) (by omega))
  have l5 := halt _ (List.getElem_mem (l := alt) (n := i) (by omega))
  have ha := hv.1
  exact ⟨_, a1, C72_longitude bits hb s hv hf ⟨lon[i], lat[i], alt[i]⟩ l3 l4 l1 l2 (by simp only; linarith),
    C72_accuracy bits hb s hv hf he ⟨lon[i], lat[i], alt[i]⟩ l3.le l4.le l5⟩

/-- Two threads and two positions, with any schedule that ends. -/
example : ∃ s, llaToEcef 4 3 (Coordinates.make none) [0, 90] [0, 45] [0, 10] 2 [0, 1] = .ok s ∧ Thread.joined s ∧
    s.result 1 = some ((Coordinates.make none).llaToEcef 3 ⟨90, 45, 10⟩) := by
  refine ⟨_, rfl, ?_, rfl⟩
  intro l hl
  simp [Thread.run, Thread.step, Thread.init, llaAt, rd, bind, Except.bind, pure, Except.pure] at hl
  exact hl

/-! ### C115 -/

variable {K : Type} [Field K] [LinearOrder K] [IsStrictOrderedRing K] [FloorRing K]

/-- `r` is the longitude `x` brought to the turn that starts at `minLon`. -/
def Normalized (minLon x r : K) : Prop := minLon ≤ r ∧ r < minLon + 360 ∧ ∃ k : ℤ, r = x + k * 360

theorem forall₂_normalized (minLon : K) (l : List K) :
    List.Forall₂ (Normalized minLon) l (l.map fun x => normalizeAngleF x minLon 360) := by
  rw [List.forall₂_map_right_iff, List.forall₂_same]
  exact fun x _ => C01_normalize_angle x minLon 360 (by norm_num)

/-- **C115** For a contiguous array of float64, or a read-only array: the result holds, index by index, the longitudes brought to
`[min_lon, min_lon + 360[`; the array of the caller is changed, and returned, exactly if it is writeable. -/
theorem C115_normalized (lon : NArray K) (minLon : K) (h : lon.writeable = true → lon.float64 = true ∧ lon.contiguous = true) :
    ∃ r, (normalizeLongitudes lon minLon).2 = some r ∧
      List.Forall₂ (Normalized minLon) lon.values (r.read (normalizeLongitudes lon minLon).1) ∧
      (lon.writeable = true → r = .caller) ∧
      (lon.writeable = false → (normalizeLongitudes lon minLon).1 = lon ∧ ∃ v, r = .fresh v) := by
  unfold normalizeLongitudes core
  by_cases hw : lon.writeable = true
  · obtain ⟨h1, h2⟩ := h hw
    simp only [hw, h1, h2, and_self, if_true]
    exact ⟨_, rfl, forall₂_normalized minLon lon.values, fun _ => rfl, fun h => by simp at h⟩
  · rw [if_neg hw]
    dsimp only
    rw [if_neg (fun h' => hw h'.2.2)]
    exact ⟨_, rfl, forall₂_normalized minLon lon.values, fun h => absurd h hw, fun _ => ⟨rfl, _, rfl⟩⟩

/-- **C115 fails** for a writeable array that is not contiguous, or not of float64 (a column of a matrix, a slice with a step,
float32, integers): the array is returned as it was given, whatever the longitudes. -/
theorem C115_unchanged_false (lon : NArray K) (minLon : K) (hw : lon.writeable = true)
    (h : ¬ (lon.float64 = true ∧ lon.contiguous = true)) :
    (normalizeLongitudes lon minLon).1 = lon ∧ (normalizeLongitudes lon minLon).2 = some .caller := by
  unfold normalizeLongitudes core
  have : ¬ (lon.float64 = true ∧ lon.contiguous = true ∧ lon.writeable = true) := fun h' => h ⟨h'.1, h'.2.1⟩
  rw [if_pos hw, if_neg this]
  exact ⟨rfl, rfl⟩

/-- A second call changes nothing more. -/
theorem C115_idempotent (lon : NArray K) (minLon : K) (h : lon.float64 = true ∧ lon.contiguous = true ∧ lon.writeable = true) :
    normalizeLongitudes (normalizeLongitudes lon minLon).1 minLon = normalizeLongitudes lon minLon := by
  obtain ⟨h1, h2, h3⟩ := h
  unfold normalizeLongitudes core
  simp only [h1, h2, h3, and_self, if_true, List.map_map]
  congr 2
  congr 1
  funext x
  exact C01_idempotent x minLon 360 (by norm_num)

example : ∃ r, (normalizeLongitudes (⟨true, true, true, [190, -190, 0]⟩ : NArray ℚ)).2 = some r ∧
    r.read (normalizeLongitudes (⟨true, true, true, [190, -190, 0]⟩ : NArray ℚ)).1 = [-170, 170, 0] :=
  ⟨.caller, rfl, by decide +kernel⟩

/-- The longitudes of a strided view stay outside of the turn. -/
example : (normalizeLongitudes (⟨true, false, true, [190]⟩ : NArray ℚ)).1.values = [190] := by decide +kernel

end Pyinterp.CoordArray
