import Verif.Model.Geometry
import Verif.Props.C29_Threads
import Mathlib.Algebra.BigOperators.Intervals
import Mathlib.Algebra.BigOperators.Group.List.Basic
import Mathlib.Algebra.Order.BigOperators.Group.Finset
import Mathlib.Tactic.Linarith
import Mathlib.Tactic.NormNum
import Mathlib.Data.List.Zip
import Mathlib.Data.List.GetD


/-
C93: line strings (construction, access, pickling, GeoJSON, curvilinear distances) and the functions on arrays
`closest_point`, `coordinate_distances`, `covered_by`.
-/
set_option linter.unusedSectionVars false

namespace Pyinterp.Geometry

section
variable {F : Type}

/-- C93: pickling gives back the line string, point by point, whatever the coordinates (NaN included). -/
theorem C93_pickle (l : LineString F) : LineString.setstate l.getstate = .ok l := by
  unfold LineString.setstate LineString.getstate LineString.ofArrays Shapes.checkEigen
  simp only [List.length_map, ne_eq, not_true_eq_false, or_self, if_false, bind, Except.bind, pure, Except.pure]
  congr 1
  exact (List.zip_of_prod rfl rfl).symm

theorem fromGeojson_coordinates (l : LineString F) : LineString.fromGeojson l.coordinates = .ok l := by
  induction l with
  | nil => rfl
  | cons p l ih =>
    have : LineString.coordinates (p :: l) = Point.coordinates p :: LineString.coordinates l := rfl
    rw [this]
    unfold LineString.fromGeojson
    rw [ih]
    rfl

/-- C93: the line string read from its own GeoJSON coordinates is the same. -/
theorem C93_geojson (l : LineString F) : LineString.fromGeojson l.coordinates = .ok l := fromGeojson_coordinates l

/-- C93: a GeoJSON array is accepted exactly when all its elements have two coordinates. -/
theorem C93_geojson_refused (a : List (List F)) :
    (∃ l, LineString.fromGeojson a = .ok l ∧ l.length = a.length) ∧ (∀ x ∈ a, x.length = 2) ∨
    LineString.fromGeojson a = .error .exn ∧ ∃ x ∈ a, x.length ≠ 2 := by
  induction a with
  | nil => left; exact ⟨⟨[], rfl, rfl⟩, by simp⟩
  | cons x a ih =>
    by_cases hx : x.length = 2
    · match x, hx with
      | [u, v], _ =>
        rcases ih with ⟨⟨l, hl, hn⟩, hall⟩ | ⟨he, y, hy, hy2⟩
        · left
          refine ⟨⟨(u, v) :: l, ?_, by simp [hn]⟩, ?_⟩
          · unfold LineString.fromGeojson
            rw [hl]; rfl
          · intro y hy
            rcases List.mem_cons.1 hy with h | h
            · subst h; rfl
            · exact hall y h
        · right
          refine ⟨?_, y, by simp [hy], hy2⟩
          unfold LineString.fromGeojson
          rw [he]; rfl
    · right
      refine ⟨?_, x, by simp, hx⟩
      have : Point.fromGeojson x = .error .exn := by
        match x, hx with
        | [], _ => rfl
        | [_], _ => rfl
        | [_, _], h => exact absurd rfl h
        | _ :: _ :: _ :: _, _ => rfl
      unfold LineString.fromGeojson
      rw [this]; rfl

/-- C93: construction from arrays: one point per pair of coordinates, an exception if the sizes differ. -/
theorem C93_arrays (lon lat : List F) :
    (lon.length ≠ lat.length → LineString.ofArrays lon lat = .error .exn) ∧
    (lon.length = lat.length → ∃ l, LineString.ofArrays lon lat = .ok l ∧ l.map Prod.fst = lon ∧ l.map Prod.snd = lat) := by
  unfold LineString.ofArrays Shapes.checkEigen
  constructor
  · intro h
    rw [if_pos (Or.inr h)]; rfl
  · intro h
    rw [if_neg (by simpa using h)]
    exact ⟨lon.zip lat, rfl, by rw [List.map_fst_zip]; omega, by rw [List.map_snd_zip]; omega⟩

/-- C93: `line[i]` is the point for `i < len(line)`, an exception otherwise; `append` adds the point at the end. -/
theorem C93_items (l : LineString F) (p : Point F) (i : Nat) :
    (i < l.length → ∃ q, l[i]? = some q ∧ l.getitem i = .ok q) ∧ (l.length ≤ i → l.getitem i = .error .exn) ∧
    (l.append p).length = l.length + 1 ∧ (l.append p).getitem l.length = .ok p ∧
    (i < l.length → (l.append p).getitem i = l.getitem i) := by
  have get : ∀ (l : LineString F) (i : Nat) q, l[i]? = some q → l.getitem i = .ok q := by
    intro l i q h
    have hi : i < l.length := (List.getElem?_eq_some_iff.1 h).1
    unfold LineString.getitem rd
    rw [if_neg (by omega), if_neg (by omega)]
    simp [h]
  refine ⟨fun h => ⟨l[i], List.getElem?_eq_getElem h, get _ _ _ (List.getElem?_eq_getElem h)⟩, ?_, ?_, ?_, ?_⟩
  · intro h
    unfold LineString.getitem
    rw [if_pos h]
  · simp [LineString.append]
  · exact get _ _ _ (by simp [LineString.append])
  · intro h
    rw [get l i l[i] (List.getElem?_eq_getElem h)]
    exact get _ _ _ (by rw [LineString.append, List.getElem?_append_left h]; exact List.getElem?_eq_getElem h)

example : LineString.setstate (LineString.getstate [((1 : ℚ), 2), (3, 4)]) = .ok [(1, 2), (3, 4)] ∧
    LineString.fromGeojson [[(1 : ℚ), 2], [3, 4]] = .ok [(1, 2), (3, 4)] ∧
    LineString.fromGeojson [[(1 : ℚ), 2], [3]] = .error .exn ∧
    LineString.ofArrays [(1 : ℚ)] [1, 2] = .error .exn ∧
    LineString.getitem [((1 : ℚ), 2), (3, 4)] 1 = .ok (3, 4) := by decide +kernel

/-- C93: pickling of a `Crossover`. -/
theorem C93_crossover_pickle (c : LineString F × LineString F) : crossoverSetstate (crossoverGetstate c) = .ok c := by
  unfold crossoverSetstate crossoverGetstate
  simp only [C93_pickle]
  rfl

end

section
variable {K : Type} [Field K] [LinearOrder K] [IsStrictOrderedRing K]

theorem curviLoop_length (dist : Point K → Point K → K) : ∀ (l : LineString K) (p : Point K) (t : K),
    (curviLoop dist p t l).length = l.length := by
  intro l
  induction l with
  | nil => intros; rfl
  | cons q l ih => intro p t; simp [curviLoop, ih]

theorem curviLoop_spec (dist : Point K → Point K → K) : ∀ (l : LineString K) (p : Point K) (t : K) (i : Nat) (h : i < l.length),
    (curviLoop dist p t l)[i]'(by rw [curviLoop_length]; exact h) =
      t + ∑ j ∈ Finset.range (i + 1), dist ((p :: l).getD j p) ((p :: l).getD (j + 1) p) := by
  intro l
  induction l with
  | nil => intro p t i h; simp at h
  | cons q l ih =>
    intro p t i h
    cases i with
    | zero => simp [curviLoop]
    | succ i =>
      simp only [curviLoop, List.getElem_cons_succ]
      rw [ih q _ i (by simpa using h), Finset.sum_range_succ' _ (i + 1), add_assoc]
      simp only [List.getD_cons_succ, List.getD_cons_zero]
      have hi : i < l.length := by simpa using h
      have : ∀ j ∈ Finset.range (i + 1), dist ((q :: l).getD j q) (l.getD j q) = dist ((q :: l).getD j p) (l.getD j p) := by
        intro j hj
        have hj' : j < i + 1 := Finset.mem_range.1 hj
        rw [List.getD_eq_getElem _ _ (by simp; omega), List.getD_eq_getElem _ _ (by omega),
          List.getD_eq_getElem _ _ (by simp; omega), List.getD_eq_getElem _ _ (by omega)]
      rw [Finset.sum_congr rfl this]
      ring

/-- C93: the curvilinear distance of each point is the sum of the distances of the consecutive points before it;
one value per point (none for an empty line). -/
theorem C93_curvilinear (dist : Point K → Point K → K) (l : LineString K) :
    (l.curvilinearDistance dist).length = l.length ∧
    ∀ i (h : i < l.length), (l.curvilinearDistance dist)[i]? =
      some (∑ j ∈ (Finset.range i).attach, dist (l[j.1]'(by have := Finset.mem_range.1 j.2; omega))
        (l[j.1 + 1]'(by have := Finset.mem_range.1 j.2; omega))) := by
  cases l with
  | nil => exact ⟨rfl, by simp⟩
  | cons p l =>
    refine ⟨by simp [LineString.curvilinearDistance, curviLoop_length], ?_⟩
    intro i h
    have key : (∑ j ∈ (Finset.range i).attach, dist ((p :: l)[j.1]'(by have := Finset.mem_range.1 j.2; omega))
        ((p :: l)[j.1 + 1]'(by have := Finset.mem_range.1 j.2; omega))) =
        ∑ j ∈ Finset.range i, dist ((p :: l).getD j p) ((p :: l).getD (j + 1) p) := by
      rw [← Finset.sum_attach (Finset.range i)]
      apply Finset.sum_congr rfl
      intro j _
      have := Finset.mem_range.1 j.2
      rw [List.getD_eq_getElem _ _ (by omega), List.getD_eq_getElem _ _ (by omega)]
    rw [key]
    cases i with
    | zero => simp [LineString.curvilinearDistance]
    | succ i =>
      have hi : i < l.length := by simpa using h
      simp only [LineString.curvilinearDistance, List.getElem?_cons_succ]
      rw [List.getElem?_eq_getElem (by rw [curviLoop_length]; exact hi), curviLoop_spec dist l p 0 i hi, zero_add]

/-- C93: it starts at 0 and does not decrease. -/
theorem C93_curvilinear_monotone (dist : Point K → Point K → K) (hd : ∀ p q, 0 ≤ dist p q) (l : LineString K) :
    (l ≠ [] → (l.curvilinearDistance dist)[0]? = some 0) ∧ (l.curvilinearDistance dist).Pairwise (· ≤ ·) := by
  constructor
  · intro h
    cases l with
    | nil => exact absurd rfl h
    | cons p l => rfl
  · have : ∀ (l : LineString K) (p : Point K) (t : K),
        (curviLoop dist p t l).Pairwise (· ≤ ·) ∧ ∀ x ∈ curviLoop dist p t l, t ≤ x := by
      intro l
      induction l with
      | nil => intro p t; simp [curviLoop]
      | cons q l ih =>
        intro p t
        obtain ⟨h1, h2⟩ := ih q (t + dist p q)
        have := hd p q
        refine ⟨List.pairwise_cons.2 ⟨h2, h1⟩, ?_⟩
        intro x hx
        rcases List.mem_cons.1 hx with rfl | hx
        · linarith
        · have := h2 x hx
          linarith
    cases l with
    | nil => exact List.Pairwise.nil
    | cons p l => exact List.pairwise_cons.2 ⟨(this l p 0).2, (this l p 0).1⟩

example : LineString.curvilinearDistance (fun p q => |p.1 - q.1|) [((1 : ℚ), 2), (3, 4), (0, 0)] = [0, 2, 5] := by
  decide +kernel

/-! ### arrays and threads -/

theorem rd_get {T : Type} {l : List T} {i : Nat} (h : i < l.length) : rd l (i : Int) = .ok l[i] := by
  unfold rd
  rw [if_neg (by omega)]
  simp [h]

/-- C93, `coordinate_distances`, for every number of threads and every schedule: arrays of different sizes are
refused; otherwise the result `i` is the distance of the points `i`, nothing else is written. -/
theorem C93_distances (hw n : Nat) (hhw : 1 ≤ hw) (d : Point K → Point K → K) (lon1 lat1 lon2 lat2 : List K) :
    (¬ (lon1.length = lat1.length ∧ lon1.length = lon2.length ∧ lon1.length = lat2.length) →
      ∀ schedule, distancesRun hw (fun p q => .ok (d p q)) lon1 lat1 lon2 lat2 n schedule = .error .exn) ∧
    (∀ (h1 : lon1.length = lat1.length) (h2 : lon1.length = lon2.length) (h3 : lon1.length = lat2.length), ∀ schedule, ∃ s,
      distancesRun hw (fun p q => .ok (d p q)) lon1 lat1 lon2 lat2 n schedule = .ok s ∧
      (Thread.joined s → s.except = none ∧ ∀ i, (lon1.length ≤ i → s.result i = none) ∧
        ∀ h : i < lon1.length, s.result i = some (d (lon1[i], lat1[i]) (lon2[i], lat2[i])))) := by
  constructor
  · intro h schedule
    unfold distancesRun Shapes.checkEigenAll Shapes.checkEigenAll Shapes.checkEigenAll Shapes.checkEigen
    by_cases a : lon1.length = lat1.length
    · by_cases b : lon1.length = lon2.length
      · have c : lon1.length ≠ lat2.length := fun c => h ⟨a, b, c⟩
        simp only [ne_eq, not_true_eq_false, false_or, ← a, ← b, if_false, if_pos c]
        rfl
      · simp only [ne_eq, not_true_eq_false, false_or, ← a, if_false, if_pos b]
        rfl
    · simp only [ne_eq, not_true_eq_false, false_or, if_pos a]
      rfl
  · intro h1 h2 h3 schedule
    obtain ⟨sl, hsl, -⟩ := Thread.C29_slices hw lon1.length n hhw
    refine ⟨Thread.run (distanceAt (fun p q => .ok (d p q)) lon1 lat1 lon2 lat2) (Thread.init sl) schedule, ?_, ?_⟩
    · unfold distancesRun
      have hc : Shapes.checkEigenAll (lon1.length, 1) [(lat1.length, 1), (lon2.length, 1), (lat2.length, 1)] = .ok () := by
        unfold Shapes.checkEigenAll Shapes.checkEigenAll Shapes.checkEigenAll Shapes.checkEigenAll Shapes.checkEigen
        simp [← h1, ← h2, ← h3]
        rfl
      rw [hc, hsl]
      rfl
    · intro hj
      have hf : ∀ ix, ix < lon1.length → distanceAt (fun p q => .ok (d p q)) lon1 lat1 lon2 lat2 ix =
          .ok ((fun i => d (lon1.getD i 0, lat1.getD i 0) (lon2.getD i 0, lat2.getD i 0)) ix) := by
        intro ix hix
        unfold distanceAt
        rw [rd_get hix, rd_get (l := lat1) (by omega), rd_get (l := lon2) (by omega), rd_get (l := lat2) (by omega)]
        simp only [bind, Except.bind]
        rw [List.getD_eq_getElem _ _ hix, List.getD_eq_getElem _ _ (by omega), List.getD_eq_getElem _ _ (by omega),
          List.getD_eq_getElem _ _ (by omega)]
      obtain ⟨-, he, hr⟩ := Thread.C29_result hw lon1.length n sl hsl _ _ hf schedule hj
      refine ⟨he, fun i => ⟨fun hi => by rw [hr, if_neg (by omega)], fun hi => ?_⟩⟩
      rw [hr, if_pos hi]
      rw [List.getD_eq_getElem _ _ hi, List.getD_eq_getElem _ _ (by omega), List.getD_eq_getElem _ _ (by omega),
          List.getD_eq_getElem _ _ (by omega)]

/-- C93, `covered_by` on arrays (box, polygon, multi-polygon): the same, for every schedule. -/
theorem C93_covered (hw n : Nat) (hhw : 1 ≤ hw) (c : Point K → Bool) (lon lat : List K) :
    (lon.length ≠ lat.length → ∀ schedule, coveredRun hw (fun p => .ok (c p)) lon lat n schedule = .error .exn) ∧
    (∀ (h1 : lon.length = lat.length), ∀ schedule, ∃ s,
      coveredRun hw (fun p => .ok (c p)) lon lat n schedule = .ok s ∧
      (Thread.joined s → s.except = none ∧ ∀ i, (lon.length ≤ i → s.result i = none) ∧
        ∀ h : i < lon.length, s.result i = some (c (lon[i], lat[i])))) := by
  constructor
  · intro h schedule
    unfold coveredRun Shapes.checkEigen
    rw [if_pos (Or.inr h)]
    rfl
  · intro h1 schedule
    obtain ⟨sl, hsl, -⟩ := Thread.C29_slices hw lon.length n hhw
    refine ⟨Thread.run (coveredAt (fun p => .ok (c p)) lon lat) (Thread.init sl) schedule, ?_, ?_⟩
    · unfold coveredRun Shapes.checkEigen
      rw [if_neg (by simpa using h1), hsl]
      rfl
    · intro hj
      have hf : ∀ ix, ix < lon.length → coveredAt (fun p => .ok (c p)) lon lat ix =
          .ok ((fun i => c (lon.getD i 0, lat.getD i 0)) ix) := by
        intro ix hix
        unfold coveredAt
        rw [rd_get hix, rd_get (l := lat) (by omega)]
        simp only [bind, Except.bind]
        rw [List.getD_eq_getElem _ _ hix, List.getD_eq_getElem _ _ (by omega)]
      obtain ⟨-, he, hr⟩ := Thread.C29_result hw lon.length n sl hsl _ _ hf schedule hj
      refine ⟨he, fun i => ⟨fun hi => by rw [hr, if_neg (by omega)], fun hi => ?_⟩⟩
      rw [hr, if_pos hi]
      rw [List.getD_eq_getElem _ _ hi, List.getD_eq_getElem _ _ (by omega)]

/-- C93, `LineString.closest_point` on arrays of the same size: the same, for every schedule; if the search fails for
a point, an exception is recorded. -/
theorem C93_closest (hw n : Nat) (sl : List (Nat × Nat)) (closest : LineString K → Point K → Out (Point K))
    (l : LineString K) (lon lat : List K) (hsl : Thread.slices hw lon.length n = .ok sl) (h : lon.length = lat.length)
    (schedule : List Nat) (hj : Thread.joined (closestRun closest l lon lat sl schedule)) :
    ((closestRun closest l lon lat sl schedule).except ≠ none ↔
      ∃ i, ∃ hi : i < lon.length, ∃ e, closest l (lon[i], lat[i]) = .error e) ∧
    (∀ i v, (closestRun closest l lon lat sl schedule).result i = some v →
      ∃ hi : i < lon.length, closest l (lon[i], lat[i]) = .ok v) ∧
    (∀ g : Point K → Point K, (∀ q, closest l q = .ok (g q)) →
      ∀ i (hi : i < lon.length), (closestRun closest l lon lat sl schedule).result i = some (g (lon[i], lat[i]))) := by
  have hf : ∀ ix (hix : ix < lon.length), closestAt closest l lon lat ix = closest l (lon[ix], lat[ix]) := by
    intro ix hix
    unfold closestAt
    rw [rd_get hix, rd_get (l := lat) (by omega)]
    rfl
  unfold closestRun at hj ⊢
  obtain ⟨h1, -, h3⟩ := Thread.C29_exception hw lon.length n sl hsl _ schedule hj
  refine ⟨?_, ?_, ?_⟩
  · rw [h1]
    constructor
    · rintro ⟨ix, hix, e, he⟩
      exact ⟨ix, hix, e, by rw [← hf ix hix]; exact he⟩
    · rintro ⟨ix, hix, e, he⟩
      exact ⟨ix, hix, e, by rw [hf ix hix]; exact he⟩
  · intro i v hv
    obtain ⟨hi, he⟩ := h3 i v hv
    exact ⟨hi, by rw [← hf i hi]; exact he⟩
  · intro g hg i hi
    have hf' : ∀ ix, ix < lon.length → closestAt closest l lon lat ix =
        .ok ((fun i => g (lon.getD i 0, lat.getD i 0)) ix) := by
      intro ix hix
      rw [hf ix hix, hg]; simp only []; rw [List.getD_eq_getElem _ _ hix, List.getD_eq_getElem _ _ (by omega)]
    obtain ⟨-, -, hr⟩ := Thread.C29_result hw lon.length n sl hsl _ _ hf' schedule hj
    rw [hr, if_pos hi]
    rw [List.getD_eq_getElem _ _ hi, List.getD_eq_getElem _ _ (by omega)]

/-- The sizes of `lon` and `lat` are not compared by `closest_point`: with fewer latitudes than longitudes an
element outside `lat` is read, whatever the rest. -/
theorem C93_closest_sizes_false (closest : LineString K → Point K → Out (Point K)) (l : LineString K) (lon lat : List K)
    (h : lat.length < lon.length) :
    ∃ ix, ix < lon.length ∧ closestAt closest l lon lat ix = .error .ub := by
  refine ⟨lat.length, h, ?_⟩
  unfold closestAt
  rw [rd_get h]
  have : rd lat (lat.length : Int) = .error .ub := by
    unfold rd
    rw [if_neg (by omega)]
    simp
  simp only [bind, Except.bind, this]

example : ∃ s, distancesRun 4 (fun p q => .ok |p.1 - q.1|) [(1 : ℚ), 2] [0, 0] [5, 7] [0, 0] 2 [1, 0] = .ok s ∧
    s.result 0 = some 4 ∧ s.result 1 = some 5 ∧ s.pending = [[], []] := ⟨_, rfl, by decide +kernel, by decide +kernel, by decide +kernel⟩

example : Thread.slices 4 ([1, 2, 3] : List ℚ).length 2 = .ok [(0, 1), (1, 3)] ∧
    Thread.joined (closestRun (fun _ q => .ok q) [] ([1, 2, 3] : List ℚ) [4, 5, 6] [(0, 1), (1, 3)] [0, 1, 1]) := by
  constructor
  · decide
  · intro l hl
    have : (closestRun (fun _ q => .ok q) [] ([1, 2, 3] : List ℚ) [4, 5, 6] [(0, 1), (1, 3)] [0, 1, 1]).pending = [[], []] := by
      decide +kernel
    rw [this] at hl
    simpa using hl

end

end Pyinterp.Geometry
