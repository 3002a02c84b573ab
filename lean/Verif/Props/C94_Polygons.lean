import Verif.Model.Geometry
import Verif.Props.C93_LineString
import Mathlib.Tactic.Linarith
import Mathlib.Tactic.NormNum
import Mathlib.Data.Rat.Defs
import Mathlib.Algebra.Order.Ring.Rat

/-
C94: polygons, multi-polygons and boxes: construction, pickling, GeoJSON.
-/
set_option linter.unusedSectionVars false

namespace Pyinterp.Geometry

section
variable {F : Type}

theorem innersOf_coordinates (rs : List (List (Point F))) :
    Polygon.innersOf (rs.map fun r => r.map Point.coordinates) = .ok (rs.filter fun r => !r.isEmpty) := by
  induction rs with
  | nil => rfl
  | cons r rs ih =>
    rw [List.map_cons]
    unfold Polygon.innersOf
    have h := fromGeojson_coordinates r
    unfold LineString.coordinates at h
    cases r with
    | nil => simpa using ih
    | cons p r =>
      rw [if_neg (by simp), h, ih]
      rfl

/-- The polygon without its empty inner rings. -/
def cleaned (p : Polygon F) : Polygon F := { outer := p.outer, inners := p.inners.filter fun r => !r.isEmpty }

theorem polygon_geojson (p : Polygon F) : Polygon.fromGeojson p.coordinates = .ok (cleaned p) := by
  unfold Polygon.fromGeojson Polygon.coordinates
  have h := fromGeojson_coordinates p.outer
  unfold LineString.coordinates at h
  simp only [h, innersOf_coordinates]
  rfl

theorem cleaned_eq_iff (p : Polygon F) : cleaned p = p ↔ ∀ r ∈ p.inners, r ≠ [] := by
  constructor
  · intro h r hr he
    have hi : p.inners.filter (fun r => !r.isEmpty) = p.inners := congrArg Polygon.inners h
    have := List.filter_eq_self.mp hi r hr
    simp [he] at this
  · intro h
    have hi : p.inners.filter (fun r => !r.isEmpty) = p.inners :=
      List.filter_eq_self.mpr fun r hr => by cases r with
        | nil => exact absurd rfl (h _ hr)
        | cons a b => rfl
    unfold cleaned
    rw [hi]

/-- C94: pickling a polygon always succeeds, keeps its outer ring and its non-empty inner rings in order; so the copy
is the polygon itself exactly when no inner ring is empty. -/
theorem C94_polygon_pickle (p : Polygon F) :
    ∃ q, Polygon.setstate p.getstate = .ok q ∧ q.outer = p.outer ∧
      q.inners = p.inners.filter (fun r => !r.isEmpty) ∧ (q = p ↔ ∀ r ∈ p.inners, r ≠ []) :=
  ⟨cleaned p, polygon_geojson p, rfl, rfl, cleaned_eq_iff p⟩

/-- An empty inner ring, which the constructor accepts, is lost by pickling: `num_interior_rings` changes. -/
theorem C94_polygon_pickle_false :
    ∃ p : Polygon ℚ, p = Polygon.make [(0, 0), (0, 1), (1, 1), (0, 0)] (some [[]]) ∧ p.inners.length = 1 ∧
      ∃ q, Polygon.setstate p.getstate = .ok q ∧ q.inners.length = 0 :=
  ⟨_, rfl, rfl, _, polygon_geojson _, rfl⟩

example : ∀ r ∈ (Polygon.make [((0 : ℚ), (0 : ℚ)), (0, 9), (9, 9)] (some [[(1, 1), (1, 2), (2, 2)]])).inners, r ≠ [] := by
  decide +kernel

/-- C94: the same for GeoJSON coordinates. -/
theorem C94_polygon_geojson (p : Polygon F) :
    ∃ q, Polygon.fromGeojson p.coordinates = .ok q ∧ q.outer = p.outer ∧
      q.inners = p.inners.filter (fun r => !r.isEmpty) := ⟨cleaned p, polygon_geojson p, rfl, rfl⟩

theorem line_ok_iff (a : List (List F)) : (∃ l, LineString.fromGeojson a = .ok l) ↔ ∀ x ∈ a, x.length = 2 := by
  rcases C93_geojson_refused a with ⟨⟨l, h, -⟩, h2⟩ | ⟨h, x, hx, hn⟩
  · exact ⟨fun _ => h2, fun _ => ⟨l, h⟩⟩
  · constructor
    · rintro ⟨l, hl⟩; rw [h] at hl; cases hl
    · intro h'; exact absurd (h' x hx) hn

theorem innersOf_ok_iff (a : List (List (List F))) :
    (∃ r, Polygon.innersOf a = .ok r) ↔ ∀ r ∈ a, ∀ x ∈ r, x.length = 2 := by
  induction a with
  | nil => exact ⟨fun _ r hr => by simp at hr, fun _ => ⟨[], rfl⟩⟩
  | cons r a ih =>
    unfold Polygon.innersOf
    cases r with
    | nil => simpa using ih
    | cons p r =>
      rw [if_neg (by simp)]
      cases h1 : LineString.fromGeojson (p :: r) with
      | error e =>
        constructor
        · rintro ⟨_, h⟩; cases h
        · intro h
          have := (line_ok_iff (p :: r)).mpr (h _ List.mem_cons_self)
          obtain ⟨l, hl⟩ := this
          rw [h1] at hl; cases hl
      | ok l =>
        have h0 := (line_ok_iff (p :: r)).mp ⟨l, h1⟩
        cases h2 : Polygon.innersOf a with
        | error e =>
          constructor
          · rintro ⟨_, h⟩; cases h
          · intro h
            obtain ⟨l, hl⟩ := ih.mpr (fun r hr => h r (List.mem_cons_of_mem _ hr))
            rw [h2] at hl; cases hl
        | ok l2 =>
          have h3 := ih.mp ⟨l2, h2⟩
          refine ⟨fun _ r' hr' => ?_, fun _ => ⟨_, rfl⟩⟩
          rcases List.mem_cons.mp hr' with rfl | h
          · exact h0
          · exact h3 _ h

theorem polygon_ok_iff (a : List (List (List F))) :
    (∃ p, Polygon.fromGeojson a = .ok p) ↔ ∀ r ∈ a, ∀ x ∈ r, x.length = 2 := by
  cases a with
  | nil => exact ⟨fun _ r hr => by simp at hr, fun _ => ⟨_, rfl⟩⟩
  | cons o a =>
    unfold Polygon.fromGeojson
    simp only
    cases h1 : LineString.fromGeojson o with
    | error e =>
      constructor
      · rintro ⟨_, h⟩; cases h
      · intro h
        obtain ⟨l, hl⟩ := (line_ok_iff o).mpr (h _ List.mem_cons_self)
        rw [h1] at hl; cases hl
    | ok l =>
      have h0 := (line_ok_iff o).mp ⟨l, h1⟩
      cases h2 : Polygon.innersOf a with
      | error e =>
        constructor
        · rintro ⟨_, h⟩; cases h
        · intro h
          obtain ⟨l, hl⟩ := (innersOf_ok_iff a).mpr (fun r hr => h r (List.mem_cons_of_mem _ hr))
          rw [h2] at hl; cases hl
      | ok l2 =>
        have h3 := (innersOf_ok_iff a).mp ⟨l2, h2⟩
        refine ⟨fun _ r' hr' => ?_, fun _ => ⟨_, rfl⟩⟩
        rcases List.mem_cons.mp hr' with rfl | h
        · exact h0
        · exact h3 _ h

/-- C94: a GeoJSON array is accepted as a polygon exactly when all its points have two coordinates (no ring has to be
closed, oriented or of at least four points). -/
theorem C94_polygon_accepted (a : List (List (List F))) :
    (∃ p, Polygon.fromGeojson a = .ok p) ↔ ∀ r ∈ a, ∀ x ∈ r, x.length = 2 := polygon_ok_iff a

theorem multi_geojson (m : MultiPolygon F) : MultiPolygon.fromGeojson m.coordinates = .ok (m.map cleaned) := by
  induction m with
  | nil => rfl
  | cons p m ih =>
    have : MultiPolygon.coordinates (p :: m) = Polygon.coordinates p :: MultiPolygon.coordinates m := rfl
    rw [this]
    unfold MultiPolygon.fromGeojson
    rw [ih, polygon_geojson]
    rfl

/-- C94: pickling a multi-polygon gives as many polygons, in the same order, each one without its empty inner rings;
it is the same multi-polygon exactly when no inner ring is empty. The GeoJSON form gives the same. -/
theorem C94_multi_pickle (m : MultiPolygon F) :
    ∃ q, MultiPolygon.setstate m.getstate = .ok q ∧ MultiPolygon.fromGeojson m.coordinates = .ok q ∧
      q.length = m.length ∧
      (∀ i (h : i < m.length) (h' : i < q.length), q[i].outer = m[i].outer ∧
        q[i].inners = m[i].inners.filter fun r => !r.isEmpty) ∧
      (q = m ↔ ∀ p ∈ m, ∀ r ∈ p.inners, r ≠ []) := by
  refine ⟨m.map cleaned, multi_geojson m, multi_geojson m, by simp, fun i h h' => ?_, ?_⟩
  · rw [List.getElem_map]
    exact ⟨rfl, rfl⟩
  · constructor
    · intro h p hp
      refine (cleaned_eq_iff p).mp ?_
      obtain ⟨i, hi, rfl⟩ := List.getElem_of_mem hp
      have := List.getElem_of_eq h (i := i) (by simpa using hi)
      rwa [List.getElem_map] at this
    · intro h
      have : ∀ p ∈ m, cleaned p = p := fun p hp => (cleaned_eq_iff p).mpr (h p hp)
      calc m.map cleaned = m.map id := List.map_congr_left this
        _ = m := List.map_id m

/-- C94: `len`, indexing, `append`, `+` and `num_interior_rings` of multi-polygons; nothing outside is read. -/
theorem C94_multi_items (m : MultiPolygon F) (p : Polygon F) :
    (∀ i (h : i < m.length), m.getitem i = .ok m[i]) ∧ (∀ i, m.length ≤ i → m.getitem i = .error .exn) ∧
    (∀ i, i < m.length → (m.append p).getitem i = m.getitem i) ∧ (m.append p).getitem m.length = .ok p ∧
    (∀ o, ∃ r, MultiPolygon.iadd m o false = .ok r ∧ r.length = m.length + o.length ∧
      (∀ i, i < m.length → r.getitem i = m.getitem i) ∧ (∀ i, r.getitem (m.length + i) = o.getitem i) ∧
      r.numInteriorRings = m.numInteriorRings + o.numInteriorRings) ∧
    MultiPolygon.numInteriorRings ([] : MultiPolygon F) = 0 ∧
    (m.append p).numInteriorRings = m.numInteriorRings + p.inners.length := by
  have hget : ∀ (m : MultiPolygon F) i (h : i < m.length), m.getitem i = .ok m[i] := fun m i h => by
    unfold MultiPolygon.getitem
    rw [if_neg (by omega), rd_get h]
  have herr : ∀ (m : MultiPolygon F) i, m.length ≤ i → m.getitem i = .error .exn := fun m i h => by
    unfold MultiPolygon.getitem
    rw [if_pos h]
  refine ⟨hget m, herr m, fun i h => ?_, ?_, fun o => ⟨m ++ o, rfl, by simp, fun i h => ?_, fun i => ?_, ?_⟩, rfl, ?_⟩
  · unfold MultiPolygon.append
    rw [hget _ i (by simp; omega), hget _ i h, List.getElem_append_left h]
  · unfold MultiPolygon.append
    rw [hget _ _ (by simp)]
    simp
  · rw [hget _ i (by simp; omega), hget _ i h, List.getElem_append_left h]
  · by_cases h : i < o.length
    · rw [hget _ _ (by simp; omega), hget _ i h, List.getElem_append_right (by omega)]
      simp
    · rw [herr _ _ (by simp; omega), herr _ i (by omega)]
  · unfold MultiPolygon.numInteriorRings
    rw [List.map_append, List.sum_append]
  · unfold MultiPolygon.numInteriorRings MultiPolygon.append
    rw [List.map_append, List.sum_append]
    simp

/-- C94: `polygon in multi_polygon` holds exactly when one of the polygons is equal to it, and `append` adds it. -/
theorem C94_multi_contains (eq : Polygon F → Polygon F → Bool) (m : MultiPolygon F) (p : Polygon F) :
    (m.contains eq p = true ↔ ∃ i, ∃ q, m.getitem i = .ok q ∧ eq q p = true) ∧
    (eq p p = true → (m.append p).contains eq p = true) := by
  constructor
  · unfold MultiPolygon.contains
    rw [List.any_eq_true]
    constructor
    · rintro ⟨q, hq, he⟩
      obtain ⟨i, hi, rfl⟩ := List.getElem_of_mem hq
      exact ⟨i, _, (C94_multi_items m p).1 i hi, he⟩
    · rintro ⟨i, q, hq, he⟩
      by_cases h : i < m.length
      · rw [(C94_multi_items m p).1 i h] at hq
        cases hq
        exact ⟨_, List.getElem_mem h, he⟩
      · rw [(C94_multi_items m p).2.1 i (by omega)] at hq
        cases hq
  · intro h
    unfold MultiPolygon.contains MultiPolygon.append
    rw [List.any_append]
    simp [h]

/-- `m += m` calls `std::vector::insert` with iterators into the vector itself, which is not allowed. -/
theorem C94_multi_iadd_self_false (m : MultiPolygon F) : MultiPolygon.iadd m m true = .error .ub := rfl

end

section
variable {K : Type} [Field K] [LinearOrder K] [IsStrictOrderedRing K]

theorem box_make_iff (p q : Point K) :
    (∃ b, Box.make p q = .ok b) ↔ -180 ≤ p.1 ∧ p.1 ≤ q.1 ∧ q.1 ≤ 180 := by
  unfold Box.make
  constructor
  · rintro ⟨b, h⟩
    split at h
    · cases h
    · rename_i h1
      split at h
      · cases h
      · rename_i h2
        push Not at h1 h2
        exact ⟨h1.2.2.1, h2, h1.2.1⟩
  · rintro ⟨h1, h2, h3⟩
    rw [if_neg (by push Not; exact ⟨by linarith, h3, h1, by linarith⟩), if_neg (not_lt.mpr h2)]
    exact ⟨_, rfl⟩

theorem box_make_eq {p q : Point K} {b : Box K} (h : Box.make p q = .ok b) : b = ⟨p, q⟩ := by
  unfold Box.make at h
  split at h
  · cases h
  · split at h
    · cases h
    · cases h; rfl

/-- C94: `Box(a, b)` is accepted exactly when both longitudes are in [-180, 180] (180 included); the corners of the box
are the two points given, ordered by longitude. -/
theorem C94_box_make (p q : Point K) :
    ((∃ b, Box.makePy p q = .ok b) ↔ (-180 ≤ p.1 ∧ p.1 ≤ 180) ∧ (-180 ≤ q.1 ∧ q.1 ≤ 180)) ∧
    (∀ b, Box.makePy p q = .ok b → b.minCorner.1 ≤ b.maxCorner.1 ∧
      ((b.minCorner = p ∧ b.maxCorner = q) ∨ (b.minCorner = q ∧ b.maxCorner = p))) := by
  unfold Box.makePy
  by_cases h : q.1 < p.1
  · simp only [if_pos h]
    refine ⟨?_, fun b hb => ?_⟩
    · rw [box_make_iff]
      constructor
      · rintro ⟨h1, h2, h3⟩; exact ⟨⟨by linarith, h3⟩, h1, by linarith⟩
      · rintro ⟨⟨h1, h2⟩, h3, h4⟩; exact ⟨h3, h.le, h2⟩
    · rw [box_make_eq hb]
      exact ⟨h.le, .inr ⟨rfl, rfl⟩⟩
  · simp only [if_neg h]
    push Not at h
    refine ⟨?_, fun b hb => ?_⟩
    · rw [box_make_iff]
      constructor
      · rintro ⟨h1, h2, h3⟩; exact ⟨⟨h1, by linarith⟩, by linarith, h3⟩
      · rintro ⟨⟨h1, h2⟩, h3, h4⟩; exact ⟨h1, h, h4⟩
    · rw [box_make_eq hb]
      exact ⟨h, .inl ⟨rfl, rfl⟩⟩

/-- C94: the order in which the corners are given does not matter, as soon as their longitudes differ. -/
theorem C94_box_order (p q : Point K) (h : p.1 ≠ q.1) : Box.makePy p q = Box.makePy q p := by
  unfold Box.makePy
  rcases lt_or_gt_of_ne h with h | h
  · rw [if_neg (not_lt.mpr h.le), if_pos h]
  · rw [if_pos h, if_neg (not_lt.mpr h.le)]

example : ((0 : ℚ), (5 : ℚ)).1 ≠ ((1 : ℚ), (0 : ℚ)).1 := by norm_num

/-- The corners are exchanged as a whole, and the latitudes are not compared: the minimal corner of a box may have
the greatest latitude, and with equal longitudes the order matters. -/
theorem C94_box_latitude_false :
    (∃ b : Box ℚ, Box.makePy (10, 0) (0, 10) = .ok b ∧ b.maxCorner.2 < b.minCorner.2) ∧
    Box.makePy ((0 : ℚ), 0) (0, 1) ≠ Box.makePy (0, 1) (0, 0) := by
  constructor
  · exact ⟨⟨(0, 10), (10, 0)⟩, by decide +kernel, by norm_num⟩
  · intro h
    have : (Box.makePy ((0 : ℚ), 0) (0, 1)) = .ok ⟨(0, 0), (0, 1)⟩ := by decide +kernel
    rw [this] at h
    have h2 : (Box.makePy ((0 : ℚ), 1) (0, 0)) = .ok ⟨(0, 1), (0, 0)⟩ := by decide +kernel
    rw [h2] at h
    have := congrArg (fun r : Out (Box ℚ) => r.toOption.map fun b => b.minCorner.2) h
    simp [Except.toOption] at this

/-- C94: pickling a box gives back the box exactly when it satisfies the conditions of the constructor, and so for
every box built by the constructor, from GeoJSON or by `whole_earth`; otherwise unpickling fails. -/
theorem C94_box_pickle (b : Box K) :
    (Box.setstate b.getstate = .ok b ↔ -180 ≤ b.minCorner.1 ∧ b.minCorner.1 ≤ b.maxCorner.1 ∧ b.maxCorner.1 ≤ 180) ∧
    (Box.setstate b.getstate = .ok b ∨ Box.setstate b.getstate = .error .exn) ∧
    (∀ p q, Box.makePy p q = .ok b → Box.setstate b.getstate = .ok b) ∧
    (∀ data, Box.fromGeojson data = .ok b → Box.setstate b.getstate = .ok b) := by
  have h0 : Box.setstate b.getstate = Box.make b.minCorner b.maxCorner := rfl
  have h1 : Box.setstate b.getstate = .ok b ↔
      -180 ≤ b.minCorner.1 ∧ b.minCorner.1 ≤ b.maxCorner.1 ∧ b.maxCorner.1 ≤ 180 := by
    rw [h0, ← box_make_iff]
    constructor
    · exact fun h => ⟨_, h⟩
    · rintro ⟨b', h⟩
      rw [h, box_make_eq h]
  refine ⟨h1, ?_, fun p q h => ?_, fun data h => ?_⟩
  · rw [h0]
    unfold Box.make
    split
    · exact .inr rfl
    · split
      · exact .inr rfl
      · exact .inl rfl
  · unfold Box.makePy at h
    split at h
    · have := box_make_eq h; subst this; rw [h0]; exact h
    · have := box_make_eq h; subst this; rw [h0]; exact h
  · unfold Box.fromGeojson at h
    split at h
    · have := box_make_eq h; subst this; rw [h0]; exact h
    · cases h

/-- A box changed by the setter of a corner can be refused when unpickled. -/
theorem C94_box_pickle_setter_false :
    ∃ b : Box ℚ, Box.makePy (0, 0) (10, 10) = .ok b ∧
      Box.setstate (b.setMaxCorner (190, 10)).getstate = .error .exn :=
  ⟨⟨(0, 0), (10, 10)⟩, by decide +kernel, by decide +kernel⟩

/-- C94: `whole_earth()` is the box of the corners (-180, -90) and (180, 90). -/
theorem C94_whole_earth : (Box.wholeEarth : Out (Box K)) = .ok ⟨(-180, -90), (180, 90)⟩ := by
  unfold Box.wholeEarth
  obtain ⟨b, hb⟩ := (box_make_iff ((-180 : K), (-90 : K)) (180, 90)).mpr ⟨le_refl _, by norm_num, le_refl _⟩
  rw [hb, box_make_eq hb]

/-- C94: `Box.from_geojson` accepts exactly the lists of four numbers west, south, east, north with
-180 ≤ west ≤ east ≤ 180, and gives the box of these corners; the two corners are not exchanged. -/
theorem C94_box_geojson (data : List K) (b : Box K) :
    Box.fromGeojson data = .ok b ↔
      data = [b.minCorner.1, b.minCorner.2, b.maxCorner.1, b.maxCorner.2] ∧
        -180 ≤ b.minCorner.1 ∧ b.minCorner.1 ≤ b.maxCorner.1 ∧ b.maxCorner.1 ≤ 180 := by
  unfold Box.fromGeojson
  constructor
  · intro h
    split at h
    · rename_i w s e n
      have := (box_make_iff (w, s) (e, n)).mp ⟨b, h⟩
      rw [box_make_eq h]
      exact ⟨rfl, this⟩
    · cases h
  · rintro ⟨rfl, h⟩
    obtain ⟨b', hb'⟩ := (box_make_iff b.minCorner b.maxCorner).mpr h
    have : Box.make b.minCorner b.maxCorner = .ok b := by rw [hb', box_make_eq hb']
    exact this

end

end Pyinterp.Geometry
