import Verif.Props.C54_Mesh
import Verif.Props.C71_Geodetic
import Verif.Spec.Mesh

/-
C67. A mesh holds exactly the observations that were packed and inserted, at the position given by
their coordinates; an interpolation at the coordinates of an observation finds it.

C68. The bounds of a mesh.

C69. Pickling a mesh.
-/
set_option linter.unusedVariables false
set_option linter.unusedSimpArgs false
namespace Pyinterp.RTree
open Pyinterp.Spec

theorem apply_row (toEcef : ℝ → ℝ → ℝ → Point) (op : Op) (hop : op ≠ .kriging) (ecef : Bool) (cols : Nat)
    (hc : cols = 2 ∨ cols = 3) :
    ∃ c, converter op ecef cols = .ok c ∧ ∀ row : List ℝ, row.length = cols →
      ∃ p, c.apply toEcef row = .ok p ∧ rowPosition toEcef ecef row = some p := by
  rcases hc with rfl | rfl
  · refine ⟨if ecef then .xy else .lonLat, by simp [converter], ?_⟩
    intro row hrow
    match row, hrow with
    | [x, y], _ => cases ecef <;> exact ⟨_, rfl, rfl⟩
  · refine ⟨if ecef then .xyz else .lonLatAlt, by cases op <;> simp_all [converter], ?_⟩
    intro row hrow
    match row, hrow with
    | [x, y, z], _ => cases ecef <;> exact ⟨_, rfl, rfl⟩

theorem load_ok (toEcef : ℝ × ℝ → ℝ → ℝ → ℝ → Point) (t : Tree) (op : Op) (hop : op ≠ .kriging) (cols : Nat)
    (hc : cols = 2 ∨ cols = 3) (rows : List (List ℝ)) (hrows : ∀ r ∈ rows, r.length = cols) (values : List ℝ)
    (hlen : rows.length = values.length) :
    ∃ l, load toEcef t op cols rows values = .ok l ∧ Observations (toEcef t.spheroid) t.ecef rows values l := by
  obtain ⟨c, hcv, happ⟩ := apply_row (toEcef t.spheroid) op hop t.ecef cols hc
  unfold load
  rw [if_neg (by simp [hlen]), hcv]
  show ∃ l, ((rows.zip values).mapM fun rv => do return (⟨← c.apply (toEcef t.spheroid) rv.1, rv.2⟩ : Item)) = .ok l ∧ _
  induction rows generalizing values with
  | nil =>
    cases values with
    | nil => exact ⟨[], rfl, rfl, rfl, by simp⟩
    | cons _ _ => simp at hlen
  | cons r rows ih =>
    cases values with
    | nil => simp at hlen
    | cons v values =>
      obtain ⟨l, hl, h1, h2, h3⟩ := ih (fun r hr => hrows r (List.mem_cons_of_mem _ hr)) values (by simpa using hlen)
      obtain ⟨p, hp, hpos⟩ := happ r (hrows r List.mem_cons_self)
      refine ⟨⟨p, v⟩ :: l, ?_, by simp [h1], by simp [h2], ?_⟩
      · rw [List.zip_cons_cons, List.mapM_cons, hl]
        simp only [hp]
        rfl
      · intro i item row w hi hr hv
        cases i with
        | zero =>
          simp only [List.getElem?_cons_zero, Option.some.injEq] at hi hr hv
          subst hi hr hv
          exact ⟨hpos, rfl⟩
        | succ i =>
          simp only [List.getElem?_cons_succ] at hi hr hv
          exact h3 i item row w hi hr hv

/-- **C67** `packing` replaces the content of the mesh by the observations given; `cols` is the number of columns of the matrix
of coordinates. -/
theorem C67_packing (toEcef : ℝ × ℝ → ℝ → ℝ → ℝ → Point) (t : Tree) (cols : Nat) (hc : cols = 2 ∨ cols = 3)
    (rows : List (List ℝ)) (hrows : ∀ r ∈ rows, r.length = cols) (values : List ℝ) (hlen : rows.length = values.length) :
    ∃ l, t.packing toEcef cols rows values = .ok ⟨t.spheroid, t.ecef, l⟩ ∧
      Observations (toEcef t.spheroid) t.ecef rows values l := by
  obtain ⟨l, h1, h2⟩ := load_ok toEcef t .packing (by simp) cols hc rows hrows values hlen
  refine ⟨l, ?_, h2⟩
  unfold Tree.packing
  rw [h1]
  rfl

/-- **C67** `insert` adds the observations to those of the mesh. -/
theorem C67_insert (toEcef : ℝ × ℝ → ℝ → ℝ → ℝ → Point) (t : Tree) (cols : Nat) (hc : cols = 2 ∨ cols = 3)
    (rows : List (List ℝ)) (hrows : ∀ r ∈ rows, r.length = cols) (values : List ℝ) (hlen : rows.length = values.length) :
    ∃ l, t.insert toEcef cols rows values = .ok ⟨t.spheroid, t.ecef, t.items ++ l⟩ ∧
      Observations (toEcef t.spheroid) t.ecef rows values l := by
  obtain ⟨l, h1, h2⟩ := load_ok toEcef t .insert (by simp) cols hc rows hrows values hlen
  refine ⟨l, ?_, h2⟩
  unfold Tree.insert
  rw [h1]
  rfl

/-- **C67** `clear` removes everything and keeps the coordinate system. -/
theorem C67_clear (t : Tree) : t.clear = ⟨t.spheroid, t.ecef, []⟩ := rfl

/-- **C67** Matrices of another shape, or with another number of rows than values, are refused and nothing is stored. -/
theorem C67_refused (toEcef : ℝ × ℝ → ℝ → ℝ → ℝ → Point) (t : Tree) (cols : Nat) (rows : List (List ℝ)) (values : List ℝ)
    (h : rows.length ≠ values.length ∨ (cols ≠ 2 ∧ cols ≠ 3)) :
    t.packing toEcef cols rows values = .error .exn ∧ t.insert toEcef cols rows values = .error .exn := by
  have hl : ∀ op, load toEcef t op cols rows values = .error .exn := by
    intro op
    unfold load
    by_cases hne : rows.length ≠ values.length
    · rw [if_pos hne]
    · rw [if_neg hne]
      rcases h with h | h
      · exact absurd h hne
      · have : converter op t.ecef cols = .error .exn := by
          unfold converter
          rw [if_neg h.1, if_neg h.2]
        rw [this]
        rfl
  constructor
  · unfold Tree.packing; rw [hl]; rfl
  · unfold Tree.insert; rw [hl]; rfl

theorem distance_nonneg' (p q : Point) : 0 ≤ distance p q := by unfold distance; positivity

theorem eq_of_distance {p q : Point} (h : distance p q = 0) : p = q := by
  unfold distance at h
  rw [Real.sqrt_eq_zero (by positivity)] at h
  have x1 := sq_nonneg (p.x - q.x)
  have x2 := sq_nonneg (p.y - q.y)
  have x3 := sq_nonneg (p.z - q.z)
  have y1 : (p.x - q.x) ^ 2 = 0 := by linarith
  have y2 : (p.y - q.y) ^ 2 = 0 := by linarith
  have y3 : (p.z - q.z) ^ 2 = 0 := by linarith
  have y1 := sub_eq_zero.1 (pow_eq_zero_iff two_ne_zero |>.1 y1)
  have y2 := sub_eq_zero.1 (pow_eq_zero_iff two_ne_zero |>.1 y2)
  have y3 := sub_eq_zero.1 (pow_eq_zero_iff two_ne_zero |>.1 y3)
  cases p; cases q
  simp_all

theorem distance_self (p : Point) : distance p p = 0 := by simp [distance]

/-- **C67** After packing, an interpolation (inverse distance weighting) at the coordinates of the observation `i` returns the
value of an observation at the very same position: its value, if no other observation is there. -/
theorem C67_hit (toEcef : ℝ × ℝ → ℝ → ℝ → ℝ → Point) (t t' : Tree) (cols : Nat) (hc : cols = 2 ∨ cols = 3)
    (rows : List (List ℝ)) (hrows : ∀ r ∈ rows, r.length = cols) (values : List ℝ) (hlen : rows.length = values.length)
    (ht : t.packing toEcef cols rows values = .ok t')
    (hdist : ∀ (i j : Nat) (r s : List ℝ), rows[i]? = some r → rows[j]? = some s →
      rowPosition (toEcef t.spheroid) t.ecef r = rowPosition (toEcef t.spheroid) t.ecef s → i = j)
    (i : Nat) (row : List ℝ) (v : ℝ) (hr : rows[i]? = some row) (hv : values[i]? = some v)
    (c : Conv) (hconv : converter .idw t'.ecef cols = .ok c) (p : Point)
    (hp : c.apply (toEcef t'.spheroid) row = .ok p) (near : List Item) (radius : Option ℝ) (k pw : Nat) (within : Bool)
    (hk : 0 < k) (h : KNearest t'.items p k near) :
    idw p near radius k pw within = (some v, k) := by
  obtain ⟨l, hl, hobs⟩ := C67_packing toEcef t cols hc rows hrows values hlen
  rw [hl] at ht
  cases ht
  obtain ⟨c', hc', happ⟩ := apply_row (toEcef t.spheroid) .idw (by simp) t.ecef cols hc
  rw [hc'] at hconv
  cases hconv
  obtain ⟨p', hp', hpos⟩ := happ row (hrows row (List.mem_of_getElem? hr))
  rw [hp'] at hp
  cases hp
  obtain ⟨o1, o2, o3⟩ := hobs
  have hi : i < l.length := by
    rw [o1]
    exact (List.getElem?_eq_some_iff.1 hr).1
  have hitem := o3 i l[i] row v (List.getElem?_eq_getElem hi) hr hv
  rw [hpos] at hitem
  have hpt : l[i].pt = p := by
    have := hitem.1
    simp only [Option.some.injEq] at this
    exact this.symm
  have hdz : distance p l[i].pt = 0 := by rw [hpt]; exact distance_self _
  -- the first neighbour is at distance zero
  obtain ⟨a, rest, rfl, ha, hmin⟩ := head_nearest h hk (List.getElem_mem hi)
  have ha0 : distance p a.pt = 0 := by
    apply le_antisymm
    · rw [← hdz]; exact hmin _ (List.getElem_mem hi)
    · exact distance_nonneg' _ _
  have hapt : a.pt = p := by
    exact (eq_of_distance ha0).symm
  have hw : within = true → InBox p ((a :: rest).map Item.pt) :=
    fun _ => C54_within_hit (a :: rest) p a List.mem_cons_self hapt
  obtain ⟨b, hb, hbmin, hidw⟩ := C54_hit l (a :: rest) p radius k pw within hk h hw l[i] (List.getElem_mem hi)
    (by rw [hdz]; norm_num)
  rw [hidw]
  -- the returned item is at the position of the query
  have hb0 : distance p b.pt = 0 := by
    apply le_antisymm
    · rw [← hdz]; exact hbmin _ (List.getElem_mem hi)
    · exact distance_nonneg' _ _
  have hbpt : b.pt = p := by
    exact (eq_of_distance hb0).symm
  obtain ⟨j, hj, hbj⟩ := List.getElem_of_mem hb
  have hjr : j < rows.length := by rw [← o1]; exact hj
  have hjv : j < values.length := by rw [← o2]; exact hj
  obtain ⟨q1, q2⟩ := o3 j b rows[j] values[j] (by rw [List.getElem?_eq_getElem hj, hbj]) (List.getElem?_eq_getElem hjr)
    (List.getElem?_eq_getElem hjv)
  have hij : i = j := by
    apply hdist i j row rows[j] hr (List.getElem?_eq_getElem hjr)
    rw [hpos, q1, hbpt]
  subst hij
  have : v = values[i] := by
    rw [List.getElem?_eq_getElem hjv] at hv
    exact (Option.some.inj hv).symm
  rw [q2, this]

/-- The conversion of the geodetic coordinates of the mesh. -/
noncomputable def meshToEcef (s : ℝ × ℝ) (lon lat alt : ℝ) : Point :=
  (Geodetic.Coordinates.make (some ⟨s.1, s.2⟩)).llaToEcef 3 ⟨lon, lat, alt⟩

/-- **C67, the part that fails** With three columns (longitude, latitude, altitude) the kriging converts the query without its
altitude: the query at the coordinates of an observation is 1000 m away from it. -/
theorem C67_kriging_false :
    (do let c ← converter .kriging false 3; c.apply (meshToEcef wgs84) [0, 0, 1000]) = .ok (meshToEcef wgs84 0 0 0) ∧
    rowPosition (meshToEcef wgs84) false [0, 0, 1000] = some (meshToEcef wgs84 0 0 1000) ∧
    distance (meshToEcef wgs84 0 0 0) (meshToEcef wgs84 0 0 1000) = 1000 := by
  refine ⟨rfl, rfl, ?_⟩
  unfold meshToEcef
  rw [Geodetic.C71_vertical_distance 3 (le_refl _)]
  norm_num

/-- The hypotheses of `C67_hit` are met. -/
example : ∃ t', (Tree.mk wgs84 true []).packing meshToEcef 2 [[-1, 0], [2, 0]] [10, 40] = .ok t' ∧
    t'.items = twoItems := by
  obtain ⟨l, hl, h1, h2, h3⟩ := C67_packing meshToEcef (Tree.mk wgs84 true []) 2 (Or.inl rfl) [[-1, 0], [2, 0]] (by simp) [10, 40] rfl
  refine ⟨_, hl, ?_⟩
  match l, h1 with
  | [a, b], _ =>
    have ha := h3 0 a [-1, 0] 10 rfl rfl rfl
    have hb := h3 1 b [2, 0] 40 rfl rfl rfl
    cases a; cases b
    simp [rowPosition] at ha hb
    simp [twoItems, onX, ha, hb]

/-! ### C68 -/

theorem foldl_bounds (all : List Point) (b : Point × Point) :
    let r := all.foldl boundsStep b
    (∀ p ∈ all, InBounds r p) ∧
    (r.1.x ≤ b.1.x ∧ r.1.y ≤ b.1.y ∧ r.1.z ≤ b.1.z ∧ b.2.x ≤ r.2.x ∧ b.2.y ≤ r.2.y ∧ b.2.z ≤ r.2.z) ∧
    (r.1.x = b.1.x ∨ ∃ p ∈ all, r.1.x = p.x) ∧ (r.1.y = b.1.y ∨ ∃ p ∈ all, r.1.y = p.y) ∧
    (r.1.z = b.1.z ∨ ∃ p ∈ all, r.1.z = p.z) ∧ (r.2.x = b.2.x ∨ ∃ p ∈ all, r.2.x = p.x) ∧
    (r.2.y = b.2.y ∨ ∃ p ∈ all, r.2.y = p.y) ∧ (r.2.z = b.2.z ∨ ∃ p ∈ all, r.2.z = p.z) := by
  induction all generalizing b with
  | nil => simp
  | cons q all ih =>
    obtain ⟨h1, h2, h3, h4, h5, h6, h7, h8⟩ := ih (boundsStep b q)
    simp only [List.foldl_cons]
    set r := all.foldl boundsStep (boundsStep b q)
    simp only [boundsStep] at h2
    obtain ⟨g1, g2, g3, g4, g5, g6⟩ := h2
    simp only [le_min_iff, max_le_iff] at g1 g2 g3 g4 g5 g6
    have hmin : ∀ (u v w : ℝ) (f : Point → ℝ), (u = min v (f q) ∨ ∃ p ∈ all, u = f p) → (u = v ∨ ∃ p ∈ q :: all, u = f p) := by
      rintro u v w f (h | ⟨p, hp, h⟩)
      · rcases min_choice v (f q) with hc | hc
        · exact Or.inl (h.trans hc)
        · exact Or.inr ⟨q, List.mem_cons_self, h.trans hc⟩
      · exact Or.inr ⟨p, List.mem_cons_of_mem _ hp, h⟩
    have hmax : ∀ (u v w : ℝ) (f : Point → ℝ), (u = max v (f q) ∨ ∃ p ∈ all, u = f p) → (u = v ∨ ∃ p ∈ q :: all, u = f p) := by
      rintro u v w f (h | ⟨p, hp, h⟩)
      · rcases max_choice v (f q) with hc | hc
        · exact Or.inl (h.trans hc)
        · exact Or.inr ⟨q, List.mem_cons_self, h.trans hc⟩
      · exact Or.inr ⟨p, List.mem_cons_of_mem _ hp, h⟩
    refine ⟨?_, ⟨g1.1, g2.1, g3.1, g4.1, g5.1, g6.1⟩, hmin _ _ 0 _ h3, hmin _ _ 0 _ h4, hmin _ _ 0 _ h5, hmax _ _ 0 _ h6,
      hmax _ _ 0 _ h7, hmax _ _ 0 _ h8⟩
    intro p hp
    rcases List.mem_cons.1 hp with rfl | hp
    · exact ⟨⟨g1.2, g4.2⟩, ⟨g2.2, g5.2⟩, g3.2, g6.2⟩
    · exact h1 p hp

/-- **C68** `bounds` of a non-empty mesh: the box contains the (geodetic) coordinates of all the observations; its lowest
corner is reached on each axis (`big`, the largest number of the type, is not exceeded). An empty mesh has no bounds. -/
theorem C68_contains (big tiny : ℝ) (all : List Point) (hbig : ∀ p ∈ all, p.x ≤ big ∧ p.y ≤ big ∧ p.z ≤ big) :
    (bounds big tiny all = none ↔ all = []) ∧
    ∀ b, bounds big tiny all = some b → (∀ p ∈ all, InBounds b p) ∧
      (∃ p ∈ all, b.1.x = p.x) ∧ (∃ p ∈ all, b.1.y = p.y) ∧ ∃ p ∈ all, b.1.z = p.z := by
  unfold bounds
  by_cases hne : all = []
  · simp [hne]
  · rw [if_neg hne]
    refine ⟨by simp [hne], ?_⟩
    intro b hb
    cases hb
    obtain ⟨h1, h2, h3, h4, h5, -, -, -⟩ := foldl_bounds all (⟨big, big, big⟩, ⟨tiny, tiny, tiny⟩)
    refine ⟨h1, ?_, ?_, ?_⟩
    · rcases h3 with h | h
      · obtain ⟨p, hp⟩ := List.exists_mem_of_ne_nil all hne
        exact ⟨p, hp, le_antisymm (h1 p hp).1.1 (by rw [h]; exact (hbig p hp).1)⟩
      · exact h
    · rcases h4 with h | h
      · obtain ⟨p, hp⟩ := List.exists_mem_of_ne_nil all hne
        exact ⟨p, hp, le_antisymm (h1 p hp).2.1.1 (by rw [h]; exact (hbig p hp).2.1)⟩
      · exact h
    · rcases h5 with h | h
      · obtain ⟨p, hp⟩ := List.exists_mem_of_ne_nil all hne
        exact ⟨p, hp, le_antisymm (h1 p hp).2.2.1 (by rw [h]; exact (hbig p hp).2.2)⟩
      · exact h

/-- **C68** The highest corner is reached on each axis where some observation has a coordinate that is at least the smallest
positive number of the type. -/
theorem C68_highest_partial (big tiny : ℝ) (all : List Point) (b : Point × Point) (hb : bounds big tiny all = some b) :
    ((∃ p ∈ all, tiny ≤ p.x) → ∃ p ∈ all, b.2.x = p.x) ∧ ((∃ p ∈ all, tiny ≤ p.y) → ∃ p ∈ all, b.2.y = p.y) ∧
    ((∃ p ∈ all, tiny ≤ p.z) → ∃ p ∈ all, b.2.z = p.z) := by
  unfold bounds at hb
  by_cases hne : all = []
  · simp [hne] at hb
  · rw [if_neg hne] at hb
    cases hb
    obtain ⟨h1, h2, -, -, -, h6, h7, h8⟩ := foldl_bounds all (⟨big, big, big⟩, ⟨tiny, tiny, tiny⟩)
    refine ⟨?_, ?_, ?_⟩
    · rintro ⟨p, hp, ht⟩
      rcases h6 with h | h
      · exact ⟨p, hp, le_antisymm (by rw [h]; exact ht) (h1 p hp).1.2⟩
      · exact h
    · rintro ⟨p, hp, ht⟩
      rcases h7 with h | h
      · exact ⟨p, hp, le_antisymm (by rw [h]; exact ht) (h1 p hp).2.1.2⟩
      · exact h
    · rintro ⟨p, hp, ht⟩
      rcases h8 with h | h
      · exact ⟨p, hp, le_antisymm (by rw [h]; exact ht) (h1 p hp).2.2.2⟩
      · exact h

/-- **C68, the part that fails** The box is not the smallest one: the highest corner starts from the smallest *positive*
number. One observation in the western and southern hemispheres: the box goes to the equator and to Greenwich. -/
theorem C68_smallest_false (tiny big : ℝ) (ht : 0 < tiny) (hb : 0 < big) :
    bounds big tiny [⟨-30, -20, -10⟩] = some (⟨-30, -20, -10⟩, ⟨tiny, tiny, tiny⟩) := by
  simp only [bounds, List.foldl_cons, List.foldl_nil, boundsStep]
  rw [if_neg (by simp)]
  rw [min_eq_right (by linarith), min_eq_right (by linarith), min_eq_right (by linarith), max_eq_left (by linarith),
    max_eq_left (by linarith), max_eq_left (by linarith)]

example : ∃ b, bounds 1000 (1 / 1000) [⟨-30, 20, 0⟩, ⟨10, -5, 3⟩] = some b ∧ b.1.x = -30 ∧ b.2.y = 20 := by
  refine ⟨_, rfl, ?_, ?_⟩ <;> simp [boundsStep] <;> norm_num

/-! ### C69 -/

/-- **C69** A mesh in geodetic coordinates survives pickling. -/
theorem C69_pickle (t : Tree) (h : t.ecef = false) : Tree.setstate t.getstate = .ok t := by
  unfold Tree.setstate Tree.getstate Tree.make
  cases t with
  | mk s e items =>
    simp only at h
    subst h
    simp only [List.length_map, ne_eq, not_true_eq_false, if_false, Option.isSome_some, Bool.and_false, Bool.false_eq_true,
      Option.getD_some]
    have : ((items.map fun i => (i.pt.x, i.pt.y, i.pt.z)).zip (items.map Item.val)).map
        (fun xu => (⟨⟨xu.1.1, xu.1.2.1, xu.1.2.2⟩, xu.2⟩ : Item)) = items := by
      rw [List.zip_map', List.map_map]
      conv_rhs => rw [← List.map_id items]
      rfl
    rw [this]
    rfl

/-- **C69, the part that fails** A mesh in Cartesian coordinates can be pickled but not restored: the state always carries a
spheroid, which the constructor refuses together with `ecef`. -/
theorem C69_ecef_false (t : Tree) (h : t.ecef = true) : Tree.setstate t.getstate = .error .exn := by
  unfold Tree.setstate Tree.getstate Tree.make
  cases t with
  | mk s e items =>
    simp only at h
    subst h
    simp

end Pyinterp.RTree
