import Verif.Spec.GeoTree
import Verif.Spec.Interpolant
import Verif.Props.C01_Angle
import Verif.Props.C55_MeshWindow

/-
C100. `core.geodetic.RTree`: the contents of the tree, the queries and the interpolations with the geographic distance.
-/
set_option linter.unusedVariables false
namespace Pyinterp.GeoTree
open Pyinterp.Spec Pyinterp.Spec.GeoTree Pyinterp.WindowFunctions Matrix

/-! ### The places -/

theorem pos_place (lon lat : ℝ) : Place lon lat (pos lon lat) := by
  obtain ⟨h1, h2, k, h3⟩ := Math.C01_normalize_angle lon (-180) 360 (by norm_num)
  exact ⟨⟨⟨k, h3⟩, rfl⟩, h1, by show Math.normalizeAngleF lon (-180) 360 < 180; linarith⟩

theorem place_unique {lon lat : ℝ} {q : Pos} (h : Place lon lat q) : q = pos lon lat := by
  obtain ⟨⟨⟨k, h1⟩, h2⟩, h3, h4⟩ := h
  have := Math.C01_unique lon (-180) 360 q.lon (by norm_num) h3 (by linarith) ⟨k, h1⟩
  cases q
  simp only at this h2
  rw [this, h2]; rfl

theorem pos_turn {p q : ℝ × ℝ} (h : SamePlace p q) : pos q.1 q.2 = pos p.1 p.2 := by
  obtain ⟨⟨n, h1⟩, h2⟩ := h
  unfold pos
  rw [h1, h2, Math.C01_periodic _ _ _ (by norm_num)]

/-! ### The contents -/

theorem load_stored {lon lat values : List ℝ} {items : List Item} (h : load lon lat values = .ok items) :
    lon.length = lat.length ∧ lon.length = values.length ∧ List.Forall₂ StoredAs ((lon.zip lat).zip values) items := by
  unfold load at h
  by_cases h1 : lon.length ≠ lat.length
  · rw [if_pos h1] at h; cases h
  rw [if_neg h1] at h
  by_cases h2 : lon.length ≠ values.length
  · rw [if_pos h2] at h; cases h
  rw [if_neg h2] at h
  simp only [Except.ok.injEq] at h
  subst h
  refine ⟨not_not.1 h1, not_not.1 h2, ?_⟩
  rw [List.forall₂_map_right_iff]
  refine List.forall₂_same.2 fun p _ => ?_
  obtain ⟨h3, h4, h5⟩ := pos_place p.1.1 p.1.2
  exact ⟨rfl, h3, h4, h5⟩

theorem load_ok {lon lat values : List ℝ} (h1 : lon.length = lat.length) (h2 : lon.length = values.length) :
    ∃ items, load lon lat values = .ok items := by
  unfold load
  rw [if_neg (not_not.2 h1), if_neg (not_not.2 h2)]
  exact ⟨_, rfl⟩

theorem contents_set_self {h : Heap} {t : Tree} (ht : t.ref < h.length) (l : List Item) : contents (h.set t.ref l) t = l := by
  unfold contents
  rw [List.getD_eq_getElem?_getD, List.getElem?_set_self ht]; rfl

theorem contents_set_ne {h : Heap} {t u : Tree} (hne : u.ref ≠ t.ref) (l : List Item) :
    contents (h.set t.ref l) u = contents h u := by
  unfold contents
  rw [List.getD_eq_getElem?_getD, List.getElem?_set_ne (Ne.symm hne), ← List.getD_eq_getElem?_getD]

/-- **C100** The contents of a tree. A new tree is empty. `packing` makes it hold exactly the observations given: one item
for each of them, with its value, at its place, the longitude being brought in [-180, 180). `insert` adds the
observations to those of the tree. `clear` empties it. The trees that do not share their content are not modified. -/
theorem C100_contents (h : Heap) (t : Tree) (ht : t.ref < h.length) (lon lat values : List ℝ)
    (h1 : lon.length = lat.length) (h2 : lon.length = values.length) :
    (∃ g items, packing h t lon lat values = .ok g ∧ contents g t = items ∧
      List.Forall₂ StoredAs ((lon.zip lat).zip values) items ∧ g.length = h.length ∧
      ∀ u : Tree, u.ref ≠ t.ref → contents g u = contents h u) ∧
    (∃ g items, insert h t lon lat values = .ok g ∧ contents g t = contents h t ++ items ∧
      List.Forall₂ StoredAs ((lon.zip lat).zip values) items ∧ g.length = h.length ∧
      ∀ u : Tree, u.ref ≠ t.ref → contents g u = contents h u) ∧
    contents (clear h t) t = [] ∧ (∀ u : Tree, u.ref ≠ t.ref → contents (clear h t) u = contents h u) := by
  obtain ⟨items, hi⟩ := load_ok h1 h2
  have hs := (load_stored hi).2.2
  refine ⟨⟨h.set t.ref items, items, ?_, contents_set_self ht _, hs, by simp, fun u hu => contents_set_ne hu _⟩,
    ⟨h.set t.ref (contents h t ++ items), items, ?_, contents_set_self ht _, hs, by simp,
      fun u hu => contents_set_ne hu _⟩, contents_set_self ht _, fun u hu => contents_set_ne hu _⟩
  · unfold packing; rw [hi]; rfl
  · unfold insert; rw [hi]; rfl

/-- **C100** A new tree is empty and shares its content with no tree that exists. -/
theorem C100_new (h : Heap) (wgs : Option (ℝ × ℝ)) :
    contents (new h wgs).1 (new h wgs).2 = [] ∧ (new h wgs).2.ref < (new h wgs).1.length ∧
    ∀ u : Tree, u.ref < h.length → u.ref ≠ (new h wgs).2.ref ∧ contents (new h wgs).1 u = contents h u := by
  refine ⟨by simp [new, contents], by simp [new], fun u hu => ⟨by simp [new]; omega, ?_⟩⟩
  unfold contents new
  rw [List.getD_eq_getElem?_getD, List.getElem?_append_left hu, ← List.getD_eq_getElem?_getD]

/-- **C100** Arrays of different sizes are refused, by the two methods that store and the four that compute. -/
theorem C100_refused (b : Boost) (solve : (n : Nat) → Matrix (Fin n) (Fin n) ℝ → (Fin n → ℝ) → Fin n → ℝ) (h : Heap)
    (t : Tree) (lon lat values : List ℝ) :
    (lon.length ≠ lat.length ∨ lon.length ≠ values.length →
      packing h t lon lat values = .error .exn ∧ insert h t lon lat values = .error .exn) ∧
    (lon.length ≠ lat.length → ∀ k within, query b h t lon lat k within = .error .exn ∧
      (∀ radius p, inverseDistanceWeighting b h t lon lat radius k p within = .error .exn) ∧
      (∀ radius wf arg, windowFunction b h t lon lat radius k wf arg within = .error .exn) ∧
      ∀ radius f eps smooth, radialBasisFunction b solve h t lon lat radius k f eps smooth within = .error .exn) := by
  constructor
  · intro hne
    have : load lon lat values = .error .exn := by
      unfold load
      by_cases h1 : lon.length ≠ lat.length
      · rw [if_pos h1]
      · rw [if_neg h1, if_pos (by tauto)]
    exact ⟨by unfold packing; rw [this]; rfl, by unfold insert; rw [this]; rfl⟩
  · intro hne k within
    refine ⟨if_pos hne, fun _ _ => if_pos hne, fun _ _ _ => if_pos hne, fun _ _ _ _ => if_pos hne⟩

/-- **C100** Each value is that of the point: the methods compute it with the function of one point, whatever the other points
are, and there are as many values as points. -/
theorem C100_points {α : Type} (f : ℝ → ℝ → Out α) (g : ℝ → ℝ → α) (hf : ∀ x y, f x y = .ok (g x y)) (lon lat : List ℝ)
    (h1 : lon.length = lat.length) :
    ∃ l, points f lon lat = .ok l ∧ l.length = lon.length ∧
      ∀ i (hi : i < lon.length) (hi' : i < lat.length), l[i]? = some (g lon[i] lat[i]) := by
  refine ⟨(lon.zip lat).map fun p => g p.1 p.2, ?_, by simp [← h1], ?_⟩
  · unfold points
    rw [if_neg (not_not.2 h1)]
    generalize lon.zip lat = z
    induction z with
    | nil => rfl
    | cons a z ih => rw [List.mapM_cons, ih, hf]; rfl
  · intro i hi hi'
    simp [hi, hi']

/-- **C100** Whole turns: the answers are those of the same places, whatever the turns of the longitudes of the queries and of
the observations. -/
theorem C100_turn (b : Boost) (solve : (n : Nat) → Matrix (Fin n) (Fin n) ℝ → (Fin n → ℝ) → Fin n → ℝ) (h : Heap)
    (t : Tree) (p q : ℝ × ℝ) (hpq : SamePlace p q) (k : Nat) (within : Bool) :
    queryRow b h t k within q.1 q.2 = queryRow b h t k within p.1 p.2 ∧
    (∀ radius pw, idw b h t radius k pw within q.1 q.2 = idw b h t radius k pw within p.1 p.2) ∧
    (∀ wf arg radius, window b h t wf arg radius k within q.1 q.2 = window b h t wf arg radius k within p.1 p.2) ∧
    ∀ f eps smooth radius, rbf b solve h t f eps smooth radius k within q.1 q.2 =
      rbf b solve h t f eps smooth radius k within p.1 p.2 := by
  have hp := pos_turn hpq
  refine ⟨?_, fun _ _ => ?_, fun _ _ _ => ?_, fun _ _ _ _ => ?_⟩
  · unfold queryRow; rw [hp]
  · unfold idw; rw [hp]
  · unfold window; rw [hp]
  · unfold rbf; rw [hp]

/-- **C100** … and of the observations. -/
theorem C100_turn_stored (h : Heap) (t : Tree) (lon lon' lat values : List ℝ)
    (hl : List.Forall₂ (fun x x' : ℝ => ∃ n : ℤ, x' = x + n * 360) lon lon') :
    packing h t lon' lat values = packing h t lon lat values ∧ insert h t lon' lat values = insert h t lon lat values := by
  have : load lon' lat values = load lon lat values := by
    unfold load
    rw [hl.length_eq]
    have e : ((lon'.zip lat).zip values).map (fun p => (⟨pos p.1.1 p.1.2, p.2⟩ : Item)) =
        ((lon.zip lat).zip values).map fun p => ⟨pos p.1.1 p.1.2, p.2⟩ := by
      clear h t
      induction hl generalizing lat values with
      | nil => rfl
      | cons hx _ ih =>
        cases lat with
        | nil => simp
        | cons y lat =>
          cases values with
          | nil => simp
          | cons v values =>
            simp only [List.zip_cons_cons, List.map_cons, ih]
            rename_i a c _ _ _
            have := pos_turn (p := (a, y)) (q := (c, y)) ⟨hx, rfl⟩
            simp only at this
            rw [this]
    rw [e]
  exact ⟨by unfold packing; rw [this], by unfold insert; rw [this]⟩

/-! ### The queries -/

/-- The answer of the index. -/
noncomputable def near (b : Boost) (h : Heap) (t : Tree) (lon lat : ℝ) (k : Nat) : List Item :=
  b.near (contents h t) (pos lon lat) k

/-- The query is in the envelope of the neighbours, or this is not asked for. -/
def Covered (b : Boost) (h : Heap) (t : Tree) (lon lat : ℝ) (k : Nat) (within : Bool) : Prop :=
  within = true → b.covered (pos lon lat) ((near b h t lon lat k).map Item.pos) = true

theorem pairs_covered {b : Boost} {h : Heap} {t : Tree} {lon lat : ℝ} {k : Nat} {within : Bool}
    (hc : Covered b h t lon lat k within) :
    pairs b h t (pos lon lat) k within =
      (near b h t lon lat k).map fun i => (b.distance t.axes (pos lon lat) i.pos, i.val) := by
  unfold pairs
  dsimp only
  rw [if_neg]
  · rfl
  · simp only [Bool.and_eq_true, Bool.not_eq_true', not_and, Bool.not_eq_false]
    exact hc

theorem pairs_uncovered {b : Boost} {h : Heap} {t : Tree} {lon lat : ℝ} {k : Nat} {within : Bool}
    (hc : ¬ Covered b h t lon lat k within) : pairs b h t (pos lon lat) k within = [] := by
  unfold Covered near at hc
  push Not at hc
  unfold pairs
  dsimp only
  rw [if_pos]
  simp only [Bool.and_eq_true, Bool.not_eq_true']
  exact ⟨hc.1, by simpa using hc.2⟩

/-- **C100** `query`, for any distance `d0` of the index: a row of `k` pairs, with the distances of the tree; first those of the
`k` nearest observations in the order of the index, then -1; only -1 if `within` is asked for and the query is not in the
envelope of the neighbours. -/
theorem C100_query (b : Boost) (d0 : Pos → Pos → ℝ) (hI : IndexOk b d0) (h : Heap) (t : Tree) (k : Nat) (within : Bool)
    (lon lat : ℝ) :
    ∃ q row l, Place lon lat q ∧ queryRow b h t k within lon lat = .ok row ∧ row.length = k ∧
      KNear (fun i : Item => d0 q i.pos) (contents h t) k l ∧
      ((within = true → b.covered q (l.map Item.pos) = true) →
        row.take l.length = l.map (fun i => (b.distance t.axes q i.pos, i.val)) ∧
        ∀ e ∈ row.drop l.length, e = (-1, -1)) ∧
      (within = true → b.covered q (l.map Item.pos) = false → ∀ e ∈ row, e = (-1, -1)) := by
  have hk := hI (contents h t) (pos lon lat) k
  have hlen : (near b h t lon lat k).length ≤ k := by
    unfold near; rw [hk.count]; exact Nat.min_le_left _ _
  by_cases hc : Covered b h t lon lat k within
  · refine ⟨pos lon lat, (near b h t lon lat k).map (fun i => (b.distance t.axes (pos lon lat) i.pos, i.val)) ++
      List.replicate (k - (near b h t lon lat k).length) (-1, -1), near b h t lon lat k, pos_place lon lat, ?_, ?_, hk,
      fun _ => ⟨?_, ?_⟩, fun h1 h2 => ?_⟩
    · unfold queryRow RTree.queryRow
      rw [pairs_covered hc, if_neg (by simp only [List.length_map]; omega), List.length_map]
    · simp; omega
    · rw [List.take_append_of_le_length (by simp), List.take_of_length_le (by simp)]
    · intro e he
      rw [List.drop_append_of_le_length (by simp), List.drop_of_length_le (by simp)] at he
      simp at he
      exact he.2
    · have := hc h1
      rw [h2] at this; cases this
  · refine ⟨pos lon lat, List.replicate k (-1, -1), near b h t lon lat k, pos_place lon lat, ?_, by simp, hk, fun h1 => ?_,
      fun _ _ e he => List.eq_of_mem_replicate he⟩
    · unfold queryRow RTree.queryRow
      rw [pairs_uncovered hc]; simp
    · exact absurd h1 hc

/-! ### The interpolations

The computations on the distances are those of `pyinterp.RTree`: the neighbours are replaced by points of a line at the
same distances. -/

/-- A point of the x axis at the distance of the item. -/
noncomputable def ghost (d : Item → ℝ) (i : Item) : RTree.Item := ⟨RTree.onX (d i), i.val⟩

theorem ghost_distance {d : Item → ℝ} (hd : ∀ i, 0 ≤ d i) (i : Item) : RTree.distance (RTree.onX 0) (ghost d i).pt = d i := by
  unfold ghost
  rw [RTree.distance_onX, zero_sub, abs_neg, abs_of_nonneg (hd i)]

theorem ghost_query {d : Item → ℝ} (hd : ∀ i, 0 ≤ d i) (l : List Item) :
    RTree.query (RTree.onX 0) (l.map (ghost d)) = l.map fun i => (d i, i.val) := by
  unfold RTree.query
  rw [List.map_map]
  apply List.map_congr_left
  intro i _
  simp only [Function.comp, ghost_distance hd]
  rfl

theorem ghost_near {d : Item → ℝ} (hd : ∀ i, 0 ≤ d i) {all l : List Item} {k : Nat} (h : KNear d all k l) :
    KNearest (all.map (ghost d)) (RTree.onX 0) k (l.map (ghost d)) where
  count := by simpa using h.count
  sorted := by
    rw [List.pairwise_map]
    refine h.sorted.imp ?_
    intro a c hac
    rwa [ghost_distance hd, ghost_distance hd]
  nearest := by
    obtain ⟨rest, h1, h2⟩ := h.nearest
    refine ⟨rest.map (ghost d), by rw [← List.map_append]; exact h1.map _, ?_⟩
    intro a ha c hc
    obtain ⟨a', ha', rfl⟩ := List.mem_map.1 ha
    obtain ⟨c', hc', rfl⟩ := List.mem_map.1 hc
    rw [ghost_distance hd, ghost_distance hd]
    exact h2 a' ha' c' hc'

theorem ghost_used {d : Item → ℝ} (hd : ∀ i, 0 ≤ d i) (radius : Option ℝ) (l : List Item) :
    RTree.used (RTree.onX 0) (l.map (ghost d)) radius = (inRadius d radius l).map (ghost d) := by
  unfold RTree.used inRadius
  rw [List.filter_map]
  congr 1
  apply List.filter_congr
  intro i _
  simp only [Function.comp, ghost_distance hd]
  cases radius with
  | none => exact decide_eq_true (p := InRadius none (d i)) trivial
  | some r =>
    by_cases hr : d i ≤ r
    · refine (decide_eq_true (p := InRadius (some r) (d i)) hr).trans ?_
      simp [hr]
    · refine (decide_eq_false (p := InRadius (some r) (d i)) hr).trans ?_
      simp [hr]

/-- The distance from the query. -/
noncomputable def dist (b : Boost) (t : Tree) (lon lat : ℝ) (i : Item) : ℝ := b.distance t.axes (pos lon lat) i.pos

theorem idw_ghost {b : Boost} {h : Heap} {t : Tree} (hA : Agree b t) {lon lat : ℝ} {k : Nat} {within : Bool}
    (hc : Covered b h t lon lat k within) (radius : Option ℝ) (pw : Nat) :
    idw b h t radius k pw within lon lat =
      RTree.idw (RTree.onX 0) ((near b h t lon lat k).map (ghost (dist b t lon lat))) radius k pw false := by
  unfold idw RTree.idw
  dsimp only
  rw [pairs_covered hc, if_neg (by decide), ghost_query (d := dist b t lon lat) (fun i => hA.2 _ _)]
  rfl

theorem window_ghost {b : Boost} {h : Heap} {t : Tree} (hA : Agree b t) {lon lat : ℝ} {k : Nat} {within : Bool}
    (hc : Covered b h t lon lat k within) (wf : Fn) (arg : Option ℝ) (radius : ℝ) :
    window b h t wf arg radius k within lon lat =
      RTree.windowFunction (RTree.onX 0) ((near b h t lon lat k).map (ghost (dist b t lon lat))) wf (arg.getD 0)
        (some radius) false := by
  unfold window RTree.windowFunction
  dsimp only
  rw [pairs_covered hc, if_neg (by decide), ghost_query (d := dist b t lon lat) (fun i => hA.2 _ _)]
  rfl

theorem ghost_mean {d : Item → ℝ} {l : List Item} {w : RTree.Item → ℝ} {r : ℝ} (h : IsItemMean (l.map (ghost d)) w r) :
    IsMean l (fun i => w (ghost d i)) Item.val r := by
  obtain ⟨h1, h2⟩ := h
  rw [List.map_map] at h1 h2
  rw [List.map_map] at h2
  exact ⟨h1, h2⟩

theorem ghost_between {d : Item → ℝ} {l : List Item} {v : ℝ}
    (h : ∃ a ∈ l.map (ghost d), ∃ c ∈ l.map (ghost d), a.val ≤ v ∧ v ≤ c.val) :
    ∃ a ∈ l, ∃ c ∈ l, a.val ≤ v ∧ v ≤ c.val := by
  obtain ⟨a, ha, c, hc, h1, h2⟩ := h
  obtain ⟨a', ha', rfl⟩ := List.mem_map.1 ha
  obtain ⟨c', hc', rfl⟩ := List.mem_map.1 hc
  exact ⟨a', ha', c', hc', h1, h2⟩

/-- **C100** Inverse distance weighting. `l` are the `k` nearest observations. (1) If `within` is asked for and the query is not in
the envelope of `l`: NaN and 0. Otherwise: (2) an observation at less than 1e-6 m gives its value; (3) if there is none and
some neighbours are within the radius, the value is their mean with the weights `1 / distance ^ p`, it is between two of
their values, and their number is returned; (4) if no neighbour is within the radius: NaN and 0. -/
theorem C100_idw (b : Boost) (h : Heap) (t : Tree) (hA : Agree b t) (radius : Option ℝ) (k pw : Nat) (hk : 0 < k)
    (within : Bool) (lon lat : ℝ) :
    ∃ q l, Place lon lat q ∧ KNear (fun i : Item => b.distance t.axes q i.pos) (contents h t) k l ∧
      let d := fun i : Item => b.distance t.axes q i.pos
      let near := inRadius d radius l
      let r := idw b h t radius k pw within lon lat
      (within = true ∧ b.covered q (l.map Item.pos) = false → r = (none, 0)) ∧
      ((within = true → b.covered q (l.map Item.pos) = true) →
        (∀ i ∈ contents h t, d i < 1e-6 → ∃ a ∈ contents h t, (∀ j ∈ contents h t, d a ≤ d j) ∧ r = (some a.val, k)) ∧
        ((∀ i ∈ contents h t, 1e-6 ≤ d i) →
          (near = [] → r = (none, 0)) ∧
          (near ≠ [] → ∃ v, r = (some v, near.length) ∧ IsMean near (fun i => 1 / d i ^ pw) Item.val v ∧
            (∃ a ∈ near, ∃ c ∈ near, a.val ≤ v ∧ v ≤ c.val) ∧ near.length ≤ k))) := by
  have hd : ∀ i, 0 ≤ dist b t lon lat i := fun i => hA.2 _ _
  have hn := hA.1 (contents h t) (pos lon lat) k
  have hg : KNearest _ (RTree.onX 0) k ((near b h t lon lat k).map (ghost (dist b t lon lat))) := ghost_near hd hn
  refine ⟨pos lon lat, near b h t lon lat k, pos_place lon lat, hn, ?_⟩
  intro d nr r
  refine ⟨fun hw => ?_, fun hc => ⟨fun i hi hit => ?_, fun hfar => ⟨fun hnil => ?_, fun hne => ?_⟩⟩⟩
  · have : ¬ Covered b h t lon lat k within := by
      intro hc
      have := hc hw.1
      rw [hw.2] at this; cases this
    show idw b h t radius k pw within lon lat = _
    unfold idw
    rw [pairs_uncovered this]
    simp [RTree.idwLoop]
  · obtain ⟨a, ha, hmin, heq⟩ := RTree.C54_hit _ _ (RTree.onX 0) radius k pw false hk hg (by simp)
      (ghost (dist b t lon lat) i) (List.mem_map_of_mem hi) (by rw [ghost_distance hd]; exact hit)
    obtain ⟨a', ha', rfl⟩ := List.mem_map.1 ha
    refine ⟨a', ha', fun j hj => ?_, ?_⟩
    · have := hmin _ (List.mem_map_of_mem hj)
      rwa [ghost_distance hd, ghost_distance hd] at this
    · show idw b h t radius k pw within lon lat = _
      rw [idw_ghost hA hc]; exact heq
  · show idw b h t radius k pw within lon lat = _
    rw [idw_ghost hA hc]
    refine RTree.C54_none _ _ _ _ _ _ _ hg (Or.inr ⟨?_, ?_⟩)
    · intro i hi
      obtain ⟨i', hi', rfl⟩ := List.mem_map.1 hi
      rw [ghost_distance hd]
      obtain ⟨rest, hp, -⟩ := hn.nearest
      exact hfar i' (hp.subset (List.mem_append_left _ hi'))
    · rw [ghost_used hd]
      show List.map _ (inRadius d radius (near b h t lon lat k)) = []
      have : inRadius d radius (near b h t lon lat k) = [] := hnil
      rw [this]; rfl
  · have hu := ghost_used hd radius (near b h t lon lat k)
    obtain ⟨v, h1, h2, h3, h4⟩ := RTree.C54_mean _ _ (RTree.onX 0) radius k pw false hg (by simp) (by
      intro i hi
      obtain ⟨i', hi', rfl⟩ := List.mem_map.1 hi
      rw [ghost_distance hd]
      obtain ⟨rest, hp, -⟩ := hn.nearest
      exact hfar i' (hp.subset (List.mem_append_left _ hi')))
      (by rw [hu]; exact fun h0 => hne (List.map_eq_nil_iff.1 h0))
    rw [hu] at h1 h2 h3 h4
    refine ⟨v, ?_, ?_, ghost_between h3, by rw [List.length_map] at h4; exact h4⟩
    · show idw b h t radius k pw within lon lat = _
      rw [idw_ghost hA hc, h1, List.length_map]; rfl
    · have := ghost_mean h2
      simp only [ghost_distance hd] at this
      exact this

/-- **C100** `window_function`, in the case of C55: the radius is positive, the argument is legal and the function is not
`flat_top`. The value is the mean of the neighbours within the radius, with the weights of the window. -/
theorem C100_window_partial (b : Boost) (h : Heap) (t : Tree) (hA : Agree b t) (wf : Fn) (arg : Option ℝ) (radius : ℝ) (k : Nat)
    (within : Bool) (lon lat : ℝ) (hf : wf ≠ .flatTop) (ha : ArgOk wf (arg.getD 0)) (hr : 0 < radius) :
    ∃ q l, Place lon lat q ∧ KNear (fun i : Item => b.distance t.axes q i.pos) (contents h t) k l ∧
      let d := fun i : Item => b.distance t.axes q i.pos
      let near := inRadius d (some radius) l
      let r := window b h t wf arg radius k within lon lat
      (within = true ∧ b.covered q (l.map Item.pos) = false → r = (none, 0)) ∧
      ((within = true → b.covered q (l.map Item.pos) = true) →
        (near = [] → r = (none, 0)) ∧
        ∃ w : Item → ℝ, (∀ i ∈ near, weight wf (d i) radius (arg.getD 0) = some (w i) ∧ 0 ≤ w i) ∧
          ((∀ i ∈ near, w i = 0) → r = (none, 0)) ∧
          ((∃ i ∈ near, w i ≠ 0) → ∃ v, r = (some v, near.length) ∧ IsMean near w Item.val v ∧
            ∃ a ∈ near, ∃ c ∈ near, a.val ≤ v ∧ v ≤ c.val)) := by
  have hd : ∀ i, 0 ≤ dist b t lon lat i := fun i => hA.2 _ _
  have hn := hA.1 (contents h t) (pos lon lat) k
  have hg : KNearest _ (RTree.onX 0) k ((near b h t lon lat k).map (ghost (dist b t lon lat))) := ghost_near hd hn
  refine ⟨pos lon lat, near b h t lon lat k, pos_place lon lat, hn, ?_⟩
  intro d nr r
  refine ⟨fun hw => ?_, fun hc => ⟨fun hnil => ?_, ?_⟩⟩
  · have : ¬ Covered b h t lon lat k within := by
      intro hc
      have := hc hw.1
      rw [hw.2] at this; cases this
    show window b h t wf arg radius k within lon lat = _
    unfold window
    rw [pairs_uncovered this]
    simp [RTree.windowLoop]
  · show window b h t wf arg radius k within lon lat = _
    rw [window_ghost hA hc]
    refine RTree.C55_none _ _ _ _ _ _ hg.sorted (Or.inr ?_)
    rw [ghost_used hd]
    show List.map _ (inRadius d (some radius) (near b h t lon lat k)) = []
    have : inRadius d (some radius) (near b h t lon lat k) = [] := hnil
    rw [this]; rfl
  · have hu := ghost_used hd (some radius) (near b h t lon lat k)
    obtain ⟨w, h1, h2, h3⟩ := RTree.C55_mean_partial _ _ (RTree.onX 0) wf (arg.getD 0) (some radius) k false hg (by simp)
      hf ha hr
    rw [hu] at h1 h2 h3
    refine ⟨fun i => w (ghost (dist b t lon lat) i), fun i hi => ?_, fun hz => ?_, fun hz => ?_⟩
    · have := h1 _ (List.mem_map_of_mem hi)
      rwa [ghost_distance hd] at this
    · show window b h t wf arg radius k within lon lat = _
      rw [window_ghost hA hc]
      apply h2
      intro i hi
      obtain ⟨i', hi', rfl⟩ := List.mem_map.1 hi
      exact hz i' hi'
    · obtain ⟨i, hi, hz⟩ := hz
      obtain ⟨v, e1, e2, e3⟩ := h3 ⟨_, List.mem_map_of_mem hi, hz⟩
      refine ⟨v, ?_, ghost_mean e2, ghost_between e3⟩
      show window b h t wf arg radius k within lon lat = _
      rw [window_ghost hA hc, e1, List.length_map]; rfl

/-- **C100** Radial basis functions without smoothing: at the place of one of the observations used, its value, when the system
is invertible and the constant of the function is a number (`e`; it is the inverse of `epsilon`, or of the mean distance
between the observations used). -/
theorem C100_rbf_partial (b : Boost) (solve : (n : Nat) → Matrix (Fin n) (Fin n) ℝ → (Fin n → ℝ) → Fin n → ℝ)
    (hs : ∀ n, Solver (solve n)) (h : Heap) (t : Tree) (f : RTree.Rbf) (epsilon radius : Option ℝ) (k : Nat) (within : Bool)
    (lon lat : ℝ) (l : List Item) (hl : nearest b h t (pos lon lat) radius k within = l) (i : Fin l.length)
    (hi : (l.get i).pos = pos lon lat) (e : ℝ)
    (he : if f.adjustable then RTree.usedEpsilon epsilon (fun i j : Fin l.length =>
      b.distance t.axes (l.get i).pos (l.get j).pos) = some e else e = 0)
    (hdet : (Matrix.of fun i j : Fin l.length => f.apply (b.distance t.axes (l.get i).pos (l.get j).pos) e).det ≠ 0) :
    rbf b solve h t f epsilon 0 radius k within lon lat = (some (l.get i).val, l.length) := by
  unfold rbf
  dsimp only
  rw [hl, if_neg (by have := i.2; omega)]
  congr 1
  unfold rbfInterpolate
  have key := congrFun (hs l.length _ (fun i => (l.get i).val) hdet) i
  by_cases ha : f.adjustable = true
  · rw [if_pos ha] at he
    simp only [ha, if_true, ne_eq, not_true_eq_false, if_false]
    rw [he, Option.map_some, ← hi]
    exact congrArg some key
  · rw [if_neg ha] at he
    subst he
    simp only [ha, Bool.false_eq_true, if_false, ne_eq, not_true_eq_false]
    rw [← hi]
    exact congrArg some key

/-- **C100** The observations used by the radial basis functions: those of the `k` nearest that are within the radius, or none if
`within` is asked for and the query is not in their envelope. None: NaN and 0. Otherwise their number is returned. -/
theorem C100_rbf_nodes (b : Boost) (d0 : Pos → Pos → ℝ) (hI : IndexOk b d0)
    (solve : (n : Nat) → Matrix (Fin n) (Fin n) ℝ → (Fin n → ℝ) → Fin n → ℝ) (h : Heap) (t : Tree) (f : RTree.Rbf)
    (epsilon radius : Option ℝ) (smooth : ℝ) (k : Nat) (within : Bool) (lon lat : ℝ) :
    ∃ q l, Place lon lat q ∧ KNear (fun i : Item => d0 q i.pos) (contents h t) k l ∧
      let near := inRadius (fun i => b.distance t.axes q i.pos) radius l
      let out := within = true ∧ b.covered q (near.map Item.pos) = false
      nearest b h t q radius k within = (if out then [] else near) ∧
      (near = [] ∨ out → rbf b solve h t f epsilon smooth radius k within lon lat = (none, 0)) ∧
      (near ≠ [] → ¬ out → (rbf b solve h t f epsilon smooth radius k within lon lat).2 = near.length ∧ near.length ≤ k) := by
  refine ⟨pos lon lat, near b h t lon lat k, pos_place lon lat, hI _ _ _, ?_⟩
  intro nr out
  have hsel : (b.near (contents h t) (pos lon lat) k).filter (fun i => RTree.close radius (b.distance t.axes (pos lon lat) i.pos)) =
      nr := by
    show _ = inRadius _ radius (near b h t lon lat k)
    unfold inRadius near
    apply List.filter_congr
    intro i _
    cases radius with
    | none => rfl
    | some r =>
      by_cases hr : b.distance t.axes (pos lon lat) i.pos ≤ r <;> simp [RTree.close, hr]
  have hn : nearest b h t (pos lon lat) radius k within = (if out then [] else nr) := by
    unfold nearest
    dsimp only
    rw [hsel]
    by_cases ho : out
    · rw [if_pos ho, if_pos]
      simp only [Bool.and_eq_true, Bool.not_eq_true']
      exact ho
    · rw [if_neg ho, if_neg]
      simp only [Bool.and_eq_true, Bool.not_eq_true']
      exact ho
  refine ⟨hn, fun hno => ?_, fun hne hno => ?_⟩
  · unfold rbf
    dsimp only
    rw [if_pos]
    rw [hn]
    rcases hno with hno | hno
    · by_cases ho : out
      · rw [if_pos ho]; rfl
      · rw [if_neg ho, hno]; rfl
    · rw [if_pos hno]; rfl
  · rw [if_neg hno] at hn
    constructor
    · unfold rbf
      dsimp only
      rw [hn, if_neg]
      intro h0
      exact hne (List.length_eq_zero_iff.1 h0)
    · have h1 : nr.length ≤ (near b h t lon lat k).length := List.length_filter_le _ _
      have h2 := (hI (contents h t) (pos lon lat) k).count
      have h3 : (near b h t lon lat k).length = min k (contents h t).length := h2
      omega

/-! ### Pickling and copies -/

/-- **C100** Pickling: the tree restored has the same spheroid and the same observations, in a content of its own; the trees that
exist are not modified. A state with different numbers of coordinates and values is refused. -/
theorem C100_pickle (h : Heap) (t : Tree) :
    (∃ g u, setstate h (getstate h t) = .ok (g, u) ∧ u.axes = t.axes ∧ contents g u = contents h t ∧
      (∀ v : Tree, v.ref < h.length → v.ref ≠ u.ref ∧ contents g v = contents h v) ∧ u.ref < g.length) ∧
    ∀ s : (ℝ × ℝ) × List (ℝ × ℝ) × List ℝ, s.2.1.length ≠ s.2.2.length → setstate h s = .error .exn := by
  refine ⟨?_, fun s hs => if_pos hs⟩
  unfold setstate getstate
  dsimp only
  rw [if_neg (by simp)]
  refine ⟨_, _, rfl, rfl, ?_, fun v hv => ⟨by simp [new]; omega, ?_⟩, by simp [new, copy]⟩
  · have hz : ((((contents h t).map fun i => (i.pos.lon, i.pos.lat)).zip ((contents h t).map Item.val)).map
        fun p => (⟨⟨p.1.1, p.1.2⟩, p.2⟩ : Item)) = contents h t := by
      generalize contents h t = c
      induction c with
      | nil => rfl
      | cons a c ih => simp only [List.map_cons, List.zip_cons_cons, ih]
    rw [hz]
    simp [new, copy, contents]
  · unfold contents new copy
    dsimp only
    rw [List.getD_eq_getElem?_getD, List.getElem?_set_ne (by omega), List.getElem?_append_left hv,
      ← List.getD_eq_getElem?_getD]

/-- **C100, the part that fails** "The copy of a tree is another tree". The copy shares the content: what is inserted in the
copy is found in the original, and what is cleared in the copy is lost in the original. -/
theorem C100_copy_false (h : Heap) (t : Tree) (ht : t.ref < h.length) (lon lat values : List ℝ)
    (h1 : lon.length = lat.length) (h2 : lon.length = values.length) :
    (∃ g items, insert h (copy t) lon lat values = .ok g ∧ contents g t = contents h t ++ items ∧
      items.length = lon.length) ∧ contents (clear h (copy t)) t = [] := by
  obtain ⟨-, ⟨g, items, e1, e2, e3, -, -⟩, e4, -⟩ := C100_contents h t ht lon lat values h1 h2
  refine ⟨⟨g, items, e1, e2, ?_⟩, e4⟩
  rw [← e3.length_eq]
  simp [← h1, ← h2]

/-! ### Examples -/

/-- A distance (of the latitudes), an index that sorts, an envelope in latitude. -/
noncomputable def toy : Boost where
  near := fun all q k => (all.insertionSort fun a c => |q.lat - a.pos.lat| ≤ |q.lat - c.pos.lat|).take k
  distance := fun _ p q => |p.lat - q.lat|
  covered := fun q l => @decide (∃ a ∈ l, ∃ c ∈ l, a.lat ≤ q.lat ∧ q.lat ≤ c.lat) (Classical.dec _)

theorem toy_agree (t : Tree) : Agree toy t := by
  refine ⟨fun all q k => ?_, fun p q => abs_nonneg _⟩
  let r : Item → Item → Prop := fun a c => |q.lat - a.pos.lat| ≤ |q.lat - c.pos.lat|
  have : Std.Total r := ⟨fun a c => le_total _ _⟩
  have : IsTrans Item r := ⟨fun a c e => le_trans⟩
  have hs : (all.insertionSort r).Pairwise r := List.pairwise_insertionSort r all
  have hp : (all.insertionSort r).Perm all := List.perm_insertionSort r all
  refine ⟨by show ((all.insertionSort r).take k).length = _; rw [List.length_take, hp.length_eq], ?_,
    (all.insertionSort r).drop k, ?_, ?_⟩
  · exact hs.sublist (List.take_sublist _ _)
  · show ((all.insertionSort r).take k ++ (all.insertionSort r).drop k).Perm all
    rw [List.take_append_drop]; exact hp
  · intro a ha c hc
    have h2 : ((all.insertionSort r).take k ++ (all.insertionSort r).drop k).Pairwise r := by
      rw [List.take_append_drop]; exact hs
    exact (List.pairwise_append.1 h2).2.2 a ha c hc

/-- The hypotheses of the theorems are met: a tree with two observations, at the latitudes 1 and 3; the mean at the latitude 0
with the weights 1 and 1/3. -/
example : ∃ g, packing [[]] ⟨0, wgs84⟩ [370, 5] [1, 3] [10, 50] = .ok g ∧
    (contents g ⟨0, wgs84⟩).map Item.val = [10, 50] ∧ SamePlace (370, 1) (10, 1) ∧
    ∃ v, idw toy g ⟨0, wgs84⟩ none 2 1 false 0 0 = (some v, 2) ∧ v = 20 := by
  obtain ⟨⟨g, items, e1, e2, e3, -, -⟩, -⟩ := C100_contents [[]] ⟨0, wgs84⟩ (by simp) [370, 5] [1, 3] [10, 50] rfl rfl
  refine ⟨g, e1, ?_, ⟨⟨-1, by norm_num⟩, rfl⟩, ?_⟩
  · rw [e2]
    simp only [List.zip_cons_cons, List.zip_nil_right] at e3
    cases e3 with
    | cons a1 e3 =>
      cases e3 with
      | cons a2 e3 =>
        cases e3
        simp [a1.1, a2.1]
  · simp only [List.zip_cons_cons, List.zip_nil_right] at e3
    cases e3 with
    | cons a1 e3 =>
      cases e3 with
      | cons a2 e3 =>
        cases e3
        rename_i i1 i2
        have hl1 : i1.pos.lat = 1 := a1.2.1.2
        have hl2 : i2.pos.lat = 3 := a2.2.1.2
        obtain ⟨q, l, hq, hk, hw⟩ := C100_idw toy g ⟨0, wgs84⟩ (toy_agree _) none 2 1 (by norm_num) false 0 0
        have hq0 : q.lat = 0 := hq.1.2
        have hin : ∀ m : List Item, inRadius (fun i : Item => toy.distance wgs84 q i.pos) none m = m := by
          intro m; simp [inRadius]
        have hperm : l.Perm [i1, i2] := by
          obtain ⟨rest, hp, -⟩ := hk.nearest
          have hc := hk.count
          rw [e2] at hp hc
          have := hp.length_eq
          simp at this hc
          have : rest = [] := List.length_eq_zero_iff.1 (by omega)
          rw [this, List.append_nil] at hp
          exact hp
        have hlne : l ≠ [] := by
          intro h0; rw [h0] at hperm; exact absurd hperm.length_eq (by simp)
        have hfar : ∀ i ∈ contents g ⟨0, wgs84⟩, (1e-6 : ℝ) ≤ toy.distance wgs84 q i.pos := by
          rw [e2]
          intro i hi
          show (1e-6 : ℝ) ≤ |q.lat - i.pos.lat|
          simp only [List.mem_cons, List.not_mem_nil, or_false] at hi
          rcases hi with rfl | rfl
          · rw [hl1, hq0]; norm_num
          · rw [hl2, hq0]; norm_num
        obtain ⟨v, h1, h2, -, -⟩ := ((hw.2 (by simp)).2 hfar).2 (by rw [hin]; exact hlne)
        rw [hin] at h1 h2
        refine ⟨v, by rw [h1, hperm.length_eq]; rfl, ?_⟩
        have h3 := h2.2
        rw [(hperm.map _).sum_eq, (hperm.map fun i : Item => 1 / toy.distance wgs84 q i.pos ^ 1 * i.val).sum_eq] at h3
        simp only [toy, List.map_cons, List.map_nil, List.sum_cons, List.sum_nil, hl1, hl2, hq0, a1.1, a2.1, pow_one,
          zero_sub, abs_neg] at h3
        norm_num at h3
        linarith

example : idw toy [[]] ⟨0, wgs84⟩ none 2 1 true 0 0 = (none, 0) := by
  obtain ⟨q, l, -, hk, hw⟩ := C100_idw toy [[]] ⟨0, wgs84⟩ (toy_agree _) none 2 1 (by norm_num) true 0 0
  have : l = [] := List.length_eq_zero_iff.1 (by rw [hk.count]; simp [contents])
  exact hw.1 ⟨rfl, by simp [this, toy]⟩

/-- `C100_window_partial`: its hypotheses are met by the windows without argument. -/
example : ∃ q l, Place 10 0 q ∧ KNear (fun i : Item => toy.distance wgs84 q i.pos) [⟨pos 370 1, 7⟩] 1 l ∧
    ∃ v, window toy [[⟨pos 370 1, 7⟩]] ⟨0, wgs84⟩ .hamming none 2 1 false 10 0 = (some v, 1) := by
  obtain ⟨q, l, hq, hk, -, hw⟩ := C100_window_partial toy [[⟨pos 370 1, 7⟩]] ⟨0, wgs84⟩ (toy_agree _) .hamming none 2 1 false 10 0
    (by decide) (by simp [ArgOk]) (by norm_num)
  refine ⟨q, l, hq, hk, ?_⟩
  have hl : l = [⟨pos 370 1, 7⟩] := by
    obtain ⟨rest, hp, -⟩ := hk.nearest
    have hc := hk.count
    have hp' : (l ++ rest).Perm [⟨pos 370 1, 7⟩] := hp
    have h1 : l.length = 1 := by simpa [contents] using hc
    have := hp'.length_eq
    simp [h1] at this
    rw [this, List.append_nil] at hp'
    exact List.perm_singleton.1 hp'
  have hq0 : q.lat = 0 := hq.1.2
  have hin : inRadius (fun i : Item => toy.distance wgs84 q i.pos) (some 2) l = l := by
    rw [hl]
    have : |q.lat - (pos 370 1).lat| ≤ 2 := by
      show |q.lat - 1| ≤ 2
      rw [hq0]; norm_num
    simp [inRadius, toy, this]
  obtain ⟨-, w, h1, h2, h3⟩ := hw (by simp)
  simp only [hin] at h1 h2 h3
  obtain ⟨x, hx, hx0⟩ := C53_positive .hamming (toy.distance wgs84 q (pos 370 1)) 2 0 (by norm_num) (abs_nonneg _)
    (by show |q.lat - 1| ≤ 2; rw [hq0]; norm_num) (by simp [ArgOk]) (by decide) (Or.inr ⟨by decide, by decide, by decide⟩)
  have hm : (⟨pos 370 1, 7⟩ : Item) ∈ l := by rw [hl]; simp
  have hwx : w ⟨pos 370 1, 7⟩ ≠ 0 := by
    have := (h1 _ hm).1
    simp only [Option.getD_none] at this
    rw [hx] at this
    simp only [Option.some.injEq] at this
    rw [← this]; exact hx0.ne'
  obtain ⟨v, hv, -⟩ := h3 ⟨_, hm, hwx⟩
  exact ⟨v, by rw [hv, hl]; rfl⟩

/-- `C100_rbf_partial`: its hypotheses are met (one observation, a gaussian). -/
example : rbf toy (fun n A y => A⁻¹ *ᵥ y) [[⟨pos 370 1, 7⟩]] ⟨0, wgs84⟩ .gaussian (some 1) 0 none 1 false 10 1 = (some 7, 1) := by
  have hs : ∀ n, Solver (fun (A : Matrix (Fin n) (Fin n) ℝ) (y : Fin n → ℝ) => A⁻¹ *ᵥ y) := by
    intro n A y hA
    rw [Matrix.mulVec_mulVec, Matrix.mul_nonsing_inv A (isUnit_iff_ne_zero.2 hA), Matrix.one_mulVec]
  have hp : pos 370 1 = pos 10 1 := pos_turn (p := (10, 1)) (q := (370, 1)) ⟨⟨1, by norm_num⟩, rfl⟩
  refine C100_rbf_partial toy _ hs [[⟨pos 370 1, 7⟩]] ⟨0, wgs84⟩ .gaussian (some 1) none 1 false 10 1 [⟨pos 370 1, 7⟩] ?_ 0 hp 1
    (by simp [RTree.Rbf.adjustable, RTree.usedEpsilon]) ?_
  · simp [nearest, toy, contents, RTree.close]
  · simp [RTree.Rbf.apply, Real.exp_ne_zero]

end Pyinterp.GeoTree
