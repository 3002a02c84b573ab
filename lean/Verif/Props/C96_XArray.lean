import Verif.Props.C95_GridPy

/-
C96 – the grids built from a `DataArray` (backends/xarray.py).
-/
namespace Pyinterp.GridPy
open Pyinterp Variate Pyinterp.Spec Pyinterp.Spec.GridPy
set_option linter.unusedSectionVars false
set_option linter.unusedVariables false

section
variable {K : Type} [Field K] [LinearOrder K] [IsStrictOrderedRing K] [FloorRing K]
variable {N : Type} [DecidableEq N]

theorem coordOf_ok {da : DataArray N K} {d : N} {c : Coord N K} (h : coordOf da d = .ok c) :
    c ∈ da.coords ∧ c.name = d := by
  unfold coordOf at h
  split at h
  · cases h
  · rename_i c' hc
    cases h
    exact ⟨List.mem_of_find?_eq_some hc, by simpa using List.find?_some hc⟩

theorem numAxis_ok {c : Coord N K} {b : Bool} {o : AxisObj K} (h : numAxis c b = .ok o) :
    c.ndim = 1 ∧ ∃ l a, c.values = .num l ∧ mkAxis false l (1 / 1000000) b = .ok a ∧ o = .float a := by
  unfold numAxis at h
  split at h
  · cases h
  · rename_i hn
    split at h
    · rename_i l hl
      obtain ⟨a, ha, h⟩ := bind_inv h
      cases h
      exact ⟨not_not.mp hn, l, a, hl, ha, rfl⟩
    · cases h

theorem timeAxis_ok {c : Coord N K} {l : List Int} {o : AxisObj K} (h : timeAxis c l = .ok o) :
    c.ndim = 1 ∧ ∃ a, mkAxis true l 0 false = .ok a ∧ o = .time a := by
  unfold timeAxis at h
  split at h
  · cases h
  · rename_i hn
    obtain ⟨a, ha, h⟩ := bind_inv h
    cases h
    exact ⟨not_not.mp hn, a, ha, rfl⟩

theorem built_num {da : DataArray N K} {d : N} {c : Coord N K} {b : Bool} {o : AxisObj K}
    (hc : coordOf da d = .ok c) (h : numAxis c b = .ok o) : Built da d b o := by
  obtain ⟨h1, l, a, h2, h3, h4⟩ := numAxis_ok h
  obtain ⟨h5, h6⟩ := coordOf_ok hc
  refine ⟨c, h5, h6, h1, ?_⟩
  rw [h2]
  exact ⟨a, h3, h4⟩

theorem held_of_built {da : DataArray N K} {d : N} {b : Bool} {o : AxisObj K} (h : Built da d b o) : Held o := by
  obtain ⟨c, -, -, -, h⟩ := h
  split at h
  · obtain ⟨a, h1, rfl⟩ := h
    exact .values _ _ _ _ (by norm_num) h1
  · obtain ⟨a, h1, rfl⟩ := h
    exact .values _ _ h1
  · obtain ⟨a, h1, rfl⟩ := h
    exact .values _ _ h1

theorem transpose_ok {da : DataArray N K} {dims : List N} {arr : Arr K} (hw : WellFormed da)
    (h : transpose da dims = .ok arr) :
    dims.Perm da.dims ∧ dims.Nodup ∧ arr.shape = dims.map (fun d => da.arr.shape.getD (da.dims.idxOf d) 0) ∧
      ∀ i, arr.at' i = da.arr.at' (da.dims.map fun d => i.getD (dims.idxOf d) 0) := by
  unfold transpose at h
  split at h
  · rename_i hc
    cases h
    obtain ⟨h1, h2, h3⟩ := hc
    exact ⟨(List.subperm_of_subset h2 h3).perm_of_length_le (by omega), h2, rfl, fun i => rfl⟩
  · cases h

theorem getD_map_idxOf {dims : List N} {pos : N → Nat} {d : N} (h : d ∈ dims) :
    (dims.map pos).getD (dims.idxOf d) 0 = pos d := by
  have hi := List.idxOf_lt_length_of_mem h
  rw [List.getD_eq_getElem _ _ (by simpa using hi), List.getElem_map, List.getElem_idxOf hi]

/-- The grid built from the transposed array. -/
theorem nodes {da : DataArray N K} (hw : WellFormed da) {dims : List N} {arr : Arr K}
    (ht : transpose da dims = .ok arr) {axes0 : List (AxisObj K)} (hl : axes0.length = dims.length)
    (hh : ∀ a ∈ axes0, Held a) {inc : Bool} {n : Nat} (hn : n = dims.length) {st' : Args K} {g : GridObj K}
    (h : init n (increasingOf inc) { heap := axes0, refs := List.range n, arr := arr } = .ok (st', g)) :
    ∃ axes, deref st'.heap st'.refs = .ok axes ∧ construct n axes st'.arr = .ok g ∧
      (inc = true → ∀ a ∈ axes, Increasing a) ∧
      axes = (if inc then axes0.map fun a => if a.isAscending then a else a.flip else axes0) ∧
      (∀ pos, Node da pos → ∃ j, ValidIndex st'.arr.shape j ∧ SameNode da dims axes0 axes st'.arr pos j) ∧
      (∀ j, ValidIndex st'.arr.shape j → ∃ pos, Node da pos ∧ SameNode da dims axes0 axes st'.arr pos j) := by
  obtain ⟨hp, hnd, hsh, hat⟩ := transpose_ok hw ht
  have hd0 : deref axes0 (List.range n) = .ok axes0 := by
    refine (deref_iff _ _ _).mpr ⟨by simp; omega, ?_⟩
    intro k hk
    simp
  -- positions and indexes
  have fwd : ∀ pos, Node da pos → ValidIndex arr.shape (dims.map pos) ∧ arr.at' (dims.map pos) = isel da pos := by
    intro pos hpos
    constructor
    · refine ⟨by simp [hsh], ?_⟩
      intro k h1 h2
      simp only [hsh, List.getElem_map]
      have hk : k < dims.length := by simpa using h1
      have hmem : dims[k] ∈ da.dims := hp.subset (List.getElem_mem hk)
      have hi := List.idxOf_lt_length_of_mem hmem
      have hi' : da.dims.idxOf dims[k] < da.arr.shape.length := by rw [hw.2]; exact hi
      rw [List.getD_eq_getElem _ _ hi']
      refine hpos (da.dims.idxOf dims[k]) _ _ ?_ (List.getElem?_eq_getElem hi')
      rw [List.getElem?_eq_getElem hi, List.getElem_idxOf hi]
    · rw [hat]
      unfold isel
      congr 1
      apply List.map_congr_left
      intro d hd
      exact getD_map_idxOf (hp.symm.subset hd)
  have bwd : ∀ j, ValidIndex arr.shape j → ∃ pos, Node da pos ∧ dims.map pos = j := by
    intro j hj
    have hjl : j.length = dims.length := by rw [hj.1, hsh, List.length_map]
    refine ⟨fun d => j.getD (dims.idxOf d) 0, ?_, ?_⟩
    · intro k d m hd hm
      obtain ⟨hk, hkd⟩ := List.getElem?_eq_some_iff.mp hd
      obtain ⟨hks, hkm⟩ := List.getElem?_eq_some_iff.mp hm
      have hmem : d ∈ dims := hp.symm.subset (hkd ▸ List.getElem_mem hk)
      have hi := List.idxOf_lt_length_of_mem hmem
      have hij : dims.idxOf d < j.length := by omega
      have his : dims.idxOf d < arr.shape.length := by rw [hsh, List.length_map]; exact hi
      have hv := hj.2 _ hij his
      show j.getD (dims.idxOf d) 0 < m
      rw [List.getD_eq_getElem _ _ hij]
      refine lt_of_lt_of_eq hv ?_
      simp only [hsh, List.getElem_map, List.getElem_idxOf hi]
      have : da.dims.idxOf d = k := by
        rw [← hkd]; exact hw.1.idxOf_getElem k hk
      rw [this, List.getD_eq_getElem _ _ hks, hkm]
    · apply List.ext_getElem
      · simp [hjl]
      · intro k h1 h2
        simp only [List.getElem_map]
        have hk : k < dims.length := by omega
        rw [hnd.idxOf_getElem k hk, List.getD_eq_getElem _ _ h2]
  cases inc with
  | false =>
    have e := (C95_mode n { heap := axes0, refs := List.range n, arr := arr }).1 st' g h
    subst e
    have hg : construct n axes0 arr = .ok g := by
      unfold init at h
      simp only [increasingOf, Bool.false_eq_true, if_false] at h
      obtain ⟨_, hm, h⟩ := bind_inv h
      cases hm
      obtain ⟨_, hm, h⟩ := bind_inv h
      cases hm
      obtain ⟨ax, hax, h⟩ := bind_inv h
      simp only at hax
      rw [hd0] at hax
      cases hax
      obtain ⟨_, hm, h⟩ := bind_inv h
      cases h
      exact hm
    refine ⟨axes0, hd0, hg, fun hh => (by cases hh), rfl, ?_, ?_⟩
    · intro pos hpos
      obtain ⟨h1, h2⟩ := fwd pos hpos
      exact ⟨dims.map pos, h1, rfl, h2⟩
    · intro j hj
      obtain ⟨pos, h1, h2⟩ := bwd j hj
      refine ⟨pos, h1, by rw [h2], ?_⟩
      rw [← (fwd pos h1).2, h2]
  | true =>
    obtain ⟨axes, axes', e1, e2, e3, e4, e5, e5', e6⟩ :=
      C95_increasing n _ _ st' g h (by
          intro r hr
          simp only [List.mem_range] at hr
          simp only
          omega)
        (fun _ => List.nodup_range) hh
    simp only at e1 e5 e6
    have e5'' := e5' rfl
    rw [hd0] at e1
    cases e1
    refine ⟨axes', e2, e3, fun _ => e4, e5'', ?_, ?_⟩
    · intro pos hpos
      obtain ⟨h1, h2⟩ := fwd pos hpos
      obtain ⟨m1, m2, -, -⟩ := e6 _ h1
      obtain ⟨-, -, m3, m4⟩ := e6 _ m1
      refine ⟨mirror axes0 arr.shape (dims.map pos), by rw [e5]; exact m1, ?_, ?_⟩
      · rw [m3, m2]
      · rw [m4, m2, h2]
    · intro j hj
      rw [e5] at hj
      obtain ⟨m1, m2, m3, m4⟩ := e6 _ hj
      obtain ⟨pos, h1, h2⟩ := bwd _ m1
      refine ⟨pos, h1, ?_, ?_⟩
      · rw [h2, m3]
      · rw [m4, ← h2, (fwd pos h1).2]

/-- What is claimed of a grid built from a `DataArray`. -/
def FromDataArray (da : DataArray N K) (inc geodetic : Bool) (g : XGrid N K) : Prop :=
  ∃ axes0 axes, g.dims.Perm da.dims ∧ axes0.length = g.dims.length ∧
    (∀ (k : Nat) d o, g.dims[k]? = some d → axes0[k]? = some o → Built da d (geodetic && decide (k = 0)) o) ∧
    deref g.args.heap g.args.refs = .ok axes ∧ construct g.dims.length axes g.args.arr = .ok g.grid ∧
    (inc = true → ∀ a ∈ axes, Increasing a) ∧
    axes = (if inc then axes0.map fun a => if a.isAscending then a else a.flip else axes0) ∧
    (∀ pos, Node da pos → ∃ j, ValidIndex g.args.arr.shape j ∧ SameNode da g.dims axes0 axes g.args.arr pos j) ∧
    (∀ j, ValidIndex g.args.arr.shape j → ∃ pos, Node da pos ∧ SameNode da g.dims axes0 axes g.args.arr pos j)

theorem held_of_all {da : DataArray N K} {dims : List N} {axes0 : List (AxisObj K)} {b : Bool}
    (hl : axes0.length = dims.length)
    (h : ∀ (k : Nat) d o, dims[k]? = some d → axes0[k]? = some o → Built da d (b && decide (k = 0)) o) :
    ∀ a ∈ axes0, Held a := by
  intro a ha
  obtain ⟨k, hk, rfl⟩ := List.getElem_of_mem ha
  exact held_of_built (h k _ _ (List.getElem?_eq_getElem (by omega)) (List.getElem?_eq_getElem hk))

theorem xgrid2D_spec {da : DataArray N K} (hw : WellFormed da) {inc geo : Bool} {g : XGrid N K}
    (h : xgrid2D da inc geo = .ok g) :
    FromDataArray da inc geo g ∧ ∃ x y, dimsFromDataArray da geo 2 = .ok (x, y) ∧ g.dims = [x, y] := by
  unfold xgrid2D at h
  obtain ⟨d, hd, h⟩ := bind_inv h
  obtain ⟨cx, hcx, h⟩ := bind_inv h
  obtain ⟨ax, hax, h⟩ := bind_inv h
  obtain ⟨cy, hcy, h⟩ := bind_inv h
  obtain ⟨ay, hay, h⟩ := bind_inv h
  obtain ⟨arr, harr, h⟩ := bind_inv h
  obtain ⟨r, hr, h⟩ := bind_inv h
  cases h
  have hb : ∀ (k : Nat) e o, [d.1, d.2][k]? = some e → [ax, ay][k]? = some o →
      Built da e (geo && decide (k = 0)) o := by
    rintro (_ | _ | k) e o he ho <;> simp at he ho
    · subst he; subst ho; simpa using built_num hcx hax
    · subst he; subst ho; simpa using built_num hcy hay
  obtain ⟨axes, h1, h2, h3, h4, h5, h6⟩ :=
    nodes hw harr (axes0 := [ax, ay]) rfl (held_of_all (dims := [d.1, d.2]) rfl hb) (n := 2) rfl (st' := r.1) (g := r.2) hr
  exact ⟨⟨[ax, ay], axes, (transpose_ok hw harr).1, rfl, hb, h1, h2, h3, h4, h5, h6⟩, d.1, d.2, hd, rfl⟩

theorem xgrid3D_spec {da : DataArray N K} (hw : WellFormed da) {pick : List N → N} {inc geo : Bool} {g : XGrid N K}
    (h : xgrid3D pick da inc geo = .ok g) :
    FromDataArray da inc geo g ∧ ∃ x y z, dimsFromDataArray da geo 3 = .ok (x, y) ∧ g.dims = [x, y, z] := by
  unfold xgrid3D at h
  obtain ⟨d, hd, h⟩ := bind_inv h
  split at h
  · cases h
  simp only at h
  obtain ⟨cz, hcz, h⟩ := bind_inv h
  obtain ⟨cx, hcx, h⟩ := bind_inv h
  obtain ⟨ax, hax, h⟩ := bind_inv h
  obtain ⟨cy, hcy, h⟩ := bind_inv h
  obtain ⟨ay, hay, h⟩ := bind_inv h
  have key : ∃ az, Built da (pick (otherDims da d.1 d.2)) false az ∧ ∃ arr r,
      transpose da [d.1, d.2, pick (otherDims da d.1 d.2)] = .ok arr ∧
      init 3 (increasingOf inc) { heap := [ax, ay, az], refs := [0, 1, 2], arr := arr } = .ok r ∧
      g.dims = [d.1, d.2, pick (otherDims da d.1 d.2)] ∧ g.args = r.1 ∧ g.grid = r.2 := by
    obtain ⟨hc1, hc2⟩ := coordOf_ok hcz
    cases hv : cz.values with
    | num l =>
      simp only [hv] at h
      obtain ⟨az, haz, h⟩ := bind_inv h
      obtain ⟨arr, harr, h⟩ := bind_inv h
      obtain ⟨r, hr, h⟩ := bind_inv h
      cases h
      exact ⟨az, built_num hcz haz, arr, r, harr, hr, rfl, rfl, rfl⟩
    | datetime l =>
      simp only [hv] at h
      obtain ⟨az, haz, h⟩ := bind_inv h
      obtain ⟨arr, harr, h⟩ := bind_inv h
      obtain ⟨r, hr, h⟩ := bind_inv h
      cases h
      obtain ⟨t1, t2⟩ := timeAxis_ok haz
      exact ⟨az, ⟨cz, hc1, hc2, t1, by rw [hv]; exact t2⟩, arr, r, harr, hr, rfl, rfl, rfl⟩
    | timedelta l =>
      simp only [hv] at h
      obtain ⟨az, haz, h⟩ := bind_inv h
      obtain ⟨arr, harr, h⟩ := bind_inv h
      obtain ⟨r, hr, h⟩ := bind_inv h
      cases h
      obtain ⟨t1, t2⟩ := timeAxis_ok haz
      exact ⟨az, ⟨cz, hc1, hc2, t1, by rw [hv]; exact t2⟩, arr, r, harr, hr, rfl, rfl, rfl⟩
  obtain ⟨az, hbz, arr, r, harr, hr, e1, e2, e3⟩ := key
  have hb : ∀ (k : Nat) e o, [d.1, d.2, pick (otherDims da d.1 d.2)][k]? = some e → [ax, ay, az][k]? = some o →
      Built da e (geo && decide (k = 0)) o := by
    rintro (_ | _ | _ | k) e o he ho <;> simp at he ho
    · subst he; subst ho; simpa using built_num hcx hax
    · subst he; subst ho; simpa using built_num hcy hay
    · subst he; subst ho; simpa using hbz
  obtain ⟨axes, h1, h2, h3, h4, h5, h6⟩ :=
    nodes hw harr (axes0 := [ax, ay, az]) rfl (held_of_all (dims := [d.1, d.2, pick (otherDims da d.1 d.2)]) rfl hb) (n := 3) rfl (st' := r.1) (g := r.2) hr
  refine ⟨⟨[ax, ay, az], axes, ?_⟩, d.1, d.2, _, hd, e1⟩
  rw [e1, e2, e3]
  exact ⟨(transpose_ok hw harr).1, rfl, hb, h1, h2, h3, h4, h5, h6⟩

theorem zAxis4_built {da : DataArray N K} {d : N} {c : Coord N K} {o : AxisObj K}
    (hc : coordOf da d = .ok c) (h : zAxis4 c = .ok o) : Built da d false o := by
  unfold zAxis4 at h
  split at h
  · rename_i l hl
    obtain ⟨hc1, hc2⟩ := coordOf_ok hc
    obtain ⟨t1, t2⟩ := timeAxis_ok h
    exact ⟨c, hc1, hc2, t1, by rw [hl]; exact t2⟩
  · exact built_num hc h

theorem xgrid4D_spec {da : DataArray N K} (hw : WellFormed da) {swap : Bool} {inc geo : Bool} {g : XGrid N K}
    (h : xgrid4D swap da inc geo = .ok g) :
    FromDataArray da inc geo g ∧ ∃ x y z u, dimsFromDataArray da geo 4 = .ok (x, y) ∧ g.dims = [x, y, z, u] := by
  unfold xgrid4D at h
  obtain ⟨d, hd, h⟩ := bind_inv h
  -- the two other dimensions
  have h' : ∃ zu : N × N, (do
      let cz ← coordOf da zu.1
      let cu ← coordOf da zu.2
      if cz.values.isDatetime && cu.values.isDatetime then throw Err.exn
      let zu := if cu.values.isDatetime then (zu.2, zu.1) else zu
      let c := if cu.values.isDatetime then (cu, cz) else (cz, cu)
      let cx ← coordOf da d.1
      let ax ← numAxis cx geo
      let cy ← coordOf da d.2
      let ay ← numAxis cy false
      let az ← zAxis4 c.1
      let au ← numAxis c.2 false
      let arr ← transpose da [d.1, d.2, zu.1, zu.2]
      let r ← init 4 (increasingOf inc) { heap := [ax, ay, az, au], refs := [0, 1, 2, 3], arr := arr }
      pure ({ dims := [d.1, d.2, zu.1, zu.2]
              time := if c.1.values.isDatetime then some 2 else none
              args := r.1, grid := r.2 } : XGrid N K)) = .ok g := by
    split at h
    · split at h
      · exact ⟨_, h⟩
      · exact ⟨_, h⟩
    · cases h
  clear h
  obtain ⟨zu, h⟩ := h'
  obtain ⟨cz, hcz, h⟩ := bind_inv h
  obtain ⟨cu, hcu, h⟩ := bind_inv h
  have hnn : ¬ ((cz.values.isDatetime && cu.values.isDatetime) = true) := by
    intro hh
    rw [if_pos hh] at h
    cases h
  rw [if_neg hnn] at h
  simp only at h
  have key : ∃ (zu' : N × N) (c : Coord N K × Coord N K), coordOf da zu'.1 = .ok c.1 ∧ coordOf da zu'.2 = .ok c.2 ∧
      (if cu.values.isDatetime = true then (zu.2, zu.1) else zu) = zu' ∧
      (if cu.values.isDatetime = true then (cu, cz) else (cz, cu)) = c := by
    split
    · exact ⟨_, _, hcu, hcz, rfl, rfl⟩
    · exact ⟨_, _, hcz, hcu, rfl, rfl⟩
  obtain ⟨zu', c, k1, k2, k3, k4⟩ := key
  rw [k3, k4] at h
  obtain ⟨cx, hcx, h⟩ := bind_inv h
  obtain ⟨ax, hax, h⟩ := bind_inv h
  obtain ⟨cy, hcy, h⟩ := bind_inv h
  obtain ⟨ay, hay, h⟩ := bind_inv h
  obtain ⟨az, haz, h⟩ := bind_inv h
  obtain ⟨au, hau, h⟩ := bind_inv h
  obtain ⟨arr, harr, h⟩ := bind_inv h
  obtain ⟨r, hr, h⟩ := bind_inv h
  cases h
  have hb : ∀ (k : Nat) e o, [d.1, d.2, zu'.1, zu'.2][k]? = some e → [ax, ay, az, au][k]? = some o →
      Built da e (geo && decide (k = 0)) o := by
    rintro (_ | _ | _ | _ | k) e o he ho <;> simp at he ho
    · subst he; subst ho; simpa using built_num hcx hax
    · subst he; subst ho; simpa using built_num hcy hay
    · subst he; subst ho; simpa using zAxis4_built k1 haz
    · subst he; subst ho; simpa using built_num k2 hau
  obtain ⟨axes, h1, h2, h3, h4, h5, h6⟩ :=
    nodes hw harr (axes0 := [ax, ay, az, au]) rfl (held_of_all (dims := [d.1, d.2, zu'.1, zu'.2]) rfl hb) (n := 4) rfl (st' := r.1) (g := r.2) hr
  exact ⟨⟨[ax, ay, az, au], axes, (transpose_ok hw harr).1, rfl, hb, h1, h2, h3, h4, h5, h6⟩, d.1, d.2, zu'.1, zu'.2,
    hd, rfl⟩

/-- **C96**: `RegularGridInterpolator` (and `Grid2D`, `Grid3D`, `Grid4D` of the xarray backend): whatever the order of
the dimensions of the `DataArray` and the direction of its coordinates, and whatever the order in which Python
enumerates the set of the other dimensions, the grid has the same nodes as the `DataArray`: same coordinates along each
dimension, same value. -/
theorem C96_same_nodes (pick : List N → N) (swap : Bool) (da : DataArray N K) (inc geo : Bool) (g : XGrid N K)
    (hw : WellFormed da) (h : interpolator pick swap da inc geo = .ok g) : FromDataArray da inc geo g := by
  unfold interpolator at h
  split at h
  · exact (xgrid2D_spec hw h).1
  · exact (xgrid3D_spec hw h).1
  · exact (xgrid4D_spec hw h).1
  · cases h

theorem hasUnit_iff (units : List String) (c : Coord N K) : hasUnit units c = true ↔ ∃ u ∈ units, c.units = some u := by
  unfold hasUnit
  cases hu : c.units with
  | none => simp
  | some u => simp

theorem identify_some {da : DataArray N K} {units : List String} {d : N} (h : identify da units = some d) :
    FirstUnit da units d := by
  unfold identify at h
  simp only [Option.map_eq_some_iff] at h
  obtain ⟨c, hc, rfl⟩ := h
  obtain ⟨h1, pre, post, h2, h3⟩ := List.find?_eq_some_iff_append.mp hc
  refine ⟨pre, c, post, h2, rfl, (hasUnit_iff units c).mp h1, ?_⟩
  intro c' hc' hh
  have := h3 c' hc'
  rw [(hasUnit_iff units c').mpr hh] at this
  cases this

theorem identify_none {da : DataArray N K} {units : List String} :
    identify da units = none ↔ ∀ c ∈ da.coords, ¬ ∃ u ∈ units, c.units = some u := by
  unfold identify
  simp only [Option.map_eq_none_iff, List.find?_eq_none]
  constructor
  · intro h c hc hh
    exact h c hc ((hasUnit_iff units c).mpr hh)
  · intro h c hc hh
    exact h c hc ((hasUnit_iff units c).mp hh)

theorem interpolator_dims {pick : List N → N} {swap : Bool} {da : DataArray N K} {inc geo : Bool} {g : XGrid N K}
    (hw : WellFormed da) (h : interpolator pick swap da inc geo = .ok g) :
    ∃ x y, dimsFromDataArray da geo da.arr.shape.length = .ok (x, y) ∧ (g.dims[0]?) = some x ∧ (g.dims[1]?) = some y := by
  unfold interpolator at h
  split at h
  · rename_i e
    obtain ⟨-, x, y, h1, h2⟩ := xgrid2D_spec hw h
    rw [e, h2]; exact ⟨x, y, h1, rfl, rfl⟩
  · rename_i e
    obtain ⟨-, x, y, z, h1, h2⟩ := xgrid3D_spec hw h
    rw [e, h2]; exact ⟨x, y, h1, rfl, rfl⟩
  · rename_i e
    obtain ⟨-, x, y, z, u, h1, h2⟩ := xgrid4D_spec hw h
    rw [e, h2]; exact ⟨x, y, h1, rfl, rfl⟩
  · cases h

/-- **C96**: the X axis of a geodetic grid is the first coordinate whose unit is a unit of longitude of the CF
conventions, the Y axis the first whose unit is a unit of latitude. -/
theorem C96_geodetic (pick : List N → N) (swap : Bool) (da : DataArray N K) (inc : Bool) (g : XGrid N K)
    (hw : WellFormed da) (h : interpolator pick swap da inc true = .ok g) :
    ∃ x y, (g.dims[0]?) = some x ∧ (g.dims[1]?) = some y ∧
      FirstUnit da ["degrees_east", "degree_east", "degree_E", "degrees_E", "degreeE", "degreesE"] x ∧
      FirstUnit da ["degrees_north", "degree_north", "degree_N", "degrees_N", "degreeN", "degreesN"] y := by
  obtain ⟨x, y, h1, h2, h3⟩ := interpolator_dims hw h
  refine ⟨x, y, h2, h3, ?_⟩
  unfold dimsFromDataArray at h1
  simp only [ne_eq, not_true_eq_false, if_false, if_true] at h1
  split at h1
  · cases h1
  · rename_i lon hlon
    split at h1
    · cases h1
    · rename_i lat hlat
      cases h1
      exact ⟨identify_some hlon, identify_some hlat⟩

/-- **C96**: a `DataArray` without longitude or latitude is refused by a geodetic grid, and so is an array of one
dimension or of more than four. -/
theorem C96_refused (pick : List N → N) (swap : Bool) (da : DataArray N K) (inc : Bool) :
    ((∀ c ∈ da.coords, ¬ ∃ u ∈ longitudeUnits, c.units = some u) ∨
      (∀ c ∈ da.coords, ¬ ∃ u ∈ latitudeUnits, c.units = some u) →
      interpolator pick swap da inc true = .error .exn) ∧
    ∀ geo, da.arr.shape.length < 2 ∨ 4 < da.arr.shape.length → interpolator pick swap da inc geo = .error .exn := by
  constructor
  · intro hno
    have hd : ∀ n, dimsFromDataArray da true n = .error .exn := by
      intro n
      unfold dimsFromDataArray
      split
      · rfl
      · simp only [if_true]
        rcases hno with hno | hno
        · rw [identify_none.mpr hno]
        · cases hl : identify da longitudeUnits with
          | none => rfl
          | some lon => simp only; rw [identify_none.mpr hno]
    unfold interpolator
    split
    · unfold xgrid2D; rw [hd]; rfl
    · unfold xgrid3D; rw [hd]; rfl
    · unfold xgrid4D; rw [hd]; rfl
    · rfl
  · intro geo hl
    unfold interpolator
    split <;> first | rfl | omega

/-- **C96**: the dates of a 4-D `DataArray`: whatever the order of the enumeration of the set, a dimension of dates is the Z axis
of the grid, which is then the time axis; the U axis is never made of dates. -/
theorem C96_time {swap : Bool} {da : DataArray N K} {inc geo : Bool} {g : XGrid N K}
    (h : xgrid4D swap da inc geo = .ok g) :
    ∃ x y z u, ∃ cz ∈ da.coords, ∃ cu ∈ da.coords, g.dims = [x, y, z, u] ∧ cz.name = z ∧ cu.name = u ∧
      (∀ l, cu.values ≠ .datetime l) ∧ (g.time = some 2 ∨ g.time = none) ∧
      (g.time = some 2 ↔ ∃ l, cz.values = .datetime l) := by
  have hdt : ∀ v : Values K, v.isDatetime = true ↔ ∃ l, v = .datetime l := by
    intro v
    cases v <;> simp [Values.isDatetime]
  unfold xgrid4D at h
  obtain ⟨d, hd, h⟩ := bind_inv h
  have h' : ∃ zu : N × N, (do
      let cz ← coordOf da zu.1
      let cu ← coordOf da zu.2
      if cz.values.isDatetime && cu.values.isDatetime then throw Err.exn
      let zu := if cu.values.isDatetime then (zu.2, zu.1) else zu
      let c := if cu.values.isDatetime then (cu, cz) else (cz, cu)
      let cx ← coordOf da d.1
      let ax ← numAxis cx geo
      let cy ← coordOf da d.2
      let ay ← numAxis cy false
      let az ← zAxis4 c.1
      let au ← numAxis c.2 false
      let arr ← transpose da [d.1, d.2, zu.1, zu.2]
      let r ← init 4 (increasingOf inc) { heap := [ax, ay, az, au], refs := [0, 1, 2, 3], arr := arr }
      pure ({ dims := [d.1, d.2, zu.1, zu.2]
              time := if c.1.values.isDatetime then some 2 else none
              args := r.1, grid := r.2 } : XGrid N K)) = .ok g := by
    split at h
    · split at h
      · exact ⟨_, h⟩
      · exact ⟨_, h⟩
    · cases h
  clear h
  obtain ⟨zu, h⟩ := h'
  obtain ⟨cz, hcz, h⟩ := bind_inv h
  obtain ⟨cu, hcu, h⟩ := bind_inv h
  have hnn : ¬ ((cz.values.isDatetime && cu.values.isDatetime) = true) := by
    intro hh
    rw [if_pos hh] at h
    cases h
  rw [if_neg hnn] at h
  obtain ⟨mz, ez⟩ := coordOf_ok hcz
  obtain ⟨mu, eu⟩ := coordOf_ok hcu
  simp only at h
  by_cases hu : cu.values.isDatetime = true
  · simp only [hu, if_true] at h
    obtain ⟨cx, hcx, h⟩ := bind_inv h
    obtain ⟨ax, hax, h⟩ := bind_inv h
    obtain ⟨cy, hcy, h⟩ := bind_inv h
    obtain ⟨ay, hay, h⟩ := bind_inv h
    obtain ⟨az, haz, h⟩ := bind_inv h
    obtain ⟨au, hau, h⟩ := bind_inv h
    obtain ⟨arr, harr, h⟩ := bind_inv h
    obtain ⟨r, hr, h⟩ := bind_inv h
    cases h
    refine ⟨_, _, _, _, cu, mu, cz, mz, rfl, eu, ez, ?_, Or.inl rfl, by simpa using (hdt _).1 hu⟩
    intro l hl
    exact hnn (by rw [hu, (hdt _).2 ⟨l, hl⟩]; rfl)
  · simp only [hu] at h
    obtain ⟨cx, hcx, h⟩ := bind_inv h
    obtain ⟨ax, hax, h⟩ := bind_inv h
    obtain ⟨cy, hcy, h⟩ := bind_inv h
    obtain ⟨ay, hay, h⟩ := bind_inv h
    obtain ⟨az, haz, h⟩ := bind_inv h
    obtain ⟨au, hau, h⟩ := bind_inv h
    obtain ⟨arr, harr, h⟩ := bind_inv h
    obtain ⟨r, hr, h⟩ := bind_inv h
    cases h
    refine ⟨_, _, _, _, cz, mz, cu, mu, rfl, ez, eu, fun l hl => hu ((hdt _).2 ⟨l, hl⟩), ?_, ?_⟩
    · by_cases hz : cz.values.isDatetime = true <;> simp [hz]
    · rw [← hdt]
      by_cases hz : cz.values.isDatetime = true <;> simp [hz]

omit [DecidableEq N] [Field K] [LinearOrder K] [IsStrictOrderedRing K] [FloorRing K] in
/-- **C95**: the names of the interpolators: three names, each for its own method, anything else is refused. -/
theorem C95_names (s : String) :
    (s = "bilinear" ∧ parseName s.toList = .ok .bilinear) ∨ (s = "nearest" ∧ parseName s.toList = .ok .nearest) ∨
      (s = "inverse_distance_weighting" ∧ parseName s.toList = .ok .idw) ∨
      (s ≠ "bilinear" ∧ s ≠ "nearest" ∧ s ≠ "inverse_distance_weighting" ∧ parseName s.toList = .error .exn) := by
  have inj : ∀ t : String, s.toList = t.toList ↔ s = t := fun t => String.toList_inj
  unfold parseName
  simp only [inj]
  by_cases h1 : s = "bilinear"
  · left; simp [h1]
  by_cases h2 : s = "nearest"
  · right; left; simp [h2]
  by_cases h3 : s = "inverse_distance_weighting"
  · right; right; left; simp [h3]
  · right; right; right; simp [h1, h2, h3]

end
end Pyinterp.GridPy

/-! ### Examples -/
namespace Pyinterp.GridPy
open Pyinterp Variate Pyinterp.Spec Pyinterp.Spec.GridPy

/-- A field `(time, lat, lon)` with decreasing latitudes; `x` is a coordinate without unit. -/
def exDa : DataArray String ℚ :=
  { dims := ["time", "lat", "lon"]
    arr := { shape := [2, 3, 2], at' := fun i => some (100 * (i.getD 0 0 : ℚ) + 10 * (i.getD 1 0 : ℚ) + (i.getD 2 0 : ℚ)) }
    coords := [⟨"time", none, 1, .datetime [5, 9]⟩, ⟨"lat", some "degrees_north", 1, .num [50, 40, 10]⟩,
      ⟨"lon", some "degrees_east", 1, .num [0, 5]⟩] }

/-- the dimensions, the coordinates and the value of a node -/
def probeX {N : Type} (r : Out (XGrid N ℚ)) (j : List Nat) : Option (List N × List (Out (ℚ ⊕ Int)) × Option ℚ) :=
  match r with
  | .error _ => none
  | .ok g =>
    match deref g.args.heap g.args.refs with
    | .error _ => none
    | .ok axes => some (g.dims, labels axes j, g.args.arr.at' j)

theorem probeX_ok {N : Type} {r : Out (XGrid N ℚ)} {j : List Nat} {v} (h : probeX r j = some v) : ∃ g, r = .ok g := by
  unfold probeX at h
  split at h
  · cases h
  · exact ⟨_, rfl⟩

example : probeX (interpolator (fun l => l.headD "") false exDa true true) [1, 0, 1] =
    some (["lon", "lat", "time"], [.ok (.inl 5), .ok (.inl 10), .ok (.inr 9)], some 121) := by decide +kernel

example : WellFormed exDa := ⟨by decide, rfl⟩

example : ∃ g, interpolator (fun l => l.headD "") false exDa true true = .ok g ∧ FromDataArray exDa true true g := by
  obtain ⟨g, hg⟩ := probeX_ok (r := interpolator (fun l => l.headD "") false exDa true true) (j := [1, 0, 1])
    (v := (["lon", "lat", "time"], [.ok (.inl 5), .ok (.inl 10), .ok (.inr 9)], some 121)) (by decide +kernel)
  exact ⟨g, hg, C96_same_nodes _ _ _ _ _ _ ⟨by decide, rfl⟩ hg⟩

/-- A field `(x, y, time, depth)`. -/
def exDaDepth : DataArray String ℚ :=
  { dims := ["x", "y", "time", "depth"]
    arr := { shape := [2, 2, 2, 2], at' := fun i => some (i.getD 3 0 : ℚ) }
    coords := [⟨"x", none, 1, .num [0, 1]⟩, ⟨"y", none, 1, .num [0, 1]⟩, ⟨"time", none, 1, .datetime [5, 9]⟩,
      ⟨"depth", none, 1, .num [0, 50]⟩] }

/- The time axis is the Z axis in the two orders of the set. -/
example : probeX (xgrid4D false exDaDepth false false) [0, 0, 1, 0] =
      some (["x", "y", "time", "depth"], [.ok (.inl 0), .ok (.inl 0), .ok (.inr 9), .ok (.inl 0)], some 0) := by
  decide +kernel

example : probeX (xgrid4D true exDaDepth false false) [0, 0, 1, 0] =
      some (["x", "y", "time", "depth"], [.ok (.inl 0), .ok (.inl 0), .ok (.inr 9), .ok (.inl 0)], some 0) := by
  decide +kernel

example : interpolator (fun l => l.headD "") false { exDa with coords := exDa.coords.take 2 } true true = .error .exn :=
  (C96_refused _ _ _ _).1 (Or.inl (by decide +kernel))

end Pyinterp.GridPy
