import Verif.Props.C96_XArray
import Verif.Props.C48_Grid34

/-
C97 – calls of `RegularGridInterpolator` (backends/xarray.py).
-/
namespace Pyinterp.GridPy
open Pyinterp Variate Pyinterp.Spec Pyinterp.Spec.GridPy
set_option linter.unusedSectionVars false
set_option linter.unusedVariables false

section
variable {N : Type} [DecidableEq N] {V : Type}

theorem lookup_ok {coords : List (N × V)} (hn : (coords.map Prod.fst).Nodup) {d : N} {v : V} :
    lookup coords d = .ok v ↔ (d, v) ∈ coords := by
  unfold lookup
  constructor
  · intro h
    split at h
    · cases h
    · rename_i p hp
      cases h
      have h1 := List.mem_of_find?_eq_some hp
      have h2 : p.1 = d := by simpa using List.find?_some hp
      rw [← h2]; exact h1
  · intro h
    split
    · rename_i hp
      have := List.find?_eq_none.mp hp _ h
      simp at this
    · rename_i p hp
      have h1 := List.mem_of_find?_eq_some hp
      have h2 : p.1 = d := by simpa using List.find?_some hp
      have : p = (d, v) := List.inj_on_of_nodup_map hn h1 h h2
      rw [this]

theorem lookups_ok {coords : List (N × V)} (hn : (coords.map Prod.fst).Nodup) {dims : List N} {vals : List V} :
    lookups coords dims = .ok vals ↔ vals.length = dims.length ∧ ∀ p ∈ dims.zip vals, p ∈ coords := by
  induction dims generalizing vals with
  | nil =>
    simp only [lookups, Except.ok.injEq]
    constructor
    · rintro rfl; simp
    · rintro ⟨h, -⟩
      exact (List.length_eq_zero_iff.mp (by simpa using h)).symm
  | cons d dims ih =>
    simp only [lookups]
    constructor
    · intro h
      obtain ⟨v, hv, h⟩ := bind_inv h
      obtain ⟨rest, hr, h⟩ := bind_inv h
      cases h
      obtain ⟨h1, h2⟩ := ih.mp hr
      refine ⟨by simp [h1], ?_⟩
      intro p hp
      simp only [List.zip_cons_cons, List.mem_cons] at hp
      rcases hp with rfl | hp
      · exact (lookup_ok hn).mp hv
      · exact h2 p hp
    · rintro ⟨h1, h2⟩
      cases vals with
      | nil => simp at h1
      | cons v vals =>
        have hv := (lookup_ok hn).mpr (h2 (d, v) (by simp))
        have hr := ih.mpr ⟨by simpa using h1, fun p hp => h2 p (by simp [hp])⟩
        simp [hv, hr, bind, Except.bind, pure, Except.pure]

/-- **C97**: the coordinates of a point are given by name: the interpolation receives the values `vals` in the order of
the dimensions of the grid if and only if the dictionary contains exactly the pairs (dimension, value), in any order; any
other dictionary (a missing name, a name that is not a dimension) is refused by an exception. -/
theorem C97_coords (coords : List (N × V)) (dims : List N) (hn : (coords.map Prod.fst).Nodup) (hd : dims.Nodup) :
    (∀ vals, coordsOf coords dims = .ok vals ↔ vals.length = dims.length ∧ coords.Perm (dims.zip vals)) ∧
    (¬ (coords.map Prod.fst).Perm dims → coordsOf coords dims = .error .exn) := by
  have zipnd : ∀ vals : List V, vals.length = dims.length → (dims.zip vals).Nodup := by
    intro vals hl
    apply List.Nodup.of_map Prod.fst
    rw [List.map_fst_zip (by omega)]
    exact hd
  constructor
  · intro vals
    unfold coordsOf
    constructor
    · intro h
      split at h
      · cases h
      rename_i h1
      split at h
      · cases h
      rename_i h2
      obtain ⟨h3, h4⟩ := (lookups_ok hn).mp h
      refine ⟨h3, List.Perm.symm ?_⟩
      apply (List.subperm_of_subset (zipnd vals h3) h4).perm_of_length_le
      simp only [List.length_zip]
      omega
    · rintro ⟨h1, h2⟩
      have hl := h2.length_eq
      simp only [List.length_zip] at hl
      rw [if_neg (by omega), if_neg]
      · exact (lookups_ok hn).mpr ⟨h1, fun p hp => h2.symm.subset hp⟩
      · rintro ⟨p, hp, hnp⟩
        have := List.of_mem_zip (h2.subset hp)
        exact hnp this.1
  · intro hnp
    unfold coordsOf
    split
    · rfl
    rename_i h1
    split
    · rfl
    rename_i h2
    exfalso
    apply hnp
    push Not at h2
    refine (List.subperm_of_subset hn ?_).perm_of_length_le ?_
    · intro d hd'
      obtain ⟨p, hp, rfl⟩ := List.mem_map.mp hd'
      exact h2 p hp
    · simp; omega

end

section
variable {K : Type} [Field K] [LinearOrder K] [IsStrictOrderedRing K] [FloorRing K]
variable {N : Type} [DecidableEq N]

/-- `v` is the coordinate number `i` of the axis; on a circle, up to whole turns. -/
def At (circle : Bool) (o : AxisObj K) (i : Nat) (v : K ⊕ Int) : Prop :=
  ∃ w, o.item i = .ok w ∧ (v = w ∨ circle = true ∧ ∃ (a : K) (t : ℤ), w = .inl a ∧ v = .inl (a + (t : K) * 360))

section
variable {T : Type} [CommRing T] [LinearOrder T] [IsStrictOrderedRing T] [AxisNum T] [LawfulAxisNum T]

theorem initialize_circle {it : Bool} {c : Option T} {v : List T} {eps : T} {a : Axis T}
    (h : initializeFromValues it c v eps = .ok a) : a.circle = c := by
  unfold initializeFromValues at h
  split at h
  · obtain ⟨k, hk, h⟩ := bind_inv h
    exact (computeProperties_ok h).2.1
  · obtain ⟨k, hk, h⟩ := bind_inv h
    exact (computeProperties_ok h).2.1

theorem mkAxis_angle {it b : Bool} {v : List T} {eps : T} {a : Axis T} (h : mkAxis it v eps b = .ok a) :
    a.isAngle = b := by
  unfold mkAxis at h
  unfold Axis.isAngle
  cases b
  · simp only [Bool.false_eq_true, if_false] at h
    rw [initialize_circle h]; rfl
  · simp only [if_true] at h
    split at h <;> (rw [initialize_circle h]; rfl)
end


theorem len_2 {α : Type} {l : List α} (h : l.length = 2) : ∃ a b, l = [a, b] := List.length_eq_two.mp h

theorem len_3 {α : Type} {l : List α} (h : l.length = 3) : ∃ a b c, l = [a, b, c] := List.length_eq_three.mp h

theorem len_4 {α : Type} {l : List α} (h : l.length = 4) : ∃ a b c d, l = [a, b, c, d] := by
  match l, h with
  | [a, b, c, d], _ => exact ⟨a, b, c, d, rfl⟩

/-- What the interpolation needs to know of a float axis of the grid. -/
structure ReadyF (a : Axis K) (c : Bool) (l : List K) : Prop where
  reach : Reach false a
  angle : a.isAngle = c
  coords : Coordinates a l
  incr : l.Pairwise (· < ·)
  two : 2 ≤ l.length

structure ReadyT (a : Axis Int) (l : List Int) : Prop where
  reach : ReachI a
  angle : a.isAngle = false
  coords : Coordinates a l
  two : 2 ≤ l.length

theorem flip_angle {T : Type} [LinearOrder T] [AddCommGroup T] [AxisNum T] (a : Axis T) :
    a.flip.isAngle = a.isAngle := rfl

theorem incr_if {o0 : AxisObj K} (h : OInv o0) :
    OInv (if o0.isAscending then o0 else o0.flip) ∧ Incr (if o0.isAscending then o0 else o0.flip) ∧
      (if o0.isAscending then o0 else o0.flip).size = o0.size := by
  by_cases ha : o0.isAscending = true
  · rw [if_pos ha]; exact ⟨h, incr_asc h ha, rfl⟩
  · rw [if_neg ha]
    obtain ⟨f1, f2⟩ := flip_coords h
    refine ⟨f1, incr_of_reverse h (by simpa using ha) f2, ?_⟩
    rw [size_coords f1, size_coords h, f2, List.length_reverse]

theorem ready_float {da : DataArray N K} {d : N} {c : Bool} {o0 : AxisObj K} {a : Axis K} (hb : Built da d c o0)
    (h2 : 2 ≤ o0.size) (ho : .float a = if o0.isAscending then o0 else o0.flip) : ∃ l, ReadyF a c l := by
  obtain ⟨h1, h3, h4⟩ := incr_if (held_inv (held_of_built hb))
  rw [← ho] at h1 h3 h4
  have hc := (ContInv.stores h1).coordinates
  have hl : 2 ≤ (contList a.cont).length := by
    have := hc.1
    have h5 : a.size = o0.size := h4
    omega
  have hra : Reach false a ∧ a.isAngle = c := by
    obtain ⟨co, -, -, -, hb⟩ := hb
    split at hb
    · obtain ⟨a0, h1, rfl⟩ := hb
      have r0 : Reach false a0 := .values _ _ _ _ (by norm_num) h1
      have e0 := mkAxis_angle h1
      by_cases ha : (AxisObj.float a0).isAscending = true
      · rw [if_pos ha] at ho; cases ho; exact ⟨r0, e0⟩
      · rw [if_neg ha] at ho
        cases ho; exact ⟨.flip _ r0, e0⟩
    · obtain ⟨a0, h1, rfl⟩ := hb
      split at ho <;> cases ho
    · obtain ⟨a0, h1, rfl⟩ := hb
      split at ho <;> cases ho
  exact ⟨_, hra.1, hra.2, hc, h3, hl⟩

theorem ready_time {da : DataArray N K} {d : N} {c : Bool} {o0 : AxisObj K} {a : Axis Int} (hb : Built da d c o0)
    (h2 : 2 ≤ o0.size) (ht : ∀ a0, o0 = .time a0 → a0.isRegular = true → a0.cont.isAscending = true)
    (ho : .time a = if o0.isAscending then o0 else o0.flip) : ∃ l, ReadyT a l := by
  obtain ⟨h1, h3, h4⟩ := incr_if (held_inv (held_of_built hb))
  rw [← ho] at h1 h3 h4
  have hc := (ContInv.stores h1).coordinates
  have hl : 2 ≤ (contList a.cont).length := by
    have := hc.1
    have h5 : a.size = o0.size := h4
    omega
  have key : ∀ l a0, mkAxis true l 0 false = .ok a0 → o0 = .time a0 → ReachI a ∧ a.isAngle = false := by
    rintro l a0 h1 rfl
    have r0 : ReachI a0 := .values _ 0 false _ (le_refl 0) h1 (ht a0 rfl)
    have e0 := mkAxis_angle h1
    by_cases ha : (AxisObj.time a0 : AxisObj K).isAscending = true
    · rw [if_pos ha] at ho; cases ho; exact ⟨r0, e0⟩
    · rw [if_neg ha] at ho
      cases ho; exact ⟨.flip _ r0, e0⟩
  have hra : ReachI a ∧ a.isAngle = false := by
    obtain ⟨co, -, -, -, hb⟩ := hb
    split at hb
    · obtain ⟨a0, h1, rfl⟩ := hb
      split at ho <;> cases ho
    · obtain ⟨a0, h1, e⟩ := hb
      exact key _ _ h1 e
    · obtain ⟨a0, h1, e⟩ := hb
      exact key _ _ h1 e
  exact ⟨_, hra.1, hra.2, hc, hl⟩

theorem item_float {a : Axis K} {l : List K} (hc : Coordinates a l) {i : Nat} (hi : i < l.length) {w : K ⊕ Int}
    (h : (AxisObj.float a).item i = .ok w) : w = .inl l[i] := by
  simp only [AxisObj.item, hc.2 i hi] at h
  exact (by cases h; rfl)

theorem item_time {a : Axis Int} {l : List Int} (hc : Coordinates a l) {i : Nat} (hi : i < l.length) {w : K ⊕ Int}
    (h : (AxisObj.time a : AxisObj K).item i = .ok w) : w = .inr l[i] := by
  simp only [AxisObj.item, hc.2 i hi] at h
  exact (by cases h; rfl)

theorem onTurn_self {T : Type} [CommRing T] [LinearOrder T] [AxisNum T] {a : Axis T} {l : List T} (ha : a.isAngle = false)
    (x : T) : OnTurn a l x x := ⟨fun _ => rfl, fun h => (by rw [ha] at h; cases h)⟩

theorem onTurn_x {a : Axis K} {l : List K} {c : Bool} (hr : ReadyF a c l)
    (hturn : c = true → ∀ v ∈ l, ∀ w ∈ l, w < v + 360) {i : Nat} (hi : i < l.length) {x : K}
    (hx : x = l[i] ∨ c = true ∧ ∃ t : ℤ, x = l[i] + (t : K) * 360) : OnTurn a l x l[i] := by
  constructor
  · intro ha
    rw [hr.angle] at ha
    rcases hx with rfl | ⟨hc, -⟩
    · rfl
    · rw [hc] at ha; cases ha
  · intro ha
    rw [hr.angle] at ha
    refine ⟨fun v hv hmin => ⟨hmin _ (List.getElem_mem hi), hturn ha v hv _ (List.getElem_mem hi)⟩, ?_⟩
    rcases hx with rfl | ⟨-, t, rfl⟩
    · exact ⟨0, by simp⟩
    · exact ⟨-t, by push_cast; ring⟩

/-- The coordinates of a `DataArray` along the X axis of a geodetic grid span less than one turn. -/
def OneTurn (da : DataArray N K) (d : N) : Prop :=
  ∀ a l, Built da d true (.float a) → Coordinates a l → ∀ v ∈ l, ∀ w ∈ l, w < v + 360

theorem onlyTurn_flip {da : DataArray N K} {d : N} (h1 : OneTurn da d) {o0 : AxisObj K} {a : Axis K} {l : List K}
    (hb : Built da d true o0) (ho : .float a = if o0.isAscending then o0 else o0.flip) (hc : Coordinates a l) :
    ∀ v ∈ l, ∀ w ∈ l, w < v + 360 := by
  have hinv := held_inv (held_of_built hb)
  by_cases ha : o0.isAscending = true
  · rw [if_pos ha] at ho
    exact h1 a l (ho ▸ hb) hc
  · rw [if_neg ha] at ho
    cases o0 with
    | time b => cases ho
    | float b =>
      cases ho
      obtain ⟨f1, f2⟩ := flip_coords hinv
      have hcb := (ContInv.stores hinv).coordinates
      have hcf := (ContInv.stores f1).coordinates
      have := h1 b _ hb hcb
      have e : l = contList b.flip.cont := by
        have hs := hc.1
        have hs' := hcf.1
        apply List.ext_getElem (by omega)
        intro i h3 h4
        have h5 := hc.2 i h3
        rw [hcf.2 i h4] at h5
        exact (Except.ok.inj h5).symm
      have e2 : contList b.flip.cont = (contList b.cont).reverse := by
        have := f2
        simp only [AxisObj.flip, coordsL, ← List.map_reverse] at this
        exact List.map_injective_iff.mpr Sum.inl_injective this
      rw [e, e2]
      intro v hv w hw
      exact this v (List.mem_reverse.mp hv) w (List.mem_reverse.mp hw)

/-- **C97**: at a node of the `DataArray` whose values are all defined, the linear interpolation gives the value of the
`DataArray` at this node: whatever the order of the dimensions, the direction of the coordinates (with increasing_axes),
the order in which the coordinates of the point are given, and the turn of the longitude of a geodetic grid. The axes
have at least two coordinates, the longitudes span less than one turn, and no time axis is both regular and decreasing
(see `C97_decreasing_time_false`). -/
theorem C97_node_partial (pick : List N → N) (swap : Bool) (da : DataArray N K) (geo : Bool) (g : XGrid N K)
    (hw : WellFormed da) (h : interpolator pick swap da true geo = .ok g)
    (h2 : ∀ d b o, Built da d b o → 2 ≤ o.size)
    (ht : ∀ d b a, Built da d b (.time a) → a.isRegular = true → a.cont.isAscending = true)
    (hturn : ∀ x, geo = true → (g.dims[0]?) = some x → OneTurn da x)
    (hdef : ∀ pos, Node da pos → (isel da pos).isSome)
    (pos : N → Nat) (hpos : Node da pos) (coords : List (N × (K ⊕ Int)))
    (hkeys : (coords.map Prod.fst).Perm da.dims)
    (hval : ∀ (k : Nat) d v o, g.dims[k]? = some d → (d, v) ∈ coords → Built da d (geo && decide (k = 0)) o →
      At (geo && decide (k = 0)) o (pos d) v)
    (be : Bool) :
    call .bilinear .linear .linear g coords be = .ok (isel da pos) := by
  obtain ⟨axes0, axes, hp, hl0, hb, hd, hcon, -, hax, hf, hbk⟩ := C96_same_nodes pick swap da true geo g hw h
  simp only [if_true] at hax
  obtain ⟨j, hj, hlab, hat⟩ := hf pos hpos
  have hgd : g.dims.Nodup := hp.nodup_iff.mpr hw.1
  have hkn : (coords.map Prod.fst).Nodup := hkeys.nodup_iff.mpr hw.1
  -- the values in the order of the dimensions
  have hkg : ∀ d ∈ g.dims, ∃ v, (d, v) ∈ coords := by
    intro d hd'
    have : d ∈ coords.map Prod.fst := hkeys.symm.subset (hp.subset hd')
    obtain ⟨p, hp', rfl⟩ := List.mem_map.mp this
    exact ⟨p.2, hp'⟩
  have hvals : ∃ vals, coordsOf coords g.dims = .ok vals := by
    have : ∀ dims : List N, (∀ d ∈ dims, ∃ v, (d, v) ∈ coords) →
        ∃ vals : List (K ⊕ Int), vals.length = dims.length ∧ ∀ p ∈ dims.zip vals, p ∈ coords := by
      intro dims
      induction dims with
      | nil => intro _; exact ⟨[], rfl, by simp⟩
      | cons d dims ih =>
        intro hh
        obtain ⟨v, hv⟩ := hh d (by simp)
        obtain ⟨vals, e1, e2⟩ := ih (fun d hd => hh d (by simp [hd]))
        refine ⟨v :: vals, by simp [e1], ?_⟩
        intro p hp'
        simp only [List.zip_cons_cons, List.mem_cons] at hp'
        rcases hp' with rfl | hp'
        · exact hv
        · exact e2 p hp'
    obtain ⟨vals, e1, e2⟩ := this g.dims hkg
    refine ⟨vals, ((C97_coords coords g.dims hkn hgd).1 vals).mpr ⟨e1, List.Perm.symm ?_⟩⟩
    have znd : (g.dims.zip vals).Nodup := by
      apply List.Nodup.of_map Prod.fst
      rw [List.map_fst_zip (by omega)]
      exact hgd
    apply (List.subperm_of_subset znd e2).perm_of_length_le
    have := hkeys.length_eq
    have := hp.length_eq
    simp only [List.length_map, List.length_zip] at *
    omega
  obtain ⟨vals, hvals⟩ := hvals
  obtain ⟨hvl, hvp⟩ := ((C97_coords coords g.dims hkn hgd).1 vals).mp hvals
  unfold call
  simp only [hvals, bind, Except.bind]
  -- each axis
  have hal : axes.length = g.dims.length := by rw [hax, List.length_map]; exact hl0
  obtain ⟨-, hsl, hsz⟩ := construct_shape hcon
  have hjl : j.length = g.dims.length := by rw [hj.1]; exact hsl
  have key : ∀ (k : Nat) o v jk, axes[k]? = some o → vals[k]? = some v → j[k]? = some jk →
      ∃ d o0, g.dims[k]? = some d ∧ Built da d (geo && decide (k = 0)) o0 ∧ 2 ≤ o0.size ∧
        o = (if o0.isAscending then o0 else o0.flip) ∧ (jk : Int) < o.size ∧
        ∃ w, o.item jk = .ok w ∧ (v = w ∨ (geo && decide (k = 0)) = true ∧
          ∃ (a : K) (t : ℤ), w = .inl a ∧ v = .inl (a + (t : K) * 360)) := by
    intro k o v jk ho hv hjk
    obtain ⟨hk, hko⟩ := List.getElem?_eq_some_iff.mp ho
    have hkd : k < g.dims.length := by omega
    have hk0 : k < axes0.length := by omega
    have hB := hb k g.dims[k] axes0[k] (List.getElem?_eq_getElem hkd) (List.getElem?_eq_getElem hk0)
    refine ⟨g.dims[k], axes0[k], List.getElem?_eq_getElem hkd, hB, h2 _ _ _ hB, ?_, ?_, ?_⟩
    · have : axes[k]? = some (if axes0[k].isAscending then axes0[k] else axes0[k].flip) := by
        rw [hax, List.getElem?_map, List.getElem?_eq_getElem hk0]; rfl
      rw [ho] at this
      exact Option.some.inj this
    · obtain ⟨hjk1, hjk2⟩ := List.getElem?_eq_some_iff.mp hjk
      have hks : k < g.args.arr.shape.length := by omega
      have h5 := hj.2 k hjk1 hks
      rw [hsz k o _ ho (List.getElem?_eq_getElem hks), ← hjk2]
      exact_mod_cast h5
    · have hmem : (g.dims[k], v) ∈ coords := by
        apply hvp.symm.subset
        obtain ⟨hkv, hkv'⟩ := List.getElem?_eq_some_iff.mp hv
        rw [← hkv']
        have hz : k < (g.dims.zip vals).length := by simp; omega
        have := List.getElem_mem hz
        rwa [List.getElem_zip] at this
      obtain ⟨w, hw1, hw2⟩ := hval k g.dims[k] v axes0[k] (List.getElem?_eq_getElem hkd) hmem hB
      refine ⟨w, ?_, hw2⟩
      have e := congrArg (fun l => l[k]?) hlab
      simp only [labels, List.getElem?_zipWith, ho, hjk, List.getElem?_map, List.getElem?_eq_getElem hkd,
        List.getElem?_eq_getElem hk0, Option.map_some] at e
      rw [Option.some.inj e]
      exact hw1
  -- every node of the grid is defined
  have hall : ∀ i, ValidIndex g.args.arr.shape i → (g.args.arr.at' i).isSome := by
    intro i hi
    obtain ⟨p, hp1, -, hp2⟩ := hbk i hi
    rw [hp2]; exact hdef p hp1
  rw [← hat]
  generalize hgg : g.grid = gg at hcon ⊢
  generalize harr : g.args.arr = arr at *
  have lenLt : ∀ {a : Axis K} {l : List K} {i : Nat}, Coordinates a l → ((i : Nat) : Int) < a.size → i < l.length := by
    intro a l i hc hi; have := hc.1; omega
  have lenLtT : ∀ {a : Axis Int} {l : List Int} {i : Nat}, Coordinates a l → ((i : Nat) : Int) < a.size → i < l.length := by
    intro a l i hc hi; have := hc.1; omega
  have fl : ∀ (k : Nat) a v jk, axes[k]? = some (.float a) → vals[k]? = some v → j[k]? = some jk →
      ∃ (l : List K) (_ : ReadyF a (geo && decide (k = 0)) l) (hi : jk < l.length) (x : K), v = .inl x ∧
        OnTurn a l x l[jk] ∧ (k ≠ 0 → x = l[jk]) ∧ a.size = l.length := by
    intro k a v jk ho hv hjk
    obtain ⟨d, o0, hdk, hB, hs, hoo, hlt, w, hw1, hw2⟩ := key k _ v jk ho hv hjk
    obtain ⟨l, hr⟩ := ready_float hB hs hoo
    have hi := lenLt hr.coords hlt
    have ew := item_float hr.coords hi hw1
    subst ew
    have hx : ∃ x, v = .inl x ∧ (x = l[jk] ∨ (geo && decide (k = 0)) = true ∧ ∃ t : ℤ, x = l[jk] + (t : K) * 360) := by
      rcases hw2 with rfl | ⟨hc, a', t, e1, rfl⟩
      · exact ⟨_, rfl, Or.inl rfl⟩
      · cases e1
        exact ⟨_, rfl, Or.inr ⟨hc, t, rfl⟩⟩
    obtain ⟨x, rfl, hx⟩ := hx
    refine ⟨l, hr, hi, x, rfl, onTurn_x hr ?_ hi hx, ?_, hr.coords.1⟩
    · intro hc
      simp only [Bool.and_eq_true, decide_eq_true_eq] at hc
      obtain ⟨hgeo, rfl⟩ := hc
      exact onlyTurn_flip (hturn d hgeo hdk) (by simpa [hgeo] using hB) hoo hr.coords
    · intro hk
      rcases hx with h | ⟨hc, -⟩
      · exact h
      · simp [hk] at hc
  have tm : ∀ (k : Nat) a v jk, axes[k]? = some (.time a) → vals[k]? = some v → j[k]? = some jk →
      ∃ (l : List Int) (_ : ReadyT a l) (hi : jk < l.length), v = .inr l[jk] ∧ a.size = l.length := by
    intro k a v jk ho hv hjk
    obtain ⟨d, o0, hdk, hB, hs, hoo, hlt, w, hw1, hw2⟩ := key k _ v jk ho hv hjk
    obtain ⟨l, hr⟩ := ready_time hB hs (fun a0 e => ht d _ a0 (e ▸ hB)) hoo
    have hi := lenLtT hr.coords hlt
    have ew := item_time hr.coords hi hw1
    subst ew
    refine ⟨l, hr, hi, ?_, hr.coords.1⟩
    rcases hw2 with rfl | ⟨hc, a', t, e1, rfl⟩
    · rfl
    · cases e1
  have hvl' : vals.length = axes.length := by omega
  have hjl' : j.length = axes.length := by omega
  clear key hf hbk hlab hvp hvals hval hkg hax hb hl0 hdef hgg harr
  unfold construct at hcon
  split at hcon
  · rename_i ax ay _
    obtain ⟨g', hg', hcon⟩ := bind_inv hcon
    cases hcon
    obtain ⟨v0, v1, rfl⟩ := len_2 (show vals.length = 2 from hvl')
    obtain ⟨j0, j1, rfl⟩ := len_2 (show j.length = 2 from hjl')
    obtain ⟨lx, rx, hx, x, rfl, tx, -, sx⟩ := fl 0 ax v0 j0 rfl rfl rfl
    obtain ⟨ly, ry, hy, y, rfl, ty, ey, sy⟩ := fl 1 ay v1 j1 rfl rfl rfl
    obtain rfl := ey (by simp)
    obtain ⟨-, -, -, -, nx, ny, hs, h3, h4⟩ := mkGrid2D_ok hg'
    refine C47_node_partial ax ay arr g' lx ly rx.reach ry.reach rx.coords ry.coords hg' rx.two ry.two j0 j1 hx hy x be
      tx ty (fun _ => Or.inl rx.incr) ?_
    intro i k _ _ _ _ hi hk
    apply hall
    rw [hs]
    refine ⟨rfl, ?_⟩
    rintro (_ | _ | n) h5 h6 <;> simp at h5 ⊢ <;> omega
  · rename_i ax ay az _
    obtain ⟨g', hg', hcon⟩ := bind_inv hcon
    cases hcon
    obtain ⟨v0, v1, v2, rfl⟩ := len_3 (show vals.length = 3 from hvl')
    obtain ⟨j0, j1, j2, rfl⟩ := len_3 (show j.length = 3 from hjl')
    obtain ⟨lx, rx, hx, x, rfl, tx, -, sx⟩ := fl 0 ax v0 j0 rfl rfl rfl
    obtain ⟨ly, ry, hy, y, rfl, ty, ey, sy⟩ := fl 1 ay v1 j1 rfl rfl rfl
    obtain ⟨lz, rz, hz, z, rfl, tz, ez, sz⟩ := fl 2 az v2 j2 rfl rfl rfl
    obtain rfl := ey (by simp)
    obtain rfl := ez (by simp)
    obtain ⟨-, -, -, -, -, -, nx, ny, nz, hs, h3, h4, h5⟩ := mkGrid3D_ok hg'
    refine C48_node_partial ax ay az arr g' lx ly lz rx.reach ry.reach rz.reach rx.coords ry.coords rz.coords hg' rx.two
      ry.two rz.two j0 j1 j2 hx hy hz x be tx ty tz (fun _ => Or.inl rx.incr) ?_
    intro i k m _ _ _ _ _ _ hi hk hm
    apply hall
    rw [hs]
    refine ⟨rfl, ?_⟩
    rintro (_ | _ | _ | n) h6 h7 <;> simp at h6 ⊢ <;> omega
  · rename_i ax ay az _
    obtain ⟨g', hg', hcon⟩ := bind_inv hcon
    cases hcon
    obtain ⟨v0, v1, v2, rfl⟩ := len_3 (show vals.length = 3 from hvl')
    obtain ⟨j0, j1, j2, rfl⟩ := len_3 (show j.length = 3 from hjl')
    obtain ⟨lx, rx, hx, x, rfl, tx, -, sx⟩ := fl 0 ax v0 j0 rfl rfl rfl
    obtain ⟨ly, ry, hy, y, rfl, ty, ey, sy⟩ := fl 1 ay v1 j1 rfl rfl rfl
    obtain ⟨lz, rz, hz, rfl, sz⟩ := tm 2 az v2 j2 rfl rfl rfl
    obtain rfl := ey (by simp)
    obtain ⟨-, -, -, -, -, -, nx, ny, nz, hs, h3, h4, h5⟩ := mkGrid3D_ok hg'
    refine C48_node_partial ax ay az arr g' lx ly lz rx.reach ry.reach rz.reach rx.coords ry.coords rz.coords hg' rx.two
      ry.two rz.two j0 j1 j2 hx hy hz x be tx ty (onTurn_self rz.angle _) (fun _ => Or.inl rx.incr) ?_
    intro i k m _ _ _ _ _ _ hi hk hm
    apply hall
    rw [hs]
    refine ⟨rfl, ?_⟩
    rintro (_ | _ | _ | n) h6 h7 <;> simp at h6 ⊢ <;> omega
  · rename_i ax ay az au _
    obtain ⟨g', hg', hcon⟩ := bind_inv hcon
    cases hcon
    obtain ⟨v0, v1, v2, v3, rfl⟩ := len_4 (show vals.length = 4 from hvl')
    obtain ⟨j0, j1, j2, j3, rfl⟩ := len_4 (show j.length = 4 from hjl')
    obtain ⟨lx, rx, hx, x, rfl, tx, -, sx⟩ := fl 0 ax v0 j0 rfl rfl rfl
    obtain ⟨ly, ry, hy, y, rfl, ty, ey, sy⟩ := fl 1 ay v1 j1 rfl rfl rfl
    obtain ⟨lz, rz, hz, z, rfl, tz, ez, sz⟩ := fl 2 az v2 j2 rfl rfl rfl
    obtain ⟨lu, ru, hu, u, rfl, tu, eu, su⟩ := fl 3 au v3 j3 rfl rfl rfl
    obtain rfl := ey (by simp)
    obtain rfl := ez (by simp)
    obtain rfl := eu (by simp)
    obtain ⟨-, -, -, -, -, -, -, -, nx, ny, nz, nu, hs, h3, h4, h5, h6⟩ := mkGrid4D_ok hg'
    refine C48_quad_node_partial ax ay az au arr g' lx ly lu lz rx.reach ry.reach rz.reach ru.reach rx.coords ry.coords
      rz.coords ru.coords hg' rx.two ry.two rz.two ru.two j0 j1 j2 j3 hx hy hz hu x be tx ty tz tu
      (fun _ => Or.inl rx.incr) ?_
    intro i k m n _ _ _ _ _ _ _ _ hi hk hm hn
    apply hall
    rw [hs]
    refine ⟨rfl, ?_⟩
    rintro (_ | _ | _ | _ | n) h7 h8 <;> simp at h7 ⊢ <;> omega
  · rename_i ax ay az au _
    obtain ⟨g', hg', hcon⟩ := bind_inv hcon
    cases hcon
    obtain ⟨v0, v1, v2, v3, rfl⟩ := len_4 (show vals.length = 4 from hvl')
    obtain ⟨j0, j1, j2, j3, rfl⟩ := len_4 (show j.length = 4 from hjl')
    obtain ⟨lx, rx, hx, x, rfl, tx, -, sx⟩ := fl 0 ax v0 j0 rfl rfl rfl
    obtain ⟨ly, ry, hy, y, rfl, ty, ey, sy⟩ := fl 1 ay v1 j1 rfl rfl rfl
    obtain ⟨lz, rz, hz, rfl, sz⟩ := tm 2 az v2 j2 rfl rfl rfl
    obtain ⟨lu, ru, hu, u, rfl, tu, eu, su⟩ := fl 3 au v3 j3 rfl rfl rfl
    obtain rfl := ey (by simp)
    obtain rfl := eu (by simp)
    obtain ⟨-, -, -, -, -, -, -, -, nx, ny, nz, nu, hs, h3, h4, h5, h6⟩ := mkGrid4D_ok hg'
    refine C48_quad_node_partial ax ay az au arr g' lx ly lu lz rx.reach ry.reach rz.reach ru.reach rx.coords ry.coords
      rz.coords ru.coords hg' rx.two ry.two rz.two ru.two j0 j1 j2 j3 hx hy hz hu x be tx ty (onTurn_self rz.angle _) tu
      (fun _ => Or.inl rx.incr) ?_
    intro i k m n _ _ _ _ _ _ _ _ hi hk hm hn
    apply hall
    rw [hs]
    refine ⟨rfl, ?_⟩
    rintro (_ | _ | _ | _ | n) h7 h8 <;> simp at h7 ⊢ <;> omega
  · cases hcon

end
end Pyinterp.GridPy

/-! ### Examples and counterexamples -/
namespace Pyinterp.GridPy
open Pyinterp Variate Pyinterp.Spec Pyinterp.Spec.GridPy
set_option linter.unusedSectionVars false

/-- building the grid and calling it -/
def run {N : Type} [DecidableEq N] (pick : List N → N) (swap : Bool) (da : DataArray N ℚ) (inc geo : Bool)
    (zm um : ZMethod) (coords : List (N × (ℚ ⊕ Int))) (be : Bool) : Out (Option ℚ) := do
  let g ← interpolator pick swap da inc geo
  call .bilinear zm um g coords be

/-- the node of index 1, 2, 1 of `exDa`, with a longitude in another turn and names in another order -/
def exCoords : List (String × (ℚ ⊕ Int)) := [("lat", .inl 10), ("time", .inr 9), ("lon", .inl 725)]

def exPos (d : String) : Nat := if d = "time" then 1 else if d = "lat" then 2 else 1

example : isel exDa exPos = some 121 := by decide +kernel

example : run (fun l => l.headD "") false exDa true true .linear .linear exCoords true = .ok (some 121) := by
  decide +kernel

theorem exDa_axis (P : AxisObj ℚ → Prop)
    (h1 : ∀ b a, mkAxis false [50, 40, 10] (1 / 1000000 : ℚ) b = .ok a → P (.float a))
    (h2 : ∀ b a, mkAxis false [0, 5] (1 / 1000000 : ℚ) b = .ok a → P (.float a))
    (h3 : ∀ a, mkAxis true [5, 9] (0 : Int) false = .ok a → P (.time a)) {d : String} {b : Bool} {o : AxisObj ℚ}
    (h : Built exDa d b o) : P o := by
  obtain ⟨c, hc, -, -, h⟩ := h
  simp only [exDa, List.mem_cons, List.not_mem_nil, or_false] at hc
  rcases hc with rfl | rfl | rfl
  · obtain ⟨a, ha, rfl⟩ := h; exact h3 a ha
  · obtain ⟨a, ha, rfl⟩ := h; exact h1 b a ha
  · obtain ⟨a, ha, rfl⟩ := h; exact h2 b a ha

/-- the hypotheses of `C97_node_partial` hold for this grid and this point -/
example : ∃ g, interpolator (fun l => l.headD "") false exDa true true = .ok g ∧
    (∀ d b o, Built exDa d b o → 2 ≤ o.size) ∧
    (∀ d b a, Built exDa d b (.time a) → a.isRegular = true → a.cont.isAscending = true) ∧
    (∀ x, true = true → (g.dims[0]?) = some x → OneTurn exDa x) ∧
    (∀ pos, Node exDa pos → (isel exDa pos).isSome) ∧ Node exDa exPos ∧
    (exCoords.map Prod.fst).Perm exDa.dims ∧
    (∀ (k : Nat) d v o, g.dims[k]? = some d → (d, v) ∈ exCoords → Built exDa d (true && decide (k = 0)) o →
      At (true && decide (k = 0)) o (exPos d) v) := by
  obtain ⟨g, hg⟩ := probeX_ok (r := interpolator (fun l => l.headD "") false exDa true true) (j := [1, 0, 1])
    (v := (["lon", "lat", "time"], [.ok (.inl 5), .ok (.inl 10), .ok (.inr 9)], some 121)) (by decide +kernel)
  have size_of : ∀ {T : Type} [LinearOrder T] [AddCommGroup T] [AxisNum T] {r : Out (Axis T)} {n : Int},
      r.map Axis.size = .ok n → ∀ a, r = .ok a → a.size = n := by
    intro T _ _ _ r n h a e
    rw [e] at h
    exact Except.ok.inj h
  have hdims : g.dims = ["lon", "lat", "time"] := by
    have : (interpolator (fun l => l.headD "") false exDa true true).map XGrid.dims = .ok ["lon", "lat", "time"] := by
      decide +kernel
    rw [hg] at this
    exact Except.ok.inj this
  have item_of : ∀ {o : Out (AxisObj ℚ)} {i : Nat} {w : ℚ ⊕ Int}, (o >>= fun o => o.item i) = .ok w →
      ∀ a, o = .ok a → a.item i = .ok w := by
    intro o i w h a e
    rw [e] at h
    exact h
  have hlon : ∀ b a, mkAxis false [0, 5] (1 / 1000000 : ℚ) b = .ok a →
      (AxisObj.float a).item 0 = .ok (.inl 0) ∧ (AxisObj.float a).item 1 = .ok (.inl 5) := by
    intro b a ha
    have h0 : ((mkAxis false [0, 5] (1 / 1000000 : ℚ) b).map AxisObj.float >>= fun o => o.item 0) = .ok (.inl 0) := by
      cases b <;> decide +kernel
    have h1 : ((mkAxis false [0, 5] (1 / 1000000 : ℚ) b).map AxisObj.float >>= fun o => o.item 1) = .ok (.inl 5) := by
      cases b <;> decide +kernel
    exact ⟨item_of h0 _ (by rw [ha]; rfl), item_of h1 _ (by rw [ha]; rfl)⟩
  have hlat : ∀ b a, mkAxis false [50, 40, 10] (1 / 1000000 : ℚ) b = .ok a →
      (AxisObj.float a).item 2 = .ok (.inl 10) := by
    intro b a ha
    have h0 : ((mkAxis false [50, 40, 10] (1 / 1000000 : ℚ) b).map AxisObj.float >>= fun o => o.item 2)
        = .ok (.inl 10) := by
      cases b <;> decide +kernel
    exact item_of h0 _ (by rw [ha]; rfl)
  have htime : ∀ a, mkAxis true [5, 9] (0 : Int) false = .ok a →
      (AxisObj.time a : AxisObj ℚ).item 1 = .ok (.inr 9) := by
    intro a ha
    have h0 : ((mkAxis true [5, 9] (0 : Int) false).map (AxisObj.time (K := ℚ)) >>= fun o => o.item 1)
        = .ok (.inr 9) := by decide +kernel
    exact item_of h0 _ (by rw [ha]; rfl)
  have hone : OneTurn exDa "lon" := by
    intro a l hb hc
    obtain ⟨c, hc', hn, -, h⟩ := hb
    simp only [exDa, List.mem_cons, List.not_mem_nil, or_false] at hc'
    rcases hc' with rfl | rfl | rfl
    · exact absurd hn (by decide)
    · exact absurd hn (by decide)
    · obtain ⟨a', ha, e⟩ := h
      cases e
      obtain ⟨i0, i1⟩ := hlon true a ha
      have hs : a.size = 2 := size_of (r := mkAxis false [0, 5] (1 / 1000000 : ℚ) true) (by decide +kernel) a ha
      have hl : l.length = 2 := by have := hc.1; omega
      obtain ⟨u, v, rfl⟩ := len_2 hl
      have e0 := item_float hc (i := 0) (by simp) i0
      have e1 := item_float hc (i := 1) (by simp) i1
      simp at e0 e1
      subst e0; subst e1
      intro v hv w hw
      simp at hv hw
      rcases hv with rfl | rfl <;> rcases hw with rfl | rfl <;> norm_num
  refine ⟨g, hg, ?_, ?_, ?_, ?_, ?_, by decide, ?_⟩
  · intro d b o
    refine exDa_axis (fun o => 2 ≤ o.size) ?_ ?_ ?_
    · intro b a ha
      have : (mkAxis false [50, 40, 10] (1 / 1000000 : ℚ) b).map Axis.size = .ok 3 := by
        cases b <;> decide +kernel
      show 2 ≤ a.size
      rw [size_of this a ha]; norm_num
    · intro b a ha
      have : (mkAxis false [0, 5] (1 / 1000000 : ℚ) b).map Axis.size = .ok 2 := by
        cases b <;> decide +kernel
      show 2 ≤ a.size
      rw [size_of this a ha]
    · intro a ha
      have : (mkAxis true [5, 9] (0 : Int) false).map Axis.size = .ok 2 := by decide +kernel
      show 2 ≤ a.size
      rw [size_of this a ha]
  · intro d b a h
    obtain ⟨c, hc, -, -, h⟩ := h
    simp only [exDa, List.mem_cons, List.not_mem_nil, or_false] at hc
    rcases hc with rfl | rfl | rfl
    · obtain ⟨a', ha, e⟩ := h
      cases e
      intro _
      have : (mkAxis true [5, 9] (0 : Int) false).map (fun a => a.cont.isAscending) = .ok true := by decide +kernel
      rw [ha] at this
      exact Except.ok.inj this
    · obtain ⟨a', ha, e⟩ := h; cases e
    · obtain ⟨a', ha, e⟩ := h; cases e
  · intro x _ hx
    rw [hdims] at hx
    obtain rfl : "lon" = x := by simpa using hx
    exact hone
  · intro pos _; rfl
  · rintro (_ | _ | _ | k) d n hd hn <;> simp [exDa] at hd hn
    · subst hd; subst hn; decide
    · subst hd; subst hn; decide
    · subst hd; subst hn; decide
  · rw [hdims]
    rintro (_ | _ | _ | k) d v o hd hv ⟨c, hc, hn, -, h⟩ <;> simp at hd
    · subst hd
      obtain rfl : v = .inl 725 := by simpa [exCoords] using hv
      simp only [exDa, List.mem_cons, List.not_mem_nil, or_false] at hc
      rcases hc with rfl | rfl | rfl
      · exact absurd hn (by decide)
      · exact absurd hn (by decide)
      · obtain ⟨a, ha, rfl⟩ := h
        exact ⟨_, (hlon _ a ha).2, Or.inr ⟨rfl, 5, 2, rfl, by norm_num⟩⟩
    · subst hd
      obtain rfl : v = .inl 10 := by simpa [exCoords] using hv
      simp only [exDa, List.mem_cons, List.not_mem_nil, or_false] at hc
      rcases hc with rfl | rfl | rfl
      · exact absurd hn (by decide)
      · obtain ⟨a, ha, rfl⟩ := h
        exact ⟨_, hlat _ a ha, Or.inl rfl⟩
      · exact absurd hn (by decide)
    · subst hd
      obtain rfl : v = .inr 9 := by simpa [exCoords] using hv
      simp only [exDa, List.mem_cons, List.not_mem_nil, or_false] at hc
      rcases hc with rfl | rfl | rfl
      · obtain ⟨a, ha, rfl⟩ := h
        exact ⟨_, htime a ha, Or.inl rfl⟩
      · exact absurd hn (by decide)
      · exact absurd hn (by decide)

/-- a name too many, a missing name -/
example : coordsOf (N := String) (V := Int) [("x", 1), ("y", 2), ("t", 3)] ["x", "y"] = .error .exn ∧
    coordsOf (N := String) (V := Int) [("x", 1), ("t", 3)] ["x", "y"] = .error .exn ∧
    coordsOf (N := String) (V := Int) [("y", 1), ("x", 3)] ["x", "y"] = .ok [3, 1] := by decide

/-- A 4D field without time. -/
def exDa4 : DataArray String ℚ :=
  { dims := ["lon", "lat", "z", "u"]
    arr := { shape := [2, 2, 2, 2], at' := fun i => some (10 * (i.getD 2 0 : ℚ) + (i.getD 3 0 : ℚ)) }
    coords := [⟨"lon", some "degrees_east", 1, .num [0, 5]⟩, ⟨"lat", some "degrees_north", 1, .num [50, 40]⟩,
      ⟨"z", none, 1, .num [0, 4]⟩, ⟨"u", none, 1, .num [0, 4]⟩] }

/-- **C97, false in 4D**: without a time axis, the dimensions to which `z_method` and `u_method` apply are chosen by the
enumeration of a Python set of strings, whose order changes from one process to another: the same call on the same
`DataArray` gives 1/4 (nearest along "z", linear along "u") or 5/2 (the opposite). -/
theorem C97_set_order_false :
    run (fun l => l.headD "") false exDa4 true true .nearest .linear
      [("lon", .inl 0), ("lat", .inl 50), ("z", .inl 1), ("u", .inl 1)] true = .ok (some (1 / 4)) ∧
    run (fun l => l.headD "") true exDa4 true true .nearest .linear
      [("lon", .inl 0), ("lat", .inl 50), ("z", .inl 1), ("u", .inl 1)] true = .ok (some (5 / 2)) := by
  decide +kernel

/-- A field with decreasing, evenly spaced dates. -/
def exDaT : DataArray String ℚ :=
  { dims := ["lon", "lat", "time"]
    arr := { shape := [2, 2, 5], at' := fun i => some (i.getD 2 0 : ℚ) }
    coords := [⟨"lon", some "degrees_east", 1, .num [0, 5]⟩, ⟨"lat", some "degrees_north", 1, .num [50, 40]⟩,
      ⟨"time", none, 1, .datetime [12, 9, 6, 3, 0]⟩] }

/-- **C97, false for decreasing, evenly spaced dates**: the date 13 is after the last date (12); although bounds_error is
set, the call neither raises nor returns NaN: the value is extrapolated. The increasing dates are treated properly. -/
theorem C97_decreasing_time_false :
    run (fun l => l.headD "") false exDaT true true .linear .linear
      [("lon", .inl 0), ("lat", .inl 50), ("time", .inr 13)] true = .ok (some (-1 / 3)) ∧
    run (fun l => l.headD "") false
      { exDaT with coords := exDaT.coords.take 2 ++ [⟨"time", none, 1, .datetime [0, 3, 6, 9, 12]⟩] } true true
      .linear .linear [("lon", .inl 0), ("lat", .inl 50), ("time", .inr 13)] true = .error .exn := by
  decide +kernel

end Pyinterp.GridPy
