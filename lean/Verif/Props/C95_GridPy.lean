import Verif.Lemmas.GridPy

/-
C95 – the Python grids (grid.py): reordering of the axes with `increasing_axes`.
-/
namespace Pyinterp.GridPy
open Pyinterp Variate Pyinterp.Spec Pyinterp.Spec.GridPy
set_option linter.unusedSectionVars false
set_option linter.unusedVariables false

section
variable {K : Type} [Field K] [LinearOrder K] [IsStrictOrderedRing K] [FloorRing K]

theorem mirror_eq (axes : List (AxisObj K)) (shape i : List Nat) (n : Nat) (hn : axes.length ≤ n) :
    mirrorTo axes shape n i = mirror axes shape i := by
  unfold mirrorTo mirror
  congr 1
  funext k j
  by_cases hk : k < n
  · rw [if_pos hk]; rfl
  · rw [if_neg hk, List.getElem?_eq_none (by omega)]

theorem mirror_valid (axes : List (AxisObj K)) (shape i : List Nat) (hv : ValidIndex shape i) :
    ValidIndex shape (mirror axes shape i) := by
  refine ⟨by simp [mirror, hv.1], ?_⟩
  intro k h1 h2
  have h3 : k < i.length := by have := hv.1; omega
  have := hv.2 k h3 h2
  simp only [mirror, List.getElem_mapIdx]
  split
  · split
    · exact this
    · rw [List.getD_eq_getElem _ _ h2]; omega
  · exact this

theorem mirror_mirror (axes : List (AxisObj K)) (shape i : List Nat) (hv : ValidIndex shape i) :
    mirror axes shape (mirror axes shape i) = i := by
  apply List.ext_getElem
  · simp [mirror]
  · intro k h1 h2
    have h3 : k < shape.length := by have := hv.1; omega
    have := hv.2 k h2 h3
    simp only [mirror, List.getElem_mapIdx, List.getD_eq_getElem _ _ h3]
    cases hx : axes[k]? with
    | none => rfl
    | some a =>
      cases ha : a.isAscending
      · simp only [ha, Bool.false_eq_true, if_false]; omega
      · simp only [ha, if_true]

theorem parse_ok {s : List Char} {m : Option Bool} (h : parseIncreasing (some s) = .ok m) :
    (s = "inplace".toList ∧ m = some true) ∨ (s = "copy".toList ∧ m = some false) := by
  unfold parseIncreasing at h
  simp only at h
  split at h
  · rename_i h1; cases h; exact Or.inl ⟨h1, rfl⟩
  · split at h
    · rename_i h1; cases h; exact Or.inr ⟨h1, rfl⟩
    · cases h

/-- What the constructor does. -/
theorem init_inv {dims : Nat} {s : List Char} {st st' : Args K} {g : GridObj K}
    (h : init dims (some s) st = .ok (st', g)) :
    ∃ inplace axes', ((s = "inplace".toList ∧ inplace = true) ∨ (s = "copy".toList ∧ inplace = false)) ∧
      flipUpTo inplace st st.refs.length = .ok st' ∧ deref st'.heap st'.refs = .ok axes' ∧
      construct dims axes' st'.arr = .ok g := by
  unfold init at h
  obtain ⟨mode, hmode, h⟩ := bind_inv h
  rcases parse_ok hmode with ⟨h1, rfl⟩ | ⟨h1, rfl⟩
  · obtain ⟨s1, hs1, h⟩ := bind_inv h
    obtain ⟨axes', hax', h⟩ := bind_inv h
    obtain ⟨g', hg, h⟩ := bind_inv h
    cases h
    exact ⟨true, axes', Or.inl ⟨h1, rfl⟩, hs1, hax', hg⟩
  · obtain ⟨s1, hs1, h⟩ := bind_inv h
    obtain ⟨axes', hax', h⟩ := bind_inv h
    obtain ⟨g', hg, h⟩ := bind_inv h
    cases h
    exact ⟨false, axes', Or.inr ⟨h1, rfl⟩, hs1, hax', hg⟩

/-- **C95**: a grid built with `increasing_axes` ('inplace' or 'copy', from distinct axis objects in the first
case) holds strictly increasing axes, and it is the same function of the coordinates as the arguments: each
node of the new grid has the coordinates and the value of one node of the array given, `mirror` being a bijection
between the nodes. -/
theorem C95_increasing (dims : Nat) (s : List Char) (st st' : Args K) (g : GridObj K)
    (h : init dims (some s) st = .ok (st', g))
    (hv : ∀ r ∈ st.refs, r < st.heap.length) (hn : s = "inplace".toList → st.refs.Nodup)
    (hi : ∀ a ∈ st.heap, Held a) :
    ∃ axes axes', deref st.heap st.refs = .ok axes ∧ deref st'.heap st'.refs = .ok axes' ∧
      construct dims axes' st'.arr = .ok g ∧ (∀ a ∈ axes', Increasing a) ∧ st'.arr.shape = st.arr.shape ∧
      (s = "inplace".toList → axes' = axes.map fun a => if a.isAscending then a else a.flip) ∧
      ∀ i, ValidIndex st.arr.shape i →
        ValidIndex st.arr.shape (mirror axes st.arr.shape i) ∧
        mirror axes st.arr.shape (mirror axes st.arr.shape i) = i ∧
        labels axes' i = labels axes (mirror axes st.arr.shape i) ∧
        st'.arr.at' i = st.arr.at' (mirror axes st.arr.shape i) := by
  obtain ⟨inplace, axes', hmode, hs1, hax', hg⟩ := init_inv h
  -- the axes given
  obtain ⟨axes, hax⟩ : ∃ axes, deref st.heap st.refs = .ok axes := by
    refine ⟨st.refs.pmap (fun r hr => st.heap[r]) hv, (deref_iff _ _ _).mpr ⟨by simp, ?_⟩⟩
    intro k hk
    have hr := hv _ (List.getElem_mem hk)
    rw [List.getElem?_eq_getElem hr, List.getElem?_pmap]
    simp [hk]
  obtain ⟨hl, hgx⟩ := (deref_iff _ _ _).mp hax
  have hOI : ∀ a ∈ axes, OInv a := by
    intro a ha
    obtain ⟨k, hk, rfl⟩ := List.getElem_of_mem ha
    have hk' : k < st.refs.length := by omega
    have := hgx k hk'
    rw [List.getElem?_eq_getElem hk] at this
    exact held_inv (hi _ (List.mem_of_getElem? this))
  have hn' : inplace = true → st.refs.Nodup := by
    rcases hmode with ⟨h1, h2⟩ | ⟨h1, h2⟩
    · exact fun _ => hn h1
    · intro hh; rw [h2] at hh; cases hh
  obtain ⟨axes', d1, l1, -, -, -, i1, sh, hat, -, hlt⟩ :=
    flipUpTo_spec hax hv hn' hOI st.refs.length le_rfl hs1
  rw [d1] at hax'
  cases hax'
  obtain ⟨c1, c2, c3⟩ := construct_shape hg
  -- each axis
  have each : ∀ k (hk : k < axes.length), ∃ (hk' : k < axes'.length),
      (axes[k].isAscending = true → axes'[k] = axes[k]) ∧
        (axes[k].isAscending = false → coordsL axes'[k] = (coordsL axes[k]).reverse) ∧
        (inplace = true → axes[k].isAscending = false → axes'[k] = axes[k].flip) := by
    intro k hk
    obtain ⟨o', e1, e2, e3⟩ := hlt k axes[k] (by omega) (List.getElem?_eq_getElem hk)
    obtain ⟨hk', e4⟩ := List.getElem?_eq_some_iff.mp e1
    subst e4
    exact ⟨hk', e2, e3⟩
  refine ⟨axes, axes', hax, d1, hg, ?_, sh, ?_, ?_⟩
  · intro a ha
    obtain ⟨k, hk, rfl⟩ := List.getElem_of_mem ha
    obtain ⟨_, e2, e3, -⟩ := each k (by omega)
    have hok := hOI axes[k] (List.getElem_mem _)
    apply incr_increasing (i1 _ ha)
    cases hasc : axes[k].isAscending
    · exact incr_of_reverse hok hasc (e3 hasc)
    · rw [e2 hasc]; exact incr_asc hok hasc
  · intro hs
    have hin : inplace = true := by
      rcases hmode with ⟨h1, h2⟩ | ⟨h1, h2⟩
      · exact h2
      · rw [hs] at h1; exact absurd h1 (by decide)
    apply List.ext_getElem
    · simp [l1]
    · intro k h1 h2
      obtain ⟨_, e2, e3, e4⟩ := each k (by simpa using h2)
      rw [List.getElem_map]
      cases hasc : axes[k].isAscending
      · simpa using e4 hin hasc
      · simpa using e2 hasc
  · intro i hvi
    refine ⟨mirror_valid _ _ _ hvi, mirror_mirror _ _ _ hvi, ?_, ?_⟩
    · apply List.ext_getElem
      · simp [labels, mirror, l1]
      · intro k h1 h2
        simp only [labels, List.length_zipWith] at h1
        have hka : k < axes.length := by omega
        have hki : k < i.length := by omega
        have hks : k < st.arr.shape.length := by have := hvi.1; omega
        obtain ⟨hk', e2, e3, -⟩ := each k hka
        have hik := hvi.2 k hki hks
        simp only [labels, List.getElem_zipWith, mirror, List.getElem_mapIdx, List.getElem?_eq_getElem hka]
        cases hasc : axes[k].isAscending
        · simp only [Bool.false_eq_true, if_false]
          have hok := hOI axes[k] (List.getElem_mem _)
          have hrev := e3 hasc
          have hsz : axes'[k].size = (st.arr.shape[k] : Nat) :=
            c3 k _ _ (List.getElem?_eq_getElem hk') (by rw [sh]; exact List.getElem?_eq_getElem hks)
          have hs1 : (coordsL axes'[k]).length = st.arr.shape[k] := by
            have := size_coords (i1 _ (List.getElem_mem hk'))
            omega
          have hs2 : (coordsL axes[k]).length = st.arr.shape[k] := by
            rw [hrev, List.length_reverse] at hs1; exact hs1
          rw [List.getD_eq_getElem _ _ hks, item_coords (i1 _ (List.getElem_mem hk')) _ (by omega),
            item_coords hok _ (by omega)]
          congr 1
          have : ∀ (l m : List (K ⊕ Int)) (j : Nat) (hj : j < l.length) (h : l = m.reverse)
              (hm : m.length - 1 - j < m.length), l[j] = m[m.length - 1 - j] := by
            intro l m j hj h hm
            subst h
            rw [List.getElem_reverse]
          rw [this _ _ _ (by omega) hrev (by omega)]
          congr 1
          rw [hs2]
        · simp only [if_true]
          rw [e2 hasc]
    · rw [hat i, mirror_eq _ _ _ _ (by omega)]

/-- **C95**: with `increasing_axes='copy'` the objects of the caller are left as they are. -/
theorem C95_copy (dims : Nat) (st st' : Args K) (g : GridObj K)
    (h : init dims (some "copy".toList) st = .ok (st', g))
    (hv : ∀ r ∈ st.refs, r < st.heap.length) (hi : ∀ a ∈ st.heap, Held a) :
    ∀ (r : Nat) (a : AxisObj K), st.heap[r]? = some a → st'.heap[r]? = some a := by
  obtain ⟨inplace, axes', hmode, hs1, hax', hg⟩ := init_inv h
  have : inplace = false := by
    rcases hmode with ⟨h1, h2⟩ | ⟨h1, h2⟩
    · exact absurd h1 (by decide)
    · exact h2
  subst this
  obtain ⟨axes, hax⟩ : ∃ axes, deref st.heap st.refs = .ok axes := by
    refine ⟨st.refs.pmap (fun r hr => st.heap[r]) hv, (deref_iff _ _ _).mpr ⟨by simp, ?_⟩⟩
    intro k hk
    have hr := hv _ (List.getElem_mem hk)
    rw [List.getElem?_eq_getElem hr, List.getElem?_pmap]
    simp [hk]
  obtain ⟨hl, hgx⟩ := (deref_iff _ _ _).mp hax
  have hOI : ∀ a ∈ axes, OInv a := by
    intro a ha
    obtain ⟨k, hk, rfl⟩ := List.getElem_of_mem ha
    have hk' : k < st.refs.length := by omega
    have := hgx k hk'
    rw [List.getElem?_eq_getElem hk] at this
    exact held_inv (hi _ (List.mem_of_getElem? this))
  obtain ⟨_, -, -, -, -, hp, -⟩ :=
    flipUpTo_spec hax hv (fun hh => by cases hh) hOI st.refs.length le_rfl hs1
  obtain ⟨more, hm⟩ := hp rfl
  intro r a hr
  rw [hm, List.getElem?_append_left (List.getElem?_eq_some_iff.mp hr).1]
  exact hr

/-- **C95**: without `increasing_axes` the arguments are used as they are; any other string is refused. -/
theorem C95_mode (dims : Nat) (st : Args K) :
    (∀ st' g, init dims none st = .ok (st', g) → st' = st) ∧
    ∀ s, s ≠ "inplace".toList → s ≠ "copy".toList → init dims (some s) st = .error .exn := by
  constructor
  · intro st' g h
    unfold init at h
    obtain ⟨mode, hmode, h⟩ := bind_inv h
    cases hmode
    obtain ⟨s1, hs1, h⟩ := bind_inv h
    cases hs1
    obtain ⟨axes', hax', h⟩ := bind_inv h
    obtain ⟨g', hg, h⟩ := bind_inv h
    cases h
    rfl
  · intro s h1 h2
    simp only [init, parseIncreasing, if_neg h1, if_neg h2]
    rfl

/-- The axes that a pickled grid gives back unchanged: at least two coordinates, and a longitude that covers the
circle; a time axis built from dates and not flipped. -/
def Pickled (a : Axis K) : Prop := Reach false a ∧ 2 ≤ a.size ∧ (a.isAngle = true → a.isCircle = true)

def PickledTime (a : Axis Int) : Prop := (∃ v, mkAxis true v 0 false = .ok a) ∧ 2 ≤ a.size

theorem axisPickle_ok {a : Axis K} (h : Pickled a) : axisPickle a = .ok a := by
  obtain ⟨s, h1, h2⟩ := C09_pickle_identity_partial a h.1 h.2.1 h.2.2
  simp only [axisPickle, h1, bind, Except.bind, h2]

theorem axisPickle_time {a : Axis Int} (h : PickledTime a) : axisPickle a = .ok a := by
  obtain ⟨⟨v, h1⟩, h2⟩ := h
  exact time_pickle h1 h2

/-- **C95**: pickling a grid gives back the same axes and the same array. -/
theorem C95_pickle_partial (dims : Nat) (axes : List (AxisObj K)) (arr : Arr K) (g : GridObj K)
    (h : construct dims axes arr = .ok g)
    (hf : ∀ a, AxisObj.float a ∈ axes → Pickled a) (ht : ∀ a, AxisObj.time a ∈ axes → PickledTime a) :
    g.pickle = .ok g := by
  unfold construct at h
  split at h
  · obtain ⟨g', hg, h⟩ := bind_inv h
    cases h
    obtain ⟨ex, ey, ea, -⟩ := mkGrid2D_ok hg
    rename_i x y
    rw [← ex, ← ey, ← ea] at hg
    simp only [GridObj.pickle, ex, ey, axisPickle_ok (hf x (by simp)), axisPickle_ok (hf y (by simp)), bind, Except.bind]
    rw [← ex, ← ey, hg]; rfl
  · obtain ⟨g', hg, h⟩ := bind_inv h
    cases h
    obtain ⟨ex, ey, ez, ea, -⟩ := mkGrid3D_ok hg
    rename_i x y z
    rw [← ex, ← ey, ← ez, ← ea] at hg
    simp only [GridObj.pickle, ex, ey, ez, axisPickle_ok (hf x (by simp)), axisPickle_ok (hf y (by simp)),
      axisPickle_ok (hf z (by simp)), bind, Except.bind]
    rw [← ex, ← ey, ← ez, hg]; rfl
  · obtain ⟨g', hg, h⟩ := bind_inv h
    cases h
    obtain ⟨ex, ey, ez, ea, -⟩ := mkGrid3D_ok hg
    rename_i x y z
    rw [← ex, ← ey, ← ez, ← ea] at hg
    simp only [GridObj.pickle, ex, ey, ez, axisPickle_ok (hf x (by simp)), axisPickle_ok (hf y (by simp)),
      axisPickle_time (ht z (by simp)), bind, Except.bind]
    rw [← ex, ← ey, ← ez, hg]; rfl
  · obtain ⟨g', hg, h⟩ := bind_inv h
    cases h
    obtain ⟨ex, ey, ez, eu, ea, -⟩ := mkGrid4D_ok hg
    rename_i x y z u
    rw [← ex, ← ey, ← ez, ← eu, ← ea] at hg
    simp only [GridObj.pickle, ex, ey, ez, eu, axisPickle_ok (hf x (by simp)), axisPickle_ok (hf y (by simp)),
      axisPickle_ok (hf z (by simp)), axisPickle_ok (hf u (by simp)), bind, Except.bind]
    rw [← ex, ← ey, ← ez, ← eu, hg]; rfl
  · obtain ⟨g', hg, h⟩ := bind_inv h
    cases h
    obtain ⟨ex, ey, ez, eu, ea, -⟩ := mkGrid4D_ok hg
    rename_i x y z u
    rw [← ex, ← ey, ← ez, ← eu, ← ea] at hg
    simp only [GridObj.pickle, ex, ey, ez, eu, axisPickle_ok (hf x (by simp)), axisPickle_ok (hf y (by simp)),
      axisPickle_time (ht z (by simp)), axisPickle_ok (hf u (by simp)), bind, Except.bind]
    rw [← ex, ← ey, ← ez, ← eu, hg]; rfl
  · cases h

end

/-! ### Examples and counterexamples -/

/-- A decreasing and an increasing axis, and a decreasing time axis. -/
def exX : Axis ℚ := ⟨false, none, .regular ⟨2, 30, -10, -1/10, false⟩⟩
def exY : Axis ℚ := ⟨false, none, .irregular [1, 2, 5] true⟩
def exT : Axis Int := ⟨false, none, .irregular [9, 4, 3] false⟩

theorem exX_reach : Reach false exX := .values [30, 20] (1 / 1000000) false _ (by norm_num) (by decide +kernel)
theorem exY_reach : Reach false exY := .values [1, 2, 5] (1 / 1000000) false _ (by norm_num) (by decide +kernel)
theorem exT_reach : TimeReach exT := .values [9, 4, 3] _ (by decide +kernel)

/-- the value of the node (i, j, k) is 100 i + 10 j + k -/
def exArr (shape : List Nat) : Arr ℚ :=
  { shape := shape, at' := fun i => some (100 * (i.getD 0 0 : ℚ) + 10 * (i.getD 1 0 : ℚ) + (i.getD 2 0 : ℚ)) }

def exArgs : Args ℚ := { heap := [.float exX, .float exY, .time exT], refs := [0, 1, 2], arr := exArr [2, 3, 3] }

theorem exArgs_held : ∀ a ∈ exArgs.heap, Held a := by
  intro a ha
  simp only [exArgs, List.mem_cons, List.not_mem_nil, or_false] at ha
  rcases ha with rfl | rfl | rfl
  · exact exX_reach
  · exact exY_reach
  · exact exT_reach

/-- What a program reads after the construction: the coordinates and the value of a node. -/
def probe (r : Out (Args ℚ × GridObj ℚ)) (i : List Nat) : Option (List (Out (ℚ ⊕ Int)) × Option ℚ) :=
  match r with
  | .error _ => none
  | .ok (st, _) =>
    match deref st.heap st.refs with
    | .error _ => none
    | .ok axes => some (labels axes i, st.arr.at' i)

theorem probe_ok {r : Out (Args ℚ × GridObj ℚ)} {i : List Nat} {l : List (Out (ℚ ⊕ Int))} {v : Option ℚ}
    (h : probe r i = some (l, v)) :
    ∃ st g axes, r = .ok (st, g) ∧ deref st.heap st.refs = .ok axes ∧ labels axes i = l ∧ st.arr.at' i = v := by
  unfold probe at h
  split at h
  · cases h
  · rename_i st g
    split at h
    · cases h
    · rename_i axes hax
      simp only [Option.some.injEq, Prod.mk.injEq] at h
      exact ⟨st, g, axes, rfl, hax, h.1, h.2⟩

-- The node (0, 1, 2) of the new grid: x = 20, y = 2, t = 9 has the value of the node (1, 1, 0) of the array given.
example : probe (init 3 (some "inplace".toList) exArgs) [0, 1, 2] = some ([.ok (.inl 20), .ok (.inl 2), .ok (.inr 9)], some 110) := by
  decide +kernel
example : probe (init 3 (some "copy".toList) exArgs) [0, 1, 2] = some ([.ok (.inl 20), .ok (.inl 2), .ok (.inr 9)], some 110) := by
  decide +kernel
example : mirror [.float exX, .float exY, .time exT] [2, 3, 3] [0, 1, 2] = [1, 1, 0] := by decide +kernel

example : ∃ st' g, init 3 (some "inplace".toList) exArgs = .ok (st', g) := by
  obtain ⟨st, g, _, h, -⟩ := probe_ok (r := init 3 (some "inplace".toList) exArgs) (i := [0, 1, 2])
    (l := [.ok (.inl 20), .ok (.inl 2), .ok (.inr 9)]) (v := some 110) (by decide +kernel)
  exact ⟨st, g, h⟩

example (st' : Args ℚ) (g : GridObj ℚ) (h : init 3 (some "inplace".toList) exArgs = .ok (st', g)) :=
  C95_increasing 3 _ exArgs st' g h (by decide) (fun _ => by decide) exArgs_held
example (st' : Args ℚ) (g : GridObj ℚ) (h : init 3 (some "copy".toList) exArgs = .ok (st', g)) :=
  C95_copy 3 exArgs st' g h (by decide) exArgs_held

example (g : GridObj ℚ) (h : construct 3 [.float exX, .float exY, .time exT] (exArr [2, 3, 3]) = .ok g) :=
  C95_pickle_partial 3 _ _ g h
    (by
      intro a ha
      simp only [List.mem_cons, AxisObj.float.injEq, List.not_mem_nil, or_false, reduceCtorEq] at ha
      rcases ha with rfl | rfl
      · exact ⟨exX_reach, by decide, by decide⟩
      · exact ⟨exY_reach, by decide, by decide⟩)
    (by
      intro a ha
      simp only [List.mem_cons, reduceCtorEq, List.not_mem_nil, or_false, AxisObj.time.injEq, false_or] at ha
      subst ha
      exact ⟨⟨[9, 4, 3], by decide +kernel⟩, by decide⟩)

/-- C95 needs distinct axis objects: when the same decreasing object is used for both axes, 'inplace' reverses it once
and reverses the array along the first axis only, so that the node (20, 30) has the value of the node (20, 20). -/
theorem C95_alias_false : ∃ (st st' : Args ℚ) (g : GridObj ℚ) (axes axes' : List (AxisObj ℚ)) (i j : List Nat),
    (∀ r ∈ st.refs, r < st.heap.length) ∧ (∀ a ∈ st.heap, Held a) ∧ init 2 (some "inplace".toList) st = .ok (st', g) ∧
    deref st.heap st.refs = .ok axes ∧ deref st'.heap st'.refs = .ok axes' ∧
    ValidIndex st.arr.shape i ∧ ValidIndex st.arr.shape j ∧ labels axes' i = labels axes j ∧
    st'.arr.at' i ≠ st.arr.at' j := by
  obtain ⟨st', g, axes', h1, h2, h3, h4⟩ := probe_ok
    (r := init 2 (some "inplace".toList) { heap := [.float exX], refs := [0, 0], arr := exArr [2, 2] }) (i := [0, 1])
    (l := [.ok (.inl 20), .ok (.inl 30)]) (v := some 110) (by decide +kernel)
  refine ⟨_, st', g, [.float exX, .float exX], axes', [0, 1], [1, 0], by decide, ?_, h1, rfl, h2, ?_, ?_, ?_, ?_⟩
  · intro a ha
    simp only [List.mem_cons, List.not_mem_nil, or_false] at ha
    subst ha; exact exX_reach
  · exact ⟨rfl, by decide⟩
  · exact ⟨rfl, by decide⟩
  · rw [h3]; decide +kernel
  · rw [h4]; decide +kernel

/-- C95, 'inplace' and a grid built before from the same axis objects: its axes are reversed, not its array (nor the
array of the caller): its node (0, 0) was at x = 30, it is now at x = 20 with the same value. -/
theorem C95_shared_false : ∃ (st st' : Args ℚ) (g1 g2 : GridObj ℚ) (axes axes' : List (AxisObj ℚ)),
    (∀ r ∈ st.refs, r < st.heap.length) ∧ st.refs.Nodup ∧ (∀ a ∈ st.heap, Held a) ∧
    init 2 none st = .ok (st, g1) ∧ init 2 (some "inplace".toList) st = .ok (st', g2) ∧
    deref st.heap st.refs = .ok axes ∧ deref st'.heap st.refs = .ok axes' ∧
    labels axes [0, 0] = [.ok (.inl 30), .ok (.inl 1)] ∧ labels axes' [0, 0] = [.ok (.inl 20), .ok (.inl 1)] := by
  have key := probe_ok
    (r := init 2 (some "inplace".toList) { heap := [.float exX, .float exY], refs := [0, 1], arr := exArr [2, 3] })
    (i := [0, 0]) (l := [.ok (.inl 20), .ok (.inl 1)]) (v := some 100) (by decide +kernel)
  have key0 := probe_ok
    (r := init 2 none { heap := [.float exX, .float exY], refs := [0, 1], arr := exArr [2, 3] })
    (i := [0, 0]) (l := [.ok (.inl 30), .ok (.inl 1)]) (v := some 0) (by decide +kernel)
  obtain ⟨st', g, axes', h1, h2, h3, h4⟩ := key
  obtain ⟨st0, g0, axes, k1, k2, k3, k4⟩ := key0
  have hst : st0 = { heap := [.float exX, .float exY], refs := [0, 1], arr := exArr [2, 3] } :=
    (C95_mode 2 _).1 _ _ k1
  subst hst
  have hh : ∀ a ∈ ([.float exX, .float exY] : List (AxisObj ℚ)), Held a := by
    intro a ha
    simp only [List.mem_cons, List.not_mem_nil, or_false] at ha
    rcases ha with rfl | rfl
    · exact exX_reach
    · exact exY_reach
  have hr : st'.refs = [0, 1] := by
    obtain ⟨inplace, _, hm, hs, -⟩ := init_inv h1
    have : inplace = true := by
      rcases hm with ⟨-, h⟩ | ⟨h, -⟩
      · exact h
      · exact absurd h (by decide)
    subst this
    obtain ⟨_, -, -, -, hr, -⟩ := flipUpTo_spec (st := { heap := [.float exX, .float exY], refs := [0, 1], arr := exArr [2, 3] }) k2
      (by decide) (fun _ => by decide) (fun a ha => held_inv (by
        have : axes = [.float exX, .float exY] := by
          have e : deref ([.float exX, .float exY] : List (AxisObj ℚ)) [0, 1] = .ok [.float exX, .float exY] := rfl
          rw [e] at k2
          exact (Except.ok.inj k2).symm
        rw [this] at ha
        exact hh a ha)) _ le_rfl hs
    exact hr rfl
  rw [hr] at h2
  exact ⟨_, st', g0, g, axes, axes', by decide, by decide, hh, k1, h1, k2, h2, k3, h3⟩

/-- A regional longitude axis, decreasing. -/
def exLon : Axis ℚ := ⟨false, some 360, .regular ⟨3, 350, -5, -1/5, false⟩⟩

theorem exLon_reach : Reach false exLon :=
  .values [350, 345, 340] (1 / 1000000) true _ (by norm_num) (by decide +kernel)

/-- the interpolation on the grid just built -/
def probeValue (r : Out (Args ℚ × GridObj ℚ)) (p : List (ℚ ⊕ Int)) : Out (Option ℚ) :=
  match r with
  | .error e => .error e
  | .ok (_, g) => evaluate .bilinear .linear .linear g p false

/-- C95, 'copy' loses the angle of a longitude axis that does not cover the circle: the same point, -15 degrees, is
interpolated on the grid built with 'inplace' and is outside the grid built with 'copy'. -/
theorem C95_copy_angle_false : ∃ (st s1 s2 : Args ℚ) (g1 g2 : GridObj ℚ),
    (∀ a ∈ st.heap, Held a) ∧ st.refs.Nodup ∧
    init 2 (some "inplace".toList) st = .ok (s1, g1) ∧ init 2 (some "copy".toList) st = .ok (s2, g2) ∧
    evaluate .bilinear .linear .linear g1 [.inl (-15), .inl 2] false = .ok (some 110) ∧
    evaluate .bilinear .linear .linear g2 [.inl (-15), .inl 2] false = .ok none := by
  have k1 : probeValue (init 2 (some "inplace".toList) { heap := [.float exLon, .float exY], refs := [0, 1], arr := exArr [3, 3] })
      [.inl (-15), .inl 2] = .ok (some 110) := by decide +kernel
  have k2 : probeValue (init 2 (some "copy".toList) { heap := [.float exLon, .float exY], refs := [0, 1], arr := exArr [3, 3] })
      [.inl (-15), .inl 2] = .ok none := by decide +kernel
  unfold probeValue at k1 k2
  split at k1
  · cases k1
  · rename_i s1 g1 h1
    split at k2
    · cases k2
    · rename_i s2 g2 h2
      refine ⟨_, s1, s2, g1, g2, ?_, by decide, h1, h2, k1, k2⟩
      intro a ha
      simp only [List.mem_cons, List.not_mem_nil, or_false] at ha
      rcases ha with rfl | rfl
      · exact exLon_reach
      · exact exY_reach

end Pyinterp.GridPy
