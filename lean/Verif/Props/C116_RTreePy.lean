import Verif.Model.RTreePy
import Verif.Spec.RTreeHistory
import Verif.Props.C67_MeshContents

/-
C116: the Python class `pyinterp.RTree`.
-/
namespace Pyinterp.RTree
open Pyinterp.Interface Pyinterp.Spec

set_option linter.unusedSectionVars false

/-- **C116** The construction succeeds exactly for the data types `float64` (the default) and `float32`, when a geodetic
system and `ecef` are not both given; the new mesh is empty and uses the system given, or WGS84. -/
theorem C116_init (system : Option (ℝ × ℝ)) (dtype : Option DType) (ecef : Bool) (t : PyTree) :
    PyTree.init system dtype ecef = .ok t ↔
      (dtype = none ∨ dtype = some .float64 ∨ dtype = some .float32) ∧ ¬ (system ≠ none ∧ ecef = true) ∧
      t.dtype = dtype.getD .float64 ∧ t.inst = ⟨system.getD wgs84, ecef, []⟩ := by
  obtain ⟨d, i⟩ := t
  unfold PyTree.init Tree.make
  cases system <;> cases ecef <;> rcases dtype with _ | _ | _ <;>
    simp [pure, Except.pure, bind, Except.bind, eq_comm, and_comm]

/-- **C116** A refused construction raises an exception. -/
theorem C116_init_refused (system : Option (ℝ × ℝ)) (dtype : Option DType) (ecef : Bool)
    (h : (dtype ≠ none ∧ dtype ≠ some .float64 ∧ dtype ≠ some .float32) ∨ (system ≠ none ∧ ecef = true)) :
    PyTree.init system dtype ecef = .error .exn := by
  unfold PyTree.init Tree.make
  cases system <;> cases ecef <;> rcases dtype with _ | _ | _ <;>
    simp_all [bind, Except.bind]

example : ∃ t, PyTree.init (some (6371000, 0)) (some .float32) false = .ok t ∧ t.dtype = .float32 :=
  ⟨⟨.float32, ⟨(6371000, 0), false, []⟩⟩, (C116_init _ _ _ _).2 (by simp), rfl⟩

theorem load_length {toEcef : ℝ × ℝ → ℝ → ℝ → ℝ → Point} {t : Tree} {op : Op} {cols : Nat} {rows : List (List ℝ)}
    {values : List ℝ} {l : List Item} (h : load toEcef t op cols rows values = .ok l) :
    (cols = 2 ∨ cols = 3) ∧ rows.length = values.length ∧ l.length = values.length := by
  unfold load at h
  by_cases hne : rows.length ≠ values.length
  · rw [if_pos hne] at h; simp at h
  · rw [if_neg hne] at h
    have hne : rows.length = values.length := not_not.1 hne
    have hcol : cols = 2 ∨ cols = 3 := by
      by_contra hc
      have h1 : cols ≠ 2 := fun e => hc (.inl e)
      have h2 : cols ≠ 3 := fun e => hc (.inr e)
      have : converter op t.ecef cols = .error .exn := by unfold converter; rw [if_neg h1, if_neg h2]
      rw [this] at h
      simp [bind, Except.bind] at h
    refine ⟨hcol, hne, ?_⟩
    cases hc : converter op t.ecef cols with
    | error e => rw [hc] at h; simp [bind, Except.bind] at h
    | ok c =>
      rw [hc] at h
      change (List.mapM _ (rows.zip values)) = _ at h
      have key : ∀ (f : List ℝ × ℝ → Out Item) (z : List (List ℝ × ℝ)) (l : List Item), z.mapM f = .ok l → l.length = z.length := by
        intro f z
        induction z with
        | nil => intro l h; simp [List.mapM_nil, pure, Except.pure] at h; simp [← h]
        | cons a z ih =>
          intro l h
          rw [List.mapM_cons] at h
          cases ha : f a with
          | error e => rw [ha] at h; simp [bind, Except.bind] at h
          | ok b =>
            rw [ha] at h
            cases hz : z.mapM f with
            | error e => rw [hz] at h; simp [bind, Except.bind] at h
            | ok m =>
              rw [hz] at h
              simp [bind, Except.bind, pure, Except.pure] at h
              rw [← h]
              simp [ih m hz]
      rw [key _ _ _ h]
      simp [hne]

/-- **C116** `len(tree)` after any history of calls is the number of observations of the accepted calls since the last
`packing` or `clear`; `bool(tree)` tells whether it is not 0. The coordinate system and the data type never change. The rows of
a matrix have its number of columns (`hrows`). -/
theorem C116_history (toEcef : ℝ × ℝ → ℝ → ℝ → ℝ → Point) (system : Option (ℝ × ℝ)) (dtype : Option DType) (ecef : Bool)
    (t : PyTree) (ht : PyTree.init system dtype ecef = .ok t) (l : List Change)
    (hrows : ∀ c ∈ l, ∀ cols rows values, c = .packing cols rows values ∨ c = .insert cols rows values →
      ∀ r ∈ rows, r.length = cols) :
    Count l (t.after toEcef l).len ∧ ((t.after toEcef l).bool = true ↔ (t.after toEcef l).len ≠ 0) ∧
    (t.after toEcef l).dtype = t.dtype ∧ (t.after toEcef l).inst.spheroid = t.inst.spheroid ∧
    (t.after toEcef l).inst.ecef = t.inst.ecef := by
  have hb : ∀ u : PyTree, u.bool = true ↔ u.len ≠ 0 := by
    intro u
    unfold PyTree.bool PyTree.len
    cases u.inst.items <;> simp
  refine ⟨?_, hb _, ?_⟩
  · induction l with
    | nil =>
      have := ((C116_init _ _ _ _).1 ht).2.2.2
      have e : (t.after toEcef []).len = 0 := by
        unfold PyTree.after PyTree.len
        rw [this]; rfl
      rw [e]; exact .created
    | cons c l ih =>
      have ih := ih (fun c hc => hrows c (List.mem_cons_of_mem _ hc))
      have hrow := hrows c (List.mem_cons_self ..)
      show Count _ ((t.after toEcef l).call toEcef c).len
      revert ih
      generalize t.after toEcef l = u
      intro ih
      cases c with
      | clear => exact .clear ih
      | packing cols rows values =>
        by_cases hacc : Accepted cols rows values
        · obtain ⟨m, hm, -⟩ := C67_packing toEcef u.inst cols hacc.1 rows (hrow _ _ _ (.inl rfl)) values hacc.2
          have hlen : m.length = values.length := by
            unfold Tree.packing at hm
            obtain ⟨x, hx, he⟩ : ∃ x, load toEcef u.inst .packing cols rows values = .ok x ∧ x = m := by
              cases hx : load toEcef u.inst .packing cols rows values with
              | error e => rw [hx] at hm; simp [bind, Except.bind] at hm
              | ok x =>
                rw [hx] at hm
                simp [bind, Except.bind, pure, Except.pure] at hm
                exact ⟨x, rfl, hm⟩
            rw [← he]
            exact (load_length hx).2.2
          have e : (u.call toEcef (.packing cols rows values)).len = values.length := by
            unfold PyTree.call PyTree.packing
            simp only [hm, bind, Except.bind, pure, Except.pure, PyTree.len]
            exact hlen
          rw [e]; exact .packing ih hacc
        · have hm := (C67_refused toEcef u.inst cols rows values (by
            unfold Accepted at hacc
            by_cases h1 : rows.length = values.length
            · right; constructor <;> (intro h2; exact hacc ⟨by simp [h2], h1⟩)
            · exact .inl h1)).1
          have e : (u.call toEcef (.packing cols rows values)).len = u.len := by
            unfold PyTree.call PyTree.packing
            simp only [hm, bind, Except.bind]
          rw [e]; exact .packingRefused ih hacc
      | insert cols rows values =>
        by_cases hacc : Accepted cols rows values
        · obtain ⟨m, hm, -⟩ := C67_insert toEcef u.inst cols hacc.1 rows (hrow _ _ _ (.inr rfl)) values hacc.2
          have hlen : m.length = values.length := by
            unfold Tree.insert at hm
            obtain ⟨x, hx, he⟩ : ∃ x, load toEcef u.inst .insert cols rows values = .ok x ∧ x = m := by
              cases hx : load toEcef u.inst .insert cols rows values with
              | error e => rw [hx] at hm; simp [bind, Except.bind] at hm
              | ok x =>
                rw [hx] at hm
                simp [bind, Except.bind, pure, Except.pure] at hm
                exact ⟨x, rfl, hm⟩
            rw [← he]
            exact (load_length hx).2.2
          have e : (u.call toEcef (.insert cols rows values)).len = u.len + values.length := by
            unfold PyTree.call PyTree.insert
            simp only [hm, bind, Except.bind, pure, Except.pure, PyTree.len, List.length_append, hlen]
          rw [e]; exact .insert ih hacc
        · have hm := (C67_refused toEcef u.inst cols rows values (by
            unfold Accepted at hacc
            by_cases h1 : rows.length = values.length
            · right; constructor <;> (intro h2; exact hacc ⟨by simp [h2], h1⟩)
            · exact .inl h1)).2
          have e : (u.call toEcef (.insert cols rows values)).len = u.len := by
            unfold PyTree.call PyTree.insert
            simp only [hm, bind, Except.bind]
          rw [e]; exact .insertRefused ih hacc
  · clear hrows
    induction l with
    | nil => exact ⟨rfl, rfl, rfl⟩
    | cons c l ih =>
      show ((t.after toEcef l).call toEcef c).dtype = _ ∧ ((t.after toEcef l).call toEcef c).inst.spheroid = _ ∧
        ((t.after toEcef l).call toEcef c).inst.ecef = _
      revert ih
      generalize t.after toEcef l = u
      intro ih
      cases c with
      | clear => exact ih
      | packing cols rows values =>
        unfold PyTree.call PyTree.packing Tree.packing
        cases hx : load toEcef u.inst .packing cols rows values <;>
          simpa [hx, bind, Except.bind, pure, Except.pure] using ih
      | insert cols rows values =>
        unfold PyTree.call PyTree.insert Tree.insert
        cases hx : load toEcef u.inst .insert cols rows values <;>
          simpa [hx, bind, Except.bind, pure, Except.pure] using ih

/-- Two rows inserted, then a refused call: two observations. -/
example (toEcef : ℝ × ℝ → ℝ → ℝ → ℝ → Point) (t : PyTree) (ht : PyTree.init none none true = .ok t) :
    (t.after toEcef [.insert 4 [[1, 2, 3, 4]] [1], .insert 2 [[0, 0], [1, 1]] [5, 6]]).len = 2 := by
  have h := (C116_history toEcef none none true t ht [.insert 4 [[1, 2, 3, 4]] [1], .insert 2 [[0, 0], [1, 1]] [5, 6]]
    (by
      intro c hc cols rows values he r hr
      simp only [List.mem_cons, List.not_mem_nil, or_false] at hc
      rcases hc with rfl | rfl <;> rcases he with he | he <;> cases he <;> simp_all
      rcases hr with rfl | rfl <;> rfl)).1
  generalize (t.after toEcef [.insert 4 [[1, 2, 3, 4]] [1], .insert 2 [[0, 0], [1, 1]] [5, 6]]).len = n at h ⊢
  cases h with
  | insert _ ha => exact absurd ha.1 (by omega)
  | insertRefused h _ =>
    cases h with
    | insert h _ => cases h; rfl
    | insertRefused _ h => exact absurd ⟨.inl rfl, rfl⟩ h

/-- **C116, not true of the code** A pickle (or a copy by the module `copy`) of a Python mesh loses the observations, the
geodetic system and the flag `ecef`: the result is always an empty WGS84 mesh. -/
theorem C116_pickle (t : PyTree) (ht : t.dtype = .float64 ∨ t.dtype = .float32) :
    t.pickle = .ok ⟨t.dtype, ⟨wgs84, false, []⟩⟩ := by
  obtain ⟨d, i⟩ := t
  rcases ht with ht | ht <;> cases ht <;>
    simp [PyTree.pickle, PyTree.setstate, PyTree.getstate, PyTree.init, Tree.make, coreSetstate, bind, Except.bind, pure,
      Except.pure]

/-- **C116, the claim is false** A mesh that holds at least one observation, or that does not use WGS84, is not restored
from its pickle. -/
theorem C116_pickle_false (t : PyTree) (ht : t.dtype = .float64 ∨ t.dtype = .float32) :
    t.pickle = .ok t ↔ t.inst.items = [] ∧ t.inst.spheroid = wgs84 ∧ t.inst.ecef = false := by
  rw [C116_pickle t ht]
  obtain ⟨d, s, e, i⟩ := t
  simp only [Except.ok.injEq, PyTree.mk.injEq, Tree.mk.injEq, true_and]
  constructor
  · rintro ⟨rfl, rfl, rfl⟩; exact ⟨rfl, rfl, rfl⟩
  · rintro ⟨rfl, rfl, rfl⟩; exact ⟨rfl, rfl, rfl⟩

example : (⟨.float64, ⟨wgs84, false, [⟨⟨1, 2, 3⟩, 4⟩]⟩⟩ : PyTree).pickle ≠ .ok ⟨.float64, ⟨wgs84, false, [⟨⟨1, 2, 3⟩, 4⟩]⟩⟩ := by
  rw [Ne, C116_pickle_false _ (.inl rfl)]
  simp

/-- **C116** The objects of the core classes that do not use `ecef` are restored from their pickle. -/
theorem C116_core_pickle (t : Tree) (h : t.ecef = false) : corePickle t = .ok t := C69_pickle t h

/-- **C116** By default `query` returns nothing (-1) at a point that is not in the box of its four neighbours. -/
theorem C116_query_outside (near : List Item) (p : Point) (k : Option Nat)
    (hout : coveredBy p (near.map Item.pt) = false) :
    PyTree.query p near k none = .ok (List.replicate (k.getD 4) (-1, -1)) := by
  unfold PyTree.query pyQuery queryWithin queryRow
  simp [hout]

/-- **C116, the documentation is false** "within: Defaults to false": the result of `query` without the argument is that of
`within = true`; the neighbours of a point outside of their box are returned only with `within = false`. -/
theorem C116_query_default_false (all near : List Item) (p : Point) (k : Option Nat) (hk : 0 < k.getD 4)
    (hn : KNearest all p (k.getD 4) near) (hne : all ≠ []) (hout : coveredBy p (near.map Item.pt) = false) :
    PyTree.query p near k none = PyTree.query p near k (some true) ∧
    PyTree.query p near k none ≠ PyTree.query p near k (some false) := by
  refine ⟨rfl, ?_⟩
  rw [C116_query_outside near p k hout]
  have h1 : 0 < all.length := List.length_pos_of_ne_nil hne
  have hle : near.length ≤ k.getD 4 := by rw [hn.count]; omega
  cases near with
  | nil => have := hn.count; simp at this; omega
  | cons a l =>
    unfold PyTree.query pyQuery queryRow query
    have : ¬ ((a :: l).map fun i => (distance p i.pt, i.val)).length > k.getD 4 := by
      simpa using hle
    simp only [Option.getD_some, Bool.false_eq_true, if_false]
    rw [if_neg this]
    intro h
    have h := Except.ok.inj h
    obtain ⟨m, hm⟩ : ∃ m, k.getD 4 = m + 1 := ⟨k.getD 4 - 1, by omega⟩
    rw [hm, List.replicate_succ, List.map_cons, List.cons_append, List.cons.injEq] at h
    have h2 : (-1 : ℝ) = distance p a.pt := congrArg Prod.fst h.1
    have := distance_nonneg' p a.pt
    linarith

/-- One observation and another point. -/
example : PyTree.query ⟨0, 0, 0⟩ [⟨⟨1, 0, 0⟩, 7⟩] none none ≠ PyTree.query ⟨0, 0, 0⟩ [⟨⟨1, 0, 0⟩, 7⟩] none (some false) := by
  refine (C116_query_default_false [⟨⟨1, 0, 0⟩, 7⟩] _ _ none (by simp) ⟨rfl, by simp, [], by simp, by simp⟩ (by simp) ?_).2
  simp [coveredBy]

/-- **C116** `window_function` of the Python class: a name that is not documented is refused; a documented name selects its
function. -/
theorem C116_window (point : Point) (near : List Item) (radius : Option ℝ) (wf : Option String) (arg : Option ℝ)
    (within : Option Bool) (r : Option ℝ × Nat) (h : PyTree.windowFunction point near radius wf arg within = .ok r) :
    ∃ f, WindowFunctions.coreWindowFunction wf arg = .ok f ∧
      r = windowFunction point near f (arg.getD 0) radius (within.getD true) := by
  unfold PyTree.windowFunction at h
  cases hf : WindowFunctions.coreWindowFunction wf arg with
  | error e => rw [hf] at h; simp [bind, Except.bind] at h
  | ok f =>
    rw [hf] at h
    simp only [bind, Except.bind, pure, Except.pure, Except.ok.injEq] at h
    exact ⟨f, rfl, h.symm⟩

/-- A change keeps the coordinate system. -/
theorem apply_system {toEcef : ℝ × ℝ → ℝ → ℝ → ℝ → Point} {t t' : Tree} {c : Change} (h : t.apply toEcef c = .ok t') :
    t'.spheroid = t.spheroid ∧ t'.ecef = t.ecef := by
  cases c with
  | clear => cases h; exact ⟨rfl, rfl⟩
  | packing cols rows values =>
    unfold Tree.apply Tree.packing at h
    cases hl : load toEcef t .packing cols rows values with
    | error e => simp [hl, bind, Except.bind] at h
    | ok l =>
      simp [hl, bind, Except.bind, pure, Except.pure] at h
      rw [← h]; exact ⟨rfl, rfl⟩
  | insert cols rows values =>
    unfold Tree.apply Tree.insert at h
    cases hl : load toEcef t .insert cols rows values with
    | error e => simp [hl, bind, Except.bind] at h
    | ok l =>
      simp [hl, bind, Except.bind, pure, Except.pure] at h
      rw [← h]; exact ⟨rfl, rfl⟩

/-- **C116** A shallow copy of a core mesh shares the observations: a change made through the copy is a change of the mesh
itself, and a change made through the mesh is a change of the copy; the meshes that do not share them are not changed. -/
theorem C116_copy (toEcef : ℝ × ℝ → ℝ → ℝ → ℝ → Point) (h h' : Heap) (o other : Obj) (hother : other.ptr ≠ o.ptr) (c : Change)
    (hc : o.copy.change toEcef h c = .ok h' ∨ o.change toEcef h c = .ok h') :
    (o.view h).apply toEcef c = .ok (o.view h') ∧ (o.copy.view h).apply toEcef c = .ok (o.copy.view h') ∧
    o.copy.view h' = o.view h' ∧ other.view h' = other.view h := by
  have key : ∀ a : Obj, a.ptr = o.ptr → a.spheroid = o.spheroid → a.ecef = o.ecef → a.change toEcef h c = .ok h' →
      (o.view h).apply toEcef c = .ok (o.view h') ∧ other.view h' = other.view h := by
    clear hc
    intro a h1 h2 h3 hc
    have ha : a = o := by cases a; cases o; simp_all
    subst ha
    unfold Obj.change at hc
    cases ht : (a.view h).apply toEcef c with
    | error e => simp [ht, bind, Except.bind] at hc
    | ok t =>
      simp only [ht, bind, Except.bind, pure, Except.pure, Except.ok.injEq] at hc
      obtain ⟨s1, s2⟩ := apply_system ht
      rw [← hc]
      constructor
      · obtain ⟨s, e, l⟩ := t
        simp only [Obj.view] at s1 s2 ⊢
        simp [s1, s2]
      · simp [Obj.view, hother]
  rcases hc with hc | hc
  · obtain ⟨a, b⟩ := key o.copy rfl rfl rfl hc
    exact ⟨a, a, rfl, b⟩
  · obtain ⟨a, b⟩ := key o rfl rfl rfl hc
    exact ⟨a, a, rfl, b⟩

example (toEcef : ℝ × ℝ → ℝ → ℝ → ℝ → Point) (h : Heap) (o : Obj) :
    ∃ h', o.copy.change toEcef h (.insert 2 [[1, 2]] [3]) = .ok h' := by
  obtain ⟨l, hl, -⟩ := C67_insert toEcef (o.view h) 2 (.inl rfl) [[1, 2]] (by simp) [3] rfl
  exact ⟨Function.update h o.ptr (h o.ptr ++ l), by
    simp only [Obj.change, Obj.copy, Tree.apply, hl, bind, Except.bind, pure, Except.pure]
    rfl⟩

end Pyinterp.RTree
