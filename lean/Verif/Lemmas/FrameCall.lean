import Verif.Lemmas.History2D
import Verif.Lemmas.Frame
import Verif.Props.C29_Threads

/-
The calls of the interpolators of `pyinterp.bicubic`: the result for a point does not depend on the
points treated before.
-/
namespace Pyinterp.Interp
open Pyinterp Spec Variate
set_option linter.unusedSectionVars false
set_option linter.unusedVariables false
set_option linter.unusedSimpArgs false

section
variable {K : Type} [Field K] [LinearOrder K] [IsStrictOrderedRing K] [FloorRing K]
variable {T : Type} [LinearOrder T] [AddCommGroup T] [AxisNum T] [ZNum T K]

theorem windowLoop_length (circle : Bool) (len : Int) (b : Boundary) (i0 i1 : Int) (n : Nat) :
    ∀ (s : Int) (acc : List Int), Axis.windowLoop circle len b i0 i1 n s acc = [] ∨
      (Axis.windowLoop circle len b i0 i1 n s acc).length = acc.length + 2 * n := by
  induction n with
  | zero => intro s acc; right; simp [Axis.windowLoop]
  | succ n ih =>
    intro s acc
    unfold Axis.windowLoop
    split
    · rcases ih (s + 1) (_ :: (acc ++ [_])) with h | h
      · exact Or.inl h
      · right
        rw [h]
        simp only [List.length_cons, List.length_append, List.length_nil]
        omega
    · exact Or.inl rfl

/-- A window has twice the half size, or is empty. -/
theorem window_length {a : Axis T} {c : T} {n : Nat} {b : Boundary} {w : List Int}
    (h : a.findIndexesWindow c n b = .ok w) : w = [] ∨ w.length = 2 * n := by
  unfold Axis.findIndexesWindow at h
  split at h
  · cases h
  · next hn =>
    simp only [bind, Except.bind] at h
    cases e : a.findIndexes c with
    | error => rw [e] at h; cases h
    | ok r =>
      rw [e] at h
      simp only at h
      cases r with
      | none =>
        simp only at h
        split at h
        · cases e' : a.cont.coord 0 with
          | error => rw [e'] at h; cases h
          | ok v =>
            rw [e'] at h
            simp only [pure, Except.pure, Except.ok.injEq] at h
            subst h
            split
            · right; simp
            · left; rfl
        · simp only [pure, Except.pure, Except.ok.injEq] at h
          exact Or.inl h.symm
      | some p =>
        obtain ⟨i0, i1⟩ := p
        simp only [pure, Except.pure, Except.ok.injEq] at h
        subst h
        rcases windowLoop_length a.isCircle a.size b i0 i1 (n - 1) 1 [i0, i1] with h | h
        · exact Or.inl h
        · right
          rw [h]
          simp only [List.length_cons, List.length_nil]
          omega

theorem mapM_length {α β : Type} (f : α → Out β) (l : List α) {r : List β} (h : l.mapM f = .ok r) :
    r.length = l.length := by
  induction l generalizing r with
  | nil =>
    rw [List.mapM_nil] at h
    simp only [pure, Except.pure, Except.ok.injEq] at h
    subst h; rfl
  | cons a l ih =>
    rw [List.mapM_cons] at h
    simp only [bind, Except.bind] at h
    cases e : f a with
    | error => rw [e] at h; cases h
    | ok v =>
      rw [e] at h
      simp only at h
      cases e' : l.mapM f with
      | error => rw [e'] at h; cases h
      | ok w =>
        rw [e'] at h
        simp only [pure, Except.pure, Except.ok.injEq] at h
        subst h
        simp [ih e']

theorem frameXY_length {g : Grid2D K} {xi yi : List Int} {f : List K × List K}
    (h : frameXY g xi yi = .ok f) : f.1.length = xi.length ∧ f.2.length = yi.length := by
  unfold frameXY at h
  simp only [bind, Except.bind] at h
  cases e0 : g.x.cont.coord (xi.getD 0 0) with
  | error => rw [e0] at h; cases h
  | ok x0 =>
    rw [e0] at h
    simp only at h
    cases e1 : yi.mapM g.y.cont.coord with
    | error => rw [e1] at h; cases h
    | ok ys =>
      rw [e1] at h
      simp only at h
      cases e2 : xi.mapM (frameX g.x x0) with
      | error => rw [e2] at h; cases h
      | ok xs =>
        rw [e2] at h
        simp only [Except.ok.injEq] at h
        subst h
        exact ⟨mapM_length _ _ e2, mapM_length _ _ e1⟩

/-- A computation with an interpolator of the class `k` used on windows of `nx` by `ny` points: its result
depends neither on the state of the interpolator nor on the memory it allocates, and it leaves the
interpolator in such a state. -/
def Steady (same : Nat → Nat → Bool) (nx ny : Nat) (k : Kind2D) {α : Type}
    (f : (Nat → K) → Obj2D K → Out (α × Obj2D K)) : Prop :=
  ∃ r : Out α, ∀ junk o, o.Used same nx ny k →
    (f junk o).map (·.1) = r ∧ ∀ v o', f junk o = .ok (v, o') → o'.Used same nx ny k

theorem steady_pure (same : Nat → Nat → Bool) (nx ny : Nat) (k : Kind2D) {α : Type} (v : α) :
    Steady (K := K) same nx ny k (fun _ o => .ok (v, o)) :=
  ⟨.ok v, fun junk o ho => ⟨rfl, fun w o' h => by cases h; exact ho⟩⟩

theorem steady_error (same : Nat → Nat → Bool) (nx ny : Nat) (k : Kind2D) {α : Type} (e : Err) :
    Steady (K := K) same nx ny k (fun _ _ => (.error e : Out (α × Obj2D K))) :=
  ⟨.error e, fun junk o ho => ⟨rfl, fun w o' h => by cases h⟩⟩

theorem steady_call (same : Nat → Nat → Bool) (k : Kind2D) (xs ys : List K) (m : Mat K) (x y : K) :
    Steady (K := K) same xs.length ys.length k (fun junk o => o.call same junk xs ys m x y) := by
  refine ⟨((Obj2D.new (fun _ => 0) k).call same (fun _ => 0) xs ys m x y).map (·.1), fun junk o ho => ⟨?_, ?_⟩⟩
  · exact Obj2D.call_const junk _ m x y ho (Obj2D.new_used _ _ _ _ _)
  · intro v o' h
    exact Obj2D.call_used ho h

theorem steady_bind {same : Nat → Nat → Bool} {nx ny : Nat} {k : Kind2D} {α β : Type}
    {f : (Nat → K) → Obj2D K → Out (α × Obj2D K)} {g : α → (Nat → K) → Obj2D K → Out (β × Obj2D K)}
    (hf : Steady same nx ny k f) (hg : ∀ a, Steady same nx ny k (g a)) :
    Steady same nx ny k (fun junk o => do let r ← f junk o; g r.1 junk r.2) := by
  obtain ⟨r, hr⟩ := hf
  cases r with
  | error e =>
    refine ⟨.error e, fun junk o ho => ?_⟩
    have := (hr junk o ho).1
    cases e' : f junk o with
    | error e'' =>
      rw [e'] at this
      cases this
      simp only [bind, Except.bind, e']
      exact ⟨rfl, fun v o' h => by cases h⟩
    | ok p => rw [e'] at this; cases this
  | ok a =>
    obtain ⟨r', hr'⟩ := hg a
    refine ⟨r', fun junk o ho => ?_⟩
    obtain ⟨h1, h2⟩ := hr junk o ho
    cases e' : f junk o with
    | error e'' => rw [e'] at h1; cases h1
    | ok p =>
      rw [e'] at h1
      obtain ⟨a', o1⟩ := p
      have ha : a' = a := Except.ok.inj h1
      subst ha
      simp only [bind, Except.bind, e']
      exact hr' junk o1 (h2 _ _ e')

/-- As `steady_bind`, for what does not depend on the interpolator. -/
theorem steady_let {same : Nat → Nat → Bool} {nx ny : Nat} {k : Kind2D} {α β : Type} {m : Out α}
    {g : α → (Nat → K) → Obj2D K → Out (β × Obj2D K)}
    (hg : ∀ a, m = .ok a → Steady same nx ny k (g a)) :
    Steady same nx ny k (fun junk o => do let a ← m; g a junk o) := by
  cases m with
  | error e => exact steady_error same nx ny k e
  | ok a => exact hg a rfl

theorem bicubicPoint_steady (same : Nat → Nat → Bool) (nx ny : Nat) (k : Kind2D) (b : Boundary)
    (be : Bool) (g : Grid2D K) (p : K × K) :
    Steady same (2 * nx) (2 * ny) k (fun junk o => bicubicPoint same nx ny b be g junk o p) := by
  unfold bicubicPoint
  refine steady_let fun yi ey => steady_let fun xi ex => ?_
  by_cases hne : xi = [] ∨ yi = []
  · simp only [if_pos hne]
    cases be
    · exact steady_pure same _ _ k none
    · exact steady_error same _ _ k .exn
  · simp only [if_neg hne]
    push Not at hne
    have hx := (window_length ex).resolve_left hne.1
    have hy := (window_length ey).resolve_left hne.2
    refine steady_let fun f ef => steady_let fun q eq => ?_
    cases frameMat xi yi q with
    | none => exact steady_pure same _ _ k none
    | some za =>
      obtain ⟨h1, h2⟩ := frameXY_length ef
      rw [← hx, ← hy, ← h1, ← h2]
      exact steady_call same k f.1 f.2 za _ _

theorem bicubicPoint3_steady (same : Nat → Nat → Bool) (nx ny : Nat) (k : Kind2D) (b : Boundary)
    (be : Bool) (g : Grid3D T K) (p : K × K × T) :
    Steady same (2 * nx) (2 * ny) k (fun junk o => bicubicPoint3 same nx ny b be g junk o p) := by
  unfold bicubicPoint3
  refine steady_let fun zi ez => steady_let fun yi ey => steady_let fun xi ex => ?_
  by_cases hne : xi = [] ∨ yi = [] ∨ zi = []
  · simp only [if_pos hne]
    cases be
    · exact steady_pure same _ _ k none
    · exact steady_error same _ _ k .exn
  · simp only [if_neg hne]
    push Not at hne
    have hx := (window_length ex).resolve_left hne.1
    have hy := (window_length ey).resolve_left hne.2.1
    refine steady_let fun f ef => steady_let fun z0 ez0 => steady_let fun z1 ez1 => steady_let fun q0 eq0 =>
      steady_let fun q1 eq1 => ?_
    obtain ⟨h1, h2⟩ := frameXY_length ef
    rw [← hx, ← hy, ← h1, ← h2]
    cases frameMat xi yi q0 with
    | none => exact steady_pure same _ _ k none
    | some m0 =>
      cases frameMat xi yi q1 with
      | none => exact steady_pure same _ _ k none
      | some m1 =>
        exact steady_bind (steady_call same k f.1 f.2 m0 _ _) fun a =>
          steady_bind (g := fun c _ o => .ok (zLinear p.2.2 z0 z1 a c, o)) (steady_call same k f.1 f.2 m1 _ _) fun c =>
            steady_pure same _ _ k _

theorem bicubicPoint4_steady (same : Nat → Nat → Bool) (nx ny : Nat) (k : Kind2D) (b : Boundary)
    (be : Bool) (g : Grid4D T K) (p : K × K × T × K) :
    Steady same (2 * nx) (2 * ny) k (fun junk o => bicubicPoint4 same nx ny b be g junk o p) := by
  unfold bicubicPoint4
  refine steady_let fun ui eu => steady_let fun zi ez => steady_let fun yi ey => steady_let fun xi ex => ?_
  by_cases hne : xi = [] ∨ yi = [] ∨ zi = [] ∨ ui = []
  · simp only [if_pos hne]
    cases be
    · exact steady_pure same _ _ k none
    · exact steady_error same _ _ k .exn
  · simp only [if_neg hne]
    push Not at hne
    have hx := (window_length ex).resolve_left hne.1
    have hy := (window_length ey).resolve_left hne.2.1
    refine steady_let fun f ef => steady_let fun z0 ez0 => steady_let fun z1 ez1 => steady_let fun u0 eu0 =>
      steady_let fun u1 eu1 => steady_let fun q0 eq0 =>
      steady_let fun q1 eq1 => steady_let fun q2 eq2 => steady_let fun q3 eq3 => ?_
    obtain ⟨h1, h2⟩ := frameXY_length ef
    rw [← hx, ← hy, ← h1, ← h2]
    cases frameMat xi yi q0 with
    | none => exact steady_pure same _ _ k none
    | some m0 =>
      cases frameMat xi yi q1 with
      | none => exact steady_pure same _ _ k none
      | some m1 =>
        cases frameMat xi yi q2 with
        | none => exact steady_pure same _ _ k none
        | some m2 =>
          cases frameMat xi yi q3 with
          | none => exact steady_pure same _ _ k none
          | some m3 =>
            exact steady_bind (steady_call same k f.1 f.2 m0 _ _) fun a =>
              steady_bind (steady_call same k f.1 f.2 m2 _ _) fun c =>
              steady_bind (steady_call same k f.1 f.2 m1 _ _) fun d =>
              steady_bind (g := fun e _ o => .ok (zLinear p.2.2.2 u0 u1 (zLinear p.2.2.1 z0 z1 a c)
                (zLinear p.2.2.1 z0 z1 d e), o)) (steady_call same k f.1 f.2 m3 _ _) fun e =>
                steady_pure same _ _ k _

/-! ### the loops -/

theorem loop_ok {P : Type} {same : Nat → Nat → Bool} {nx ny : Nat} {k : Kind2D}
    {point : (Nat → K) → Obj2D K → P → Out (Option K × Obj2D K)}
    (hp : ∀ p, Steady same nx ny k (fun junk o => point junk o p)) (v : P → Option K) (junk0 : Nat → K) :
    ∀ (ps : List P), (∀ p ∈ ps, (point junk0 (Obj2D.new junk0 k) p).map (·.1) = .ok (v p)) →
    ∀ (junk : Nat → Nat → K) (n : Nat) (o : Obj2D K), o.Used same nx ny k →
      bicubicLoop point junk n o ps = .ok (ps.map v) := by
  intro ps
  induction ps with
  | nil => intro _ junk n o _; rfl
  | cons p ps ih =>
    intro h junk n o ho
    obtain ⟨r, hr⟩ := hp p
    dsimp only at hr
    have h0 := h p List.mem_cons_self
    have e0 := (hr junk0 _ (Obj2D.new_used same nx ny junk0 k)).1
    obtain ⟨e1, e2⟩ := hr (junk n) o ho
    rw [h0] at e0
    rw [← e0] at e1
    cases e : point (junk n) o p with
    | error => rw [e] at e1; cases e1
    | ok q =>
      obtain ⟨w, o'⟩ := q
      rw [e] at e1
      have : w = v p := Except.ok.inj e1
      subst this
      simp only [bicubicLoop, e, bind, Except.bind]
      rw [ih (fun p hp => h p (List.mem_cons_of_mem _ hp)) junk (n + 1) o' (e2 _ _ e)]
      rfl

theorem loop_error {P : Type} {same : Nat → Nat → Bool} {nx ny : Nat} {k : Kind2D}
    {point : (Nat → K) → Obj2D K → P → Out (Option K × Obj2D K)}
    (hp : ∀ p, Steady same nx ny k (fun junk o => point junk o p)) (junk0 : Nat → K) :
    ∀ (ps : List P) (junk : Nat → Nat → K) (n : Nat) (o : Obj2D K), o.Used same nx ny k →
      (∃ p ∈ ps, ∃ e, (point junk0 (Obj2D.new junk0 k) p).map (·.1) = .error e) →
      ∃ p ∈ ps, ∃ e, (point junk0 (Obj2D.new junk0 k) p).map (·.1) = .error e ∧
        bicubicLoop point junk n o ps = .error e := by
  intro ps
  induction ps with
  | nil => intro junk n o _ h; obtain ⟨p, hp, -⟩ := h; cases hp
  | cons p ps ih =>
    intro junk n o ho h
    obtain ⟨r, hr⟩ := hp p
    dsimp only at hr
    have e0 := (hr junk0 _ (Obj2D.new_used same nx ny junk0 k)).1
    obtain ⟨e1, e2⟩ := hr (junk n) o ho
    cases e : point (junk n) o p with
    | error er =>
      rw [e] at e1
      refine ⟨p, List.mem_cons_self, er, ?_, ?_⟩
      · rw [e0, ← e1]; rfl
      · simp only [bicubicLoop, e, bind, Except.bind]
    | ok q =>
      obtain ⟨w, o'⟩ := q
      rw [e] at e1
      have hrest : ∃ p ∈ ps, ∃ e, (point junk0 (Obj2D.new junk0 k) p).map (·.1) = .error e := by
        obtain ⟨p', hp', er, her⟩ := h
        rcases List.mem_cons.1 hp' with rfl | hp'
        · rw [her, ← e1] at e0
          cases e0
        · exact ⟨p', hp', er, her⟩
      obtain ⟨p', hp', er, h1, h2⟩ := ih junk (n + 1) o' (e2 _ _ e) hrest
      refine ⟨p', List.mem_cons_of_mem _ hp', er, h1, ?_⟩
      simp only [bicubicLoop, e, bind, Except.bind]
      rw [h2]

/-- The slices of a list, one after the other, are the list. -/
theorem slices_list {P : Type} (ps : List P) (sl : List (Nat × Nat))
    (hb : ∀ s ∈ sl, s.1 ≤ s.2 ∧ s.2 ≤ ps.length)
    (h : (sl.map fun s => List.range' s.1 (s.2 - s.1)).flatten = List.range ps.length) :
    (sl.map fun s => (ps.drop s.1).take (s.2 - s.1)).flatten = ps := by
  have key : ∀ s : Nat × Nat, s.1 ≤ s.2 ∧ s.2 ≤ ps.length →
      ((ps.drop s.1).take (s.2 - s.1)).map some = (List.range' s.1 (s.2 - s.1)).map (fun i => ps[i]?) := by
    intro s hs
    apply List.ext_getElem
    · simp; omega
    · intro i h1 h2
      simp only [List.length_map, List.length_take, List.length_drop] at h1
      simp only [List.getElem_map, List.getElem_take, List.getElem_drop, List.getElem_range', one_mul]
      rw [List.getElem?_eq_getElem]
  have : ((sl.map fun s => (ps.drop s.1).take (s.2 - s.1)).flatten).map some = ps.map some := by
    rw [List.map_flatten, List.map_map]
    have e : sl.map (List.map some ∘ fun s => (ps.drop s.1).take (s.2 - s.1)) =
        (sl.map fun s => List.range' s.1 (s.2 - s.1)).map (List.map fun i => ps[i]?) := by
      rw [List.map_map]
      exact List.map_congr_left fun s hs => key s (hb s hs)
    rw [e, ← List.map_flatten, h]
    apply List.ext_getElem
    · simp
    · intro i h1 h2
      simp at h1
      simp [h1]
  exact (List.map_injective_iff.2 (Option.some_injective _)) this

end
end Pyinterp.Interp
