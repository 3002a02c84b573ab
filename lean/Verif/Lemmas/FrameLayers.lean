import Verif.Lemmas.FrameCall
import Verif.Lemmas.Grid34

/-
`pyinterp.bicubic` on 3-D and 4-D grids in terms of the layers of the grid.
-/
namespace Pyinterp.Interp
open Pyinterp Spec Variate
set_option linter.unusedSectionVars false
set_option linter.unusedVariables false
set_option linter.unusedSimpArgs false

section
variable {K : Type} [Field K] [LinearOrder K] [IsStrictOrderedRing K] [FloorRing K]
variable {T : Type} [CommRing T] [LinearOrder T] [IsStrictOrderedRing T] [AxisNum T]
  [LawfulAxisNum T] [ZNum T K] [LawfulZNum T K]

/-- The result for a point with a new interpolator. -/
def newPoint {P : Type} (point : (Nat → K) → Obj2D K → P → Out (Option K × Obj2D K)) (k : Kind2D)
    (p : P) : Out (Option K) :=
  (point (fun _ => 0) (Obj2D.new (fun _ => 0) k) p).map (·.1)

/-- A value of a layer. -/
theorem layer_value (arr : Arr K) (s : List Nat) (n : Nat) (hs : arr.shape = s ++ [n]) (idx : List Int)
    (hi : idx.length = s.length) (k : Nat) (hk : k < n) :
    (arr.layer k).value idx = arr.value (idx ++ [(k : Int)]) := by
  unfold Arr.value
  have h1 : (arr.layer k).shape = s := by simp [Arr.layer, hs]
  have h2 : (idx ++ [(k : Int)]).zip arr.shape = idx.zip s ++ [((k : Int), n)] := by
    rw [hs, List.zip_append hi]; rfl
  rw [h2, h1]
  have e : (idx.length = s.length ∧ ∀ p ∈ idx.zip s, 0 ≤ p.1 ∧ p.1 < (p.2 : Int)) ↔
      ((idx ++ [(k : Int)]).length = arr.shape.length ∧
        ∀ p ∈ idx.zip s ++ [((k : Int), n)], 0 ≤ p.1 ∧ p.1 < (p.2 : Int)) := by
    rw [hs]
    constructor
    · rintro ⟨h, h'⟩
      refine ⟨by simp [h], ?_⟩
      intro p hp
      rcases List.mem_append.1 hp with hp | hp
      · exact h' p hp
      · simp only [List.mem_singleton] at hp
        subst hp
        exact ⟨by simp, by simpa using hk⟩
    · rintro ⟨h, h'⟩
      exact ⟨hi, fun p hp => h' p (List.mem_append_left _ hp)⟩
  by_cases hc : idx.length = s.length ∧ ∀ p ∈ idx.zip s, 0 ≤ p.1 ∧ p.1 < (p.2 : Int)
  · rw [if_pos hc, if_pos (e.1 hc)]
    simp [Arr.layer]
  · rw [if_neg hc, if_neg (fun h => hc (e.2 h))]

theorem frameQ_layer (arr : Arr K) (a b n : Nat) (r : List Nat) (hs : arr.shape = [a, b] ++ r ++ [n])
    (xi yi rest : List Int) (hr : rest.length = r.length) (k : Nat) (hk : k < n) :
    frameQ (arr.layer k) xi yi rest = frameQ arr xi yi (rest ++ [(k : Int)]) := by
  unfold frameQ
  congr 1
  funext i
  congr 1
  funext j
  exact layer_value arr ([a, b] ++ r) n hs (i :: j :: rest) (by simp [hr]) k hk

theorem mapM_unit {α β : Type} (f g : α → Out β) (l : List α)
    (h : ∀ a, (f a).map (fun _ => ()) = (g a).map (fun _ => ())) :
    (l.mapM f).map (fun _ => ()) = (l.mapM g).map (fun _ => ()) := by
  induction l with
  | nil => rfl
  | cons a l ih =>
    rw [List.mapM_cons, List.mapM_cons]
    have ha := h a
    simp only [bind, Except.bind]
    cases e : f a <;> cases e' : g a <;> rw [e, e'] at ha <;>
      first | (cases ha; rfl) | (cases ha; done) | skip
    simp only
    cases e2 : l.mapM f <;> cases e3 : l.mapM g <;> rw [e2, e3] at ih <;> cases ih <;> rfl

/-- The reading of the windows of two layers fails on both or on none. -/
theorem frameQ_unit (arr : Arr K) (a b n : Nat) (r : List Nat) (hs : arr.shape = [a, b] ++ r ++ [n])
    (xi yi rest : List Int) (hr : rest.length = r.length) (k k' : Nat) (hk : k < n) (hk' : k' < n) :
    (frameQ arr xi yi (rest ++ [(k : Int)])).map (fun _ => ()) =
      (frameQ arr xi yi (rest ++ [(k' : Int)])).map (fun _ => ()) := by
  rw [← frameQ_layer arr a b n r hs xi yi rest hr k hk, ← frameQ_layer arr a b n r hs xi yi rest hr k' hk']
  apply mapM_unit
  intro i
  apply mapM_unit
  intro j
  unfold Arr.value
  have : (arr.layer k).shape = (arr.layer k').shape := rfl
  rw [this]
  split <;> rfl

theorem map_bind {α β : Type} (m : Out α) (f : α → Out (β × Obj2D K)) :
    (m >>= f).map (·.1) = m >>= fun a => (f a).map (·.1) := by
  cases m <;> rfl

theorem some_pair {β : Type} {γ : Type} (f : γ → γ → β) (d : β) (a b : Option γ) :
    (match a, b with
      | some x, some y => f x y
      | _, _ => d) = (match a with
      | none => d
      | some x => match b with
        | none => d
        | some y => f x y) := by
  cases a <;> cases b <;> rfl

/-- The results of two successive calls. -/
theorem two_calls (same : Nat → Nat → Bool) (k : Kind2D) (xs ys : List K) (m0 m1 : Mat K) (x y : K)
    (f : Option K → Option K → Option K) :
    ((do
      let r0 ← (Obj2D.new (fun _ => 0) k).call same (fun _ => 0) xs ys m0 x y
      let r1 ← r0.2.call same (fun _ => 0) xs ys m1 x y
      .ok (f r0.1 r1.1, r1.2) : Out (Option K × Obj2D K))).map (·.1) =
    (do
      let s0 ← ((Obj2D.new (fun _ => 0) k).call same (fun _ => 0) xs ys m0 x y).map (·.1)
      let s1 ← ((Obj2D.new (fun _ => 0) k).call same (fun _ => 0) xs ys m1 x y).map (·.1)
      .ok (f s0 s1)) := by
  have hn := Obj2D.new_used (K := K) same xs.length ys.length (fun _ => 0) k
  cases e0 : (Obj2D.new (fun _ => 0) k).call same (fun _ => 0) xs ys m0 x y with
  | error e => rfl
  | ok p =>
    obtain ⟨v0, o⟩ := p
    have ho := Obj2D.call_used hn e0
    have h := Obj2D.call_const (fun _ => 0) (fun _ => 0) m1 x y ho hn
    simp only [bind, Except.bind, Except.map]
    cases e1 : o.call same (fun _ => 0) xs ys m1 x y with
    | error e =>
      rw [e1] at h
      cases e2 : (Obj2D.new (fun _ => 0) k).call same (fun _ => 0) xs ys m1 x y with
      | error e' => rw [e2] at h; cases h; rfl
      | ok q => rw [e2] at h; cases h
    | ok p =>
      rw [e1] at h
      cases e2 : (Obj2D.new (fun _ => 0) k).call same (fun _ => 0) xs ys m1 x y with
      | error e' => rw [e2] at h; cases h
      | ok q => rw [e2] at h; simp only [Except.map, Except.ok.injEq] at h; simp only [h]

/-- In 3-D: the value on the line between the results of the layers, or NaN without the evaluation of one
of them. -/
theorem point3_layers {same : Nat → Nat → Bool} {nx ny : Nat} {k : Kind2D} {b : Boundary}
    {be : Bool} {ax ay : Axis K} {az : Axis T} {arr : Arr K} {n1 n2 n3 : Nat} (hs : arr.shape = [n1, n2, n3])
    {z z0 z1 : T} {c c' : Nat} (hc : c < n3) (hc' : c' < n3)
    (hw : az.findIndexesWindow z 1 b = .ok [(c : Int), (c' : Int)]) (h0 : az.cont.coord c = .ok z0)
    (h1 : az.cont.coord c' = .ok z1) (x y : K) :
    let r0 := newPoint (bicubicPoint same nx ny b be { x := ax, y := ay, arr := arr.layer c }) k (x, y)
    let r1 := newPoint (bicubicPoint same nx ny b be { x := ax, y := ay, arr := arr.layer c' }) k (x, y)
    let r := newPoint (bicubicPoint3 same nx ny b be { x := ax, y := ay, arr := arr, z := az }) k (x, y, z)
    r = (do let s0 ← r0; let s1 ← r1; .ok (zLinear z z0 z1 s0 s1)) ∨
      (r = .ok none ∧ (r0 = .ok none ∨ r1 = .ok none)) := by
  have hq := fun (d : Nat) (hd : d < n3) (xi yi : List Int) => frameQ_layer arr n1 n2 n3 [] hs xi yi [] rfl d hd
  have hu := fun (xi yi : List Int) => frameQ_unit arr n1 n2 n3 [] hs xi yi [] rfl c c' hc hc'
  simp only [List.nil_append] at hq hu
  unfold newPoint bicubicPoint bicubicPoint3
  dsimp only [List.getD_cons_zero, List.getD_cons_succ]
  simp only [hw, hq c hc, hq c' hc']
  have g0 : [(c : Int), (c' : Int)].getD 0 0 = c := rfl
  have g1 : [(c : Int), (c' : Int)].getD 1 0 = c' := rfl
  cases ey : ay.findIndexesWindow y ny b with
  | error e => left; rfl
  | ok yi =>
    cases ex : ax.findIndexesWindow x nx b with
    | error e => left; rfl
    | ok xi =>
      simp only [bind, Except.bind, g0, g1, h0, h1]
      by_cases hne : xi = [] ∨ yi = []
      · have hne' : xi = [] ∨ yi = [] ∨ [(c : Int), (c' : Int)] = [] := by tauto
        simp only [if_pos hne, if_pos hne']
        cases be
        · right; exact ⟨rfl, Or.inl rfl⟩
        · left; rfl
      · have hne' : ¬ (xi = [] ∨ yi = [] ∨ [(c : Int), (c' : Int)] = []) := by simpa using hne
        simp only [if_neg hne, if_neg hne']
        push Not at hne
        have hf : ∀ A : Arr K, frameXY { x := ax, y := ay, arr := A } xi yi = frameXY { x := ax, y := ay, arr := arr } xi yi :=
          fun _ => rfl
        simp only [hf]
        cases ef : frameXY { x := ax, y := ay, arr := arr } xi yi with
        | error e => left; rfl
        | ok f =>
          have hu := hu xi yi
          simp only
          cases e0 : frameQ arr xi yi [(c : Int)] with
          | error e => left; rfl
          | ok q0 =>
            cases e1 : frameQ arr xi yi [(c' : Int)] with
            | error e => rw [e0, e1] at hu; cases hu
            | ok q1 =>
              simp only
              cases m0 : frameMat xi yi q0 with
              | none =>
                right
                exact ⟨rfl, Or.inl rfl⟩
              | some a0 =>
                cases m1 : frameMat xi yi q1 with
                | none =>
                  right
                  exact ⟨rfl, Or.inr rfl⟩
                | some a1 =>
                  left
                  exact two_calls same k f.1 f.2 a0 a1 _ y (zLinear z z0 z1)

theorem call_step {same : Nat → Nat → Bool} {k : Kind2D} {xs ys : List K} {m : Mat K} {x y : K} {o : Obj2D K}
    (ho : o.Used same xs.length ys.length k) {F : Option K × Obj2D K → Out (Option K × Obj2D K)}
    {G : Option K → Out (Option K)}
    (h : ∀ s o', o'.Used same xs.length ys.length k → (F (s, o')).map (·.1) = G s) :
    ((o.call same (fun _ => 0) xs ys m x y) >>= F).map (·.1) =
      ((Obj2D.new (fun _ => 0) k).call same (fun _ => 0) xs ys m x y).map (·.1) >>= G := by
  rw [← Obj2D.call_const (fun _ => 0) (fun _ => 0) m x y ho (Obj2D.new_used same _ _ (fun _ => 0) k)]
  cases e : o.call same (fun _ => 0) xs ys m x y with
  | error => rfl
  | ok p =>
    obtain ⟨s, o'⟩ := p
    exact h s o' (Obj2D.call_used ho e)

theorem bind_assoc_out {α β γ : Type} (m : Out α) (f : α → Out β) (g : β → Out γ) :
    (m >>= f) >>= g = m >>= fun a => f a >>= g := by
  cases m <;> rfl

/-- In 4-D: the value on the line between the results of the 3-D layers, or NaN without the evaluation
of one of them. -/
theorem point4_layers {same : Nat → Nat → Bool} {nx ny : Nat} {k : Kind2D} {b : Boundary}
    {be : Bool} {ax ay : Axis K} {az : Axis T} {au : Axis K} {arr : Arr K} {n1 n2 n3 n4 : Nat}
    (hs : arr.shape = [n1, n2, n3, n4]) {u u0 u1 : K} {c c' : Nat} (hc : c < n4) (hc' : c' < n4)
    (hw : au.findIndexesWindow u 1 b = .ok [(c : Int), (c' : Int)]) (h0 : au.cont.coord c = .ok u0)
    (h1 : au.cont.coord c' = .ok u1) (x y : K) (z : T) :
    let r0 := newPoint (bicubicPoint3 same nx ny b be { x := ax, y := ay, arr := arr.layer c, z := az }) k (x, y, z)
    let r1 := newPoint (bicubicPoint3 same nx ny b be { x := ax, y := ay, arr := arr.layer c', z := az }) k (x, y, z)
    let r := newPoint (bicubicPoint4 same nx ny b be { x := ax, y := ay, arr := arr, z := az, u := au }) k (x, y, z, u)
    r = (do let s0 ← r0; let s1 ← r1; .ok (zLinear u u0 u1 s0 s1)) ∨
      (r = .ok none ∧ (r0 = .ok none ∨ r1 = .ok none)) := by
  have hq := fun (d : Nat) (hd : d < n4) (xi yi : List Int) (w : Int) =>
    frameQ_layer arr n1 n2 n4 [n3] hs xi yi [w] rfl d hd
  have hu := fun (xi yi : List Int) (w : Int) => frameQ_unit arr n1 n2 n4 [n3] hs xi yi [w] rfl c c' hc hc'
  simp only [List.cons_append, List.nil_append] at hq hu
  unfold newPoint bicubicPoint3 bicubicPoint4
  dsimp only
  simp only [hw, hq c hc, hq c' hc']
  have g0 : [(c : Int), (c' : Int)].getD 0 0 = c := rfl
  have g1 : [(c : Int), (c' : Int)].getD 1 0 = c' := rfl
  cases ez : az.findIndexesWindow z 1 b with
  | error e => left; rfl
  | ok zi =>
  cases ey : ay.findIndexesWindow y ny b with
  | error e => left; rfl
  | ok yi =>
  cases ex : ax.findIndexesWindow x nx b with
  | error e => left; rfl
  | ok xi =>
  simp only [bind, Except.bind, g0, g1, h0, h1]
  by_cases hne : xi = [] ∨ yi = [] ∨ zi = []
  · have hne' : xi = [] ∨ yi = [] ∨ zi = [] ∨ [(c : Int), (c' : Int)] = [] := by tauto
    simp only [if_pos hne, if_pos hne']
    cases be
    · right; exact ⟨rfl, Or.inl rfl⟩
    · left; rfl
  have hne' : ¬ (xi = [] ∨ yi = [] ∨ zi = [] ∨ [(c : Int), (c' : Int)] = []) := by simpa using hne
  simp only [if_neg hne, if_neg hne']
  have hf : ∀ A : Arr K, frameXY { x := ax, y := ay, arr := A } xi yi = frameXY { x := ax, y := ay, arr := arr } xi yi :=
    fun _ => rfl
  simp only [hf]
  cases ef : frameXY { x := ax, y := ay, arr := arr } xi yi with
  | error e => left; rfl
  | ok f =>
  cases ez0 : az.cont.coord (zi.getD 0 0) with
  | error e => left; rfl
  | ok z0 =>
  cases ez1 : az.cont.coord (zi.getD 1 0) with
  | error e => left; rfl
  | ok z1 =>
  have hu0 := hu xi yi (zi.getD 0 0)
  have hu1 := hu xi yi (zi.getD 1 0)
  simp only
  cases e00 : frameQ arr xi yi [zi.getD 0 0, (c : Int)] with
  | error e => left; rfl
  | ok q00 =>
  cases e01 : frameQ arr xi yi [zi.getD 0 0, (c' : Int)] with
  | error e => rw [e00, e01] at hu0; cases hu0
  | ok q01 =>
  cases e10 : frameQ arr xi yi [zi.getD 1 0, (c : Int)] with
  | error e => left; rfl
  | ok q10 =>
  cases e11 : frameQ arr xi yi [zi.getD 1 0, (c' : Int)] with
  | error e => rw [e10, e11] at hu1; cases hu1
  | ok q11 =>
  simp only
  cases m00 : frameMat xi yi q00 with
  | none => exact Or.inr ⟨rfl, Or.inl rfl⟩
  | some a00 =>
  cases m10 : frameMat xi yi q10 with
  | none =>
    refine Or.inr ⟨?_, Or.inl rfl⟩
    cases frameMat xi yi q01 <;> rfl
  | some a10 =>
  cases m01 : frameMat xi yi q01 with
  | none => exact Or.inr ⟨rfl, Or.inr rfl⟩
  | some a01 =>
  cases m11 : frameMat xi yi q11 with
  | none => exact Or.inr ⟨rfl, Or.inr rfl⟩
  | some a11 =>
  left
  have hn := Obj2D.new_used (K := K) same f.1.length f.2.length (fun _ => 0) k
  have l0 := two_calls same k f.1 f.2 a00 a10 (frameQuery ax f.1 x) y (zLinear z z0 z1)
  have l1 := two_calls same k f.1 f.2 a01 a11 (frameQuery ax f.1 x) y (zLinear z z0 z1)
  simp only [bind, Except.bind] at l0 l1
  simp only [l0, l1]
  refine Eq.trans (call_step hn fun s00 o1 ho1 => call_step ho1 fun s10 o2 ho2 => call_step ho2 fun s01 o3 ho3 =>
    call_step (G := fun s11 => .ok (zLinear u u0 u1 (zLinear z z0 z1 s00 s10) (zLinear z z0 z1 s01 s11))) ho3
      fun s11 o4 ho4 => rfl) ?_
  cases (Obj2D.new (fun _ => 0) k).call same (fun _ => 0) f.1 f.2 a00 (frameQuery ax f.1 x) y with
  | error => rfl
  | ok =>
    cases (Obj2D.new (fun _ => 0) k).call same (fun _ => 0) f.1 f.2 a10 (frameQuery ax f.1 x) y with
    | error => rfl
    | ok =>
      cases (Obj2D.new (fun _ => 0) k).call same (fun _ => 0) f.1 f.2 a01 (frameQuery ax f.1 x) y with
      | error => rfl
      | ok =>
        cases (Obj2D.new (fun _ => 0) k).call same (fun _ => 0) f.1 f.2 a11 (frameQuery ax f.1 x) y <;> rfl

/-! ### the layers -/

/-- The two layers around `z`. -/
theorem layer_window {a : Axis T} {l : List T} (h : AxisOk a l) (h2 : 2 ≤ l.length) {z : T}
    (ht : OnTurn a l z z) (hin : ¬ Outside l z) :
    ∃ (k k' : Nat) (hk : k < l.length) (hk' : k' < l.length), (k' = k + 1 ∨ k = k' + 1) ∧
      Between l[k] z l[k'] ∧ (∀ b, a.findIndexesWindow z 1 b = .ok [(k : Int), (k' : Int)]) ∧
      a.cont.coord k = .ok l[k] ∧ a.cont.coord k' = .ok l[k'] := by
  obtain ⟨k, k', hk, hk', hadj, f, hb, c0, c1, -⟩ := locate h h2 ht hin
  refine ⟨k, k', hk, hk', hadj, hb, fun b => ?_, c0, c1⟩
  unfold Axis.findIndexesWindow
  simp [f, bind, Except.bind, pure, Except.pure, Axis.windowLoop]

/-- The search never fails on an axis with one coordinate, and finds nothing. -/
theorem findIndexes_single {a : Axis T} {v : T} (h : AxisOk a [v]) (hc : a.isCircle = false) (z : T) :
    a.findIndexes z = .ok none := by
  obtain ⟨m, c', hm, hn1, hn2, hn3⟩ := normalize_spec h z
  obtain ⟨i, hi1, hi2⟩ := h.find c' false
  have hsz : a.size = (1 : Int) := h.stores.size_eq
  unfold Axis.findIndexes
  have hfi : a.findIndex c' false = .ok i := by
    unfold Axis.findIndex
    rw [hn3]; simpa [bind, Except.bind] using hi1
  rw [hn1]
  simp only [bind, Except.bind, hfi, pure, Except.pure, hsz, hc]
  rcases hi2 with ⟨rfl, -, -⟩ | ⟨w, h0, hw, -⟩
  · simp
  · have hi : i = 0 := by
      have : i.toNat < [v].length := by
        by_contra hh
        rw [List.getElem?_eq_none (by omega)] at hw
        cases hw
      simp at this; omega
    subst hi
    have := h.stores.coord_eq 0 (by simp)
    simp only [Nat.cast_zero] at this
    rw [this]
    simp only [List.getElem_cons_zero]
    cases a.cont.isAscending <;> by_cases h1 : c' - v = 0 <;> by_cases h2 : c' - v < 0 <;>
      simp [h1, h2]

/-- The window of an axis with one coordinate. -/
theorem single_window {a : Axis T} {v : T} (h : AxisOk a [v]) (hc : a.isCircle = false) (z : T) (b : Boundary) :
    a.findIndexesWindow z 1 b = .ok (if z = v then [0, 0] else []) := by
  have := h.stores.coord_eq 0 (by simp)
  simp only [Nat.cast_zero] at this
  unfold Axis.findIndexesWindow
  simp [findIndexes_single h hc, this, bind, Except.bind, pure, Except.pure]

end
end Pyinterp.Interp
