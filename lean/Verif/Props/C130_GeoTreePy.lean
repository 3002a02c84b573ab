import Verif.Model.GeoTreePy
import Verif.Props.C100_GeoTree
import Verif.Props.C53_WindowFunctions
import Verif.Props.C78_Names

/-
C130. The Python class `pyinterp.geodetic.RTree`: names, default arguments, copies.
-/
set_option linter.unusedVariables false
namespace Pyinterp.GeoTree
open Pyinterp.Spec Pyinterp.Spec.GeoTree Pyinterp.WindowFunctions Pyinterp.Interface

/-! ### The window functions -/

/-- The function meant by the argument `wf` (geodetic/__init__.py:300-343): the one of that documented name; `blackman` without
argument or with an empty one. -/
def Means (wf : Option String) (f : Fn) : Prop :=
  (∃ s, wf = some s ∧ (s, f) ∈ wfDoc) ∨ ((wf = none ∨ wf = some "") ∧ f = .blackman)

/-- The arguments `arg` that are accepted: `gaussian` needs one, that of `lanczos` is at least 1, that of `parzen` is not
negative, the other functions have none. -/
def ArgRule (f : Fn) (arg : Option ℝ) : Prop := match f with
  | .gaussian => ∃ a, arg = some a
  | .lanczos => ∀ a, arg = some a → 1 ≤ a
  | .parzen => ∀ a, arg = some a → 0 ≤ a
  | _ => arg = none

/-- The documented value of `arg` (geodetic/__init__.py:344-346). -/
noncomputable def docArg (f : Fn) (arg : Option ℝ) : ℝ := match arg with
  | some a => a
  | none => if f = .lanczos then 1 else 0

theorem checkArg_iff (g f : Fn) (arg : Option ℝ) : checkArg g arg = .ok f ↔ g = f ∧ ArgRule g arg := by
  unfold checkArg ArgRule
  cases arg with
  | none => cases g <;> simp
  | some a =>
    cases g <;> simp
    all_goals
      by_cases h : a < (1 : ℝ) <;> by_cases h0 : a < (0 : ℝ) <;> simp [h, h0, not_le.2, not_lt.1]

theorem coreWindow_iff (wf : Option String) (arg : Option ℝ) (f : Fn) :
    coreWindowFunction wf arg = .ok f ↔ Means wf f ∧ ArgRule f arg := by
  have hb : fnOf "blackman" = some .blackman := (C53_table _ _).2 (by decide)
  have he : ∀ f, ("", f) ∉ wfDoc := by intro f; simp [wfDoc]
  unfold coreWindowFunction Means
  cases wf with
  | none =>
    simp only [hb, checkArg_iff]
    constructor
    · rintro ⟨rfl, h⟩; exact ⟨Or.inr ⟨Or.inl trivial, rfl⟩, h⟩
    · rintro ⟨⟨s, h1, -⟩ | ⟨-, rfl⟩, h⟩
      · cases h1
      · exact ⟨rfl, h⟩
  | some s =>
    by_cases hs : s = ""
    · subst hs
      simp only [if_true, hb, checkArg_iff]
      constructor
      · rintro ⟨rfl, h⟩; exact ⟨Or.inr ⟨Or.inr trivial, rfl⟩, h⟩
      · rintro ⟨⟨s, h1, h2⟩ | ⟨-, rfl⟩, h⟩
        · cases h1; exact absurd h2 (he f)
        · exact ⟨rfl, h⟩
    · simp only [hs, if_false]
      cases hf : fnOf s with
      | none =>
        simp only
        constructor
        · intro h; cases h
        · rintro ⟨⟨s', h1, h2⟩ | ⟨h1, -⟩, -⟩
          · cases h1; rw [(C53_table _ _).2 h2] at hf; cases hf
          · simp [hs] at h1
      | some g =>
        simp only [checkArg_iff]
        have hm := (C53_table _ _).1 hf
        constructor
        · rintro ⟨rfl, h⟩; exact ⟨Or.inl ⟨s, rfl, hm⟩, h⟩
        · rintro ⟨⟨s', h1, h2⟩ | ⟨h1, -⟩, h⟩
          · cases h1
            rw [(C53_table _ _).2 h2] at hf
            cases hf
            exact ⟨rfl, h⟩
          · simp [hs] at h1

theorem core_error {wf : Option String} {arg : Option ℝ} (h : ∀ f, coreWindowFunction wf arg ≠ .ok f) :
    coreWindowFunction wf arg = .error .exn := by
  unfold coreWindowFunction checkArg at h ⊢
  dsimp only at h ⊢
  split
  · rfl
  · rename_i f hf
    simp only [hf] at h
    cases f <;> simp only at h ⊢ <;> (split <;> first | rfl | (rename_i hc; simp [hc] at h))

/-- **C130** `window_function` returns a value (and a number of neighbours) for each point exactly when `lon` and `lat` have the
same size and `wf`, `arg` are a documented name with an argument that this function accepts. Everything else raises an
exception. -/
theorem C130_window_accepts (b : Boost) (h : Heap) (t : Tree) (lon lat : List ℝ) (radius : ℝ) (k : Option Nat)
    (wf : Option String) (arg : Option ℝ) (within : Option Bool) :
    ((lon.length = lat.length ∧ ∃ f, Means wf f ∧ ArgRule f arg) →
      ∃ l, pyWindow b h t lon lat radius k wf arg within = .ok l ∧ l.length = lon.length) ∧
    (¬ (lon.length = lat.length ∧ ∃ f, Means wf f ∧ ArgRule f arg) →
      pyWindow b h t lon lat radius k wf arg within = .error .exn) := by
  constructor
  · rintro ⟨h1, f, hf⟩
    rw [← coreWindow_iff] at hf
    obtain ⟨l, e, hl, -⟩ := C100_points (fun x y => .ok (window b h t f arg radius (k.getD 9) (within.getD true) x y)) _
      (fun _ _ => rfl) lon lat h1
    refine ⟨l, ?_, hl⟩
    unfold pyWindow
    rw [hf]
    exact e
  · intro hn
    unfold pyWindow
    by_cases hf : ∃ f, coreWindowFunction wf arg = .ok f
    · obtain ⟨f, hf⟩ := hf
      rw [hf]
      have h1 : lon.length ≠ lat.length := fun h1 => hn ⟨h1, f, (coreWindow_iff _ _ _).1 hf⟩
      exact ((C100_refused b (fun _ _ y => y) h t lon lat []).2 h1 _ _).2.2.1 _ _ _ |>.trans rfl
    · rw [core_error fun f hf' => hf ⟨f, hf'⟩]
      rfl

theorem weight_doc (f : Fn) (d r : ℝ) (arg : Option ℝ) (hl : f = .lanczos → arg ≠ none) :
    weight f d r (arg.getD 0) = weight f d r (docArg f arg) := by
  unfold docArg
  cases arg with
  | some a => rfl
  | none => cases f <;> first | rfl | exact absurd rfl (hl rfl)

/-- **C130** `window_function`: for every documented name with an accepted argument, the
value at each point is the mean of the (9 by default) nearest observations within the radius, weighted by the documented
function with the documented argument; `within` is true by default. Missing: `lanczos` without argument (see
`C130_lanczos_false`), `flat_top` and the null standard deviation (C53). -/
theorem C130_window_partial (b : Boost) (h : Heap) (t : Tree) (hA : Agree b t) (lon lat : List ℝ) (h1 : lon.length = lat.length)
    (radius : ℝ) (hr : 0 < radius) (k : Option Nat) (wf : Option String) (f : Fn) (hf : Means wf f) (hft : f ≠ .flatTop)
    (arg : Option ℝ) (ha : ArgRule f arg) (hl : f = .lanczos → arg ≠ none) (hg : f = .gaussian → arg ≠ some 0)
    (within : Option Bool) :
    ∃ out, pyWindow b h t lon lat radius k wf arg within = .ok out ∧ out.length = lon.length ∧
      ∀ n (hn : n < lon.length) (hn' : n < lat.length), ∃ r, out[n]? = some r ∧
        ∃ q l, Place lon[n] lat[n] q ∧ KNear (fun i : Item => b.distance t.axes q i.pos) (contents h t) (k.getD 9) l ∧
          let d := fun i : Item => b.distance t.axes q i.pos
          let near := inRadius d (some radius) l
          (within ≠ some false ∧ b.covered q (l.map Item.pos) = false → r = (none, 0)) ∧
          ((within ≠ some false → b.covered q (l.map Item.pos) = true) →
            (near = [] → r = (none, 0)) ∧
            ∃ w : Item → ℝ, (∀ i ∈ near, weight f (d i) radius (docArg f arg) = some (w i) ∧ 0 ≤ w i) ∧
              ((∀ i ∈ near, w i = 0) → r = (none, 0)) ∧
              ((∃ i ∈ near, w i ≠ 0) → ∃ v, r = (some v, near.length) ∧ IsMean near w Item.val v ∧
                ∃ a ∈ near, ∃ c ∈ near, a.val ≤ v ∧ v ≤ c.val)) := by
  have hc := (coreWindow_iff wf arg f).2 ⟨hf, ha⟩
  have hok : ArgOk f (arg.getD 0) := by
    cases f <;> simp only [ArgOk, ArgRule] at ha ⊢
    · obtain ⟨a, rfl⟩ := ha
      intro h0
      exact hg rfl (by simpa using h0)
    · cases arg with
      | none => exact absurd rfl (hl rfl)
      | some a => exact ha a rfl
    · cases arg with
      | none => simp
      | some a => exact ha a rfl
  obtain ⟨out, e, hlen, hi⟩ := C100_points (fun x y => .ok (window b h t f arg radius (k.getD 9) (within.getD true) x y)) _
    (fun _ _ => rfl) lon lat h1
  refine ⟨out, ?_, hlen, fun n hn hn' => ⟨_, hi n hn hn', ?_⟩⟩
  · unfold pyWindow; rw [hc]; exact e
  · have hw : within.getD true = true ↔ within ≠ some false := by
      rcases within with _ | _ | _ <;> simp
    obtain ⟨q, l, h1, h2, h3⟩ := C100_window_partial b h t hA f arg radius (k.getD 9) (within.getD true) lon[n] lat[n] hft hok hr
    refine ⟨q, l, h1, h2, ?_⟩
    simp only [hw, weight_doc f _ _ arg hl] at h3
    exact h3

theorem lanczos_zero (d r : ℝ) (hd : 0 ≤ d) : weight .lanczos d r 0 = none ∨ weight .lanczos d r 0 = some 0 := by
  rcases hd.eq_or_lt with h | h
  · left; subst h; simp [weight, lanczos, quot]
  · right; simp [weight, lanczos, not_le.2 h]

theorem lanczos_loop (r : ℝ) (radius : Option ℝ) (l : List (ℝ × ℝ)) (hl : ∀ p ∈ l, 0 ≤ p.1) (acc : Option (ℝ × ℝ)) (n : Nat)
    (ha : ∀ a, acc = some a → a.2 = 0) :
    ∀ a, (RTree.windowLoop (fun d => weight .lanczos d r 0) radius l acc n).1 = some a → a.2 = 0 := by
  induction l generalizing acc n with
  | nil => exact ha
  | cons p l ih =>
    unfold RTree.windowLoop
    split
    · exact ha
    · apply ih (fun q hq => hl q (List.mem_cons_of_mem _ hq))
      intro a h
      cases acc with
      | none => cases h
      | some c =>
        rcases lanczos_zero p.1 r (hl p (by simp)) with hw | hw
        · simp [hw] at h
        · simp only [hw, Option.bind_eq_bind, Option.bind_some, Option.some.injEq] at h
          rw [← h]
          simp [ha c rfl]

/-- **C130, the documentation is false** "arg: Defaults to 1 for lanczos". Without `arg`, the value is NaN at every point, whatever
the tree, the radius, `k` and `within`. With `arg=1`, a point that has one observation nearer than the radius (`k = 1`) has a
value. -/
theorem C130_lanczos_false (b : Boost) (h : Heap) (t : Tree) (hd : ∀ p q, 0 ≤ b.distance t.axes p q) (lon lat : List ℝ)
    (radius : ℝ) (k : Option Nat) (within : Option Bool) (h1 : lon.length = lat.length) :
    (∃ out, pyWindow b h t lon lat radius k (some "lanczos") none within = .ok out ∧ out.length = lon.length ∧
      ∀ r ∈ out, r.1 = none) ∧
    (∀ x y i, 0 < radius → b.near (contents h t) (pos x y) 1 = [i] → b.distance t.axes (pos x y) i.pos < radius →
      pyWindow b h t [x] [y] radius (some 1) (some "lanczos") (some 1) (some false) = .ok [(some i.val, 1)]) := by
  have hm : Means (some "lanczos") .lanczos := Or.inl ⟨_, rfl, by decide⟩
  constructor
  · have hc := (coreWindow_iff (some "lanczos") none .lanczos).2 ⟨hm, by simp [ArgRule]⟩
    obtain ⟨out, e, hlen, hi⟩ := C100_points
      (fun x y => .ok (window b h t .lanczos none radius (k.getD 9) (within.getD true) x y)) _ (fun _ _ => rfl) lon lat h1
    refine ⟨out, by unfold pyWindow; rw [hc]; exact e, hlen, fun r hr => ?_⟩
    obtain ⟨n, hn, rfl⟩ := List.getElem_of_mem hr
    have := hi n (by omega) (by omega)
    rw [List.getElem?_eq_getElem hn, Option.some.injEq] at this
    rw [this]
    have hp : ∀ p ∈ pairs b h t (pos (lon[n]'(by omega)) (lat[n]'(by omega))) (k.getD 9) (within.getD true), 0 ≤ p.1 := by
      intro p hp
      unfold pairs at hp
      dsimp only at hp
      split at hp
      · cases hp
      · obtain ⟨i, -, rfl⟩ := List.mem_map.1 hp
        exact hd _ _
    have hz := lanczos_loop radius (some radius) _ hp (some (0, 0)) 0 (by intro a ha; cases ha; rfl)
    unfold window
    simp only [Option.getD_none]
    generalize RTree.windowLoop _ _ _ _ _ = z at hz ⊢
    obtain ⟨_ | a, m⟩ := z
    · rfl
    · simp [hz a rfl]
  · intro x y i hr hn hdi
    have hc := (coreWindow_iff (some "lanczos") (some 1) .lanczos).2 ⟨hm, by simp [ArgRule]⟩
    obtain ⟨w, hw, hw0⟩ := C53_positive .lanczos (b.distance t.axes (pos x y) i.pos) radius 1 hr (hd _ _) hdi.le
      (by simp [ArgOk]) (by decide) (Or.inl hdi)
    unfold pyWindow
    rw [hc]
    show windowFunction b h t [x] [y] radius 1 .lanczos (some 1) false = _
    unfold windowFunction points window pairs
    simp [hn, RTree.windowLoop, RTree.close, hdi.le, hw, hw0.ne', pure, Except.pure, bind, Except.bind]

/-! ### The other methods -/

/-- **C130** `radial_basis_function`: the function used is the one of the documented name (`multiquadric` without `rbf`), with 9
neighbours, no smoothing and `within` by default. -/
theorem C130_rbf (b : Boost) (solve : (n : Nat) → Matrix (Fin n) (Fin n) ℝ → (Fin n → ℝ) → Fin n → ℝ) (h : Heap) (t : Tree)
    (lon lat : List ℝ) (radius : Option ℝ) (k : Option Nat) (epsilon smooth : Option ℝ) (within : Option Bool) :
    (∀ s f, s ≠ [] → (s, f) ∈ rbfDoc → (epsilon ≠ none → f.adjustable = true) →
      pyRbf b solve h t lon lat radius k (some s) epsilon smooth within =
        radialBasisFunction b solve h t lon lat radius (k.getD 9) f epsilon (smooth.getD 0) (within.getD true)) ∧
    (∀ s, s ≠ [] → (∀ f, (s, f) ∈ rbfDoc → epsilon ≠ none ∧ f.adjustable = false) →
      pyRbf b solve h t lon lat radius k (some s) epsilon smooth within = .error .exn) ∧
    pyRbf b solve h t lon lat radius k none epsilon smooth within =
      radialBasisFunction b solve h t lon lat radius (k.getD 9) .multiquadric epsilon (smooth.getD 0) (within.getD true) := by
  refine ⟨fun s f hs hf he => ?_, fun s hs hn => ?_, ?_⟩
  · unfold pyRbf
    rw [(C78_rbf s hs epsilon.isSome f).2 ⟨hf, fun h => he (by cases epsilon <;> simp_all)⟩]
    rfl
  · unfold pyRbf
    cases hc : coreRbf (some s) epsilon.isSome with
    | ok f =>
      obtain ⟨h1, h2⟩ := (C78_rbf s hs _ f).1 hc
      obtain ⟨h3, h4⟩ := hn f h1
      rw [h2 (by cases epsilon <;> simp_all)] at h4
      cases h4
    | error e =>
      have : e = .exn := by
        obtain ⟨a, l, rfl⟩ := List.exists_cons_of_ne_nil hs
        by_cases hmem : (a :: l) ∈ adjustableNames ++ nonAdjustableNames
        · obtain ⟨p, hp, hps⟩ := rbf_names _ hmem
          rw [← hps, rbf_table p hp] at hc
          split at hc <;> cases hc
          rfl
        · rw [coreRbf_unknown a l _ hmem] at hc; cases hc; rfl
      rw [this]; rfl
  · unfold pyRbf
    rw [(C78_rbf_default _).1]
    rfl

/-- **C130** `inverse_distance_weighting`: with the arguments given, or 9 neighbours, the power 2, no radius and `within` when they
are not, the value at each point is the mean of the observations used, weighted by the inverse of the power of the
distance; arrays of different sizes are refused. -/
theorem C130_idw (b : Boost) (h : Heap) (t : Tree) (hA : Agree b t) (lon lat : List ℝ) (radius : Option ℝ) (k p : Option Nat)
    (hk : k ≠ some 0) (within : Option Bool) :
    (lon.length ≠ lat.length → pyIdw b h t lon lat radius k p within = .error .exn) ∧
    (lon.length = lat.length → ∃ out, pyIdw b h t lon lat radius k p within = .ok out ∧ out.length = lon.length ∧
      ∀ n (hn : n < lon.length) (hn' : n < lat.length), ∃ r, out[n]? = some r ∧
        ∃ (kk pp : Nat) (q : Pos) (l : List Item), (k = some kk ∨ k = none ∧ kk = 9) ∧ (p = some pp ∨ p = none ∧ pp = 2) ∧
          Place lon[n] lat[n] q ∧ KNear (fun i : Item => b.distance t.axes q i.pos) (contents h t) kk l ∧
          let d := fun i : Item => b.distance t.axes q i.pos
          let near := inRadius d radius l
          (within ≠ some false ∧ b.covered q (l.map Item.pos) = false → r = (none, 0)) ∧
          ((within ≠ some false → b.covered q (l.map Item.pos) = true) →
            (∀ i ∈ contents h t, d i < 1e-6 → ∃ a ∈ contents h t, (∀ j ∈ contents h t, d a ≤ d j) ∧ r = (some a.val, kk)) ∧
            ((∀ i ∈ contents h t, 1e-6 ≤ d i) →
              (near = [] → r = (none, 0)) ∧
              (near ≠ [] → ∃ v, r = (some v, near.length) ∧ IsMean near (fun i => 1 / d i ^ pp) Item.val v)))) := by
  refine ⟨fun hne => ((C100_refused b (fun _ _ y => y) h t lon lat []).2 hne _ _).2.1 _ _, fun h1 => ?_⟩
  obtain ⟨out, e, hlen, hi⟩ := C100_points
    (fun x y => .ok (idw b h t radius (k.getD 9) (p.getD 2) (within.getD true) x y)) _ (fun _ _ => rfl) lon lat h1
  refine ⟨out, e, hlen, fun n hn hn' => ⟨_, hi n hn hn', ?_⟩⟩
  have hk0 : 0 < k.getD 9 := by
    cases k with
    | none => simp
    | some k => exact Nat.pos_of_ne_zero fun h0 => hk (by simpa using h0)
  have hw : within.getD true = true ↔ within ≠ some false := by
    rcases within with _ | _ | _ <;> simp
  obtain ⟨q, l, h1, h2, h3, h4⟩ := C100_idw b h t hA radius (k.getD 9) (p.getD 2) hk0 (within.getD true) lon[n] lat[n]
  refine ⟨k.getD 9, p.getD 2, q, l, by cases k <;> simp, by cases p <;> simp, h1, h2, fun hc => h3 ⟨hw.2 hc.1, hc.2⟩, fun hc => ?_⟩
  obtain ⟨h5, h6⟩ := h4 fun hc' => hc (hw.1 hc')
  refine ⟨h5, fun hfar => ⟨(h6 hfar).1, fun hne => ?_⟩⟩
  obtain ⟨v, h7, h8, -⟩ := (h6 hfar).2 hne
  exact ⟨v, h7, h8⟩

/-! ### The copies -/

/-- **C130** A copy has the content and the spheroid of the tree. -/
theorem C130_copy_partial (h : Heap) (o : Obj) : contents h o.copy.tree = contents h o.tree ∧ o.copy.tree.axes = o.tree.axes :=
  ⟨rfl, rfl⟩

/-- **C130, the part that fails** "The copy of a `pyinterp.geodetic.RTree` behaves like it". `copy.copy` gives an object of the
class of the core: the names of the window functions are refused, and the default function is another one: at the place of an
observation of value 0, with a second one of value 1 at the distance of the radius, the two objects give different values. -/
theorem C130_copy_false (b : Boost) (h : Heap) (t : Tree) (lon lat : List ℝ) (radius : ℝ) (k : Option Nat) (arg : Option ℝ)
    (within : Option Bool) :
    (∀ s, (Obj.copy ⟨.python, t⟩).window b h lon lat radius k (some s) arg within = .error .exn) ∧
    (∀ x y i j, 0 < radius → b.near (contents h t) (pos x y) 2 = [i, j] → b.distance t.axes (pos x y) i.pos = 0 →
      b.distance t.axes (pos x y) j.pos = radius → i.val = 0 → j.val = 1 →
      ∃ u v, (Obj.mk .python t).window b h [x] [y] radius (some 2) none none (some false) = .ok [(some u, 2)] ∧
        (Obj.copy ⟨.python, t⟩).window b h [x] [y] radius (some 2) none none (some false) = .ok [(some v, 2)] ∧ u ≠ v) := by
  refine ⟨fun s => rfl, fun x y i j hr hn hi hj vi vj => ?_⟩
  have hc := (coreWindow_iff none none .blackman).2 ⟨Or.inr ⟨Or.inl rfl, rfl⟩, rfl⟩
  have hb0 : weight .blackman 0 radius 0 = some 1 := by
    simp only [weight, blackman, hr.le, if_true, quot_pos hr, Option.bind_eq_bind, Option.bind_some, Option.some.injEq]
    rw [ratio_eq hr, zero_div, cos1, cos2, mul_zero, Real.cos_zero]
    norm_num
  have hb1 : weight .blackman radius radius 0 = some (128 / 18608) := by
    simp only [weight, blackman, le_refl, if_true, quot_pos hr, Option.bind_eq_bind, Option.bind_some, Option.some.injEq]
    rw [ratio_eq hr, div_self hr.ne', cos1, cos2, mul_one, Real.cos_pi]
    norm_num
  have hh0 : weight .hamming 0 radius 0 = some 1 := by
    simp only [weight, hamming, hr.le, if_true, quot_pos hr, Option.bind_eq_bind, Option.bind_some, Option.some.injEq]
    rw [zero_add, mul_div_cancel_right₀ _ hr.ne', Real.cos_pi]
    norm_num
  have hh1 : weight .hamming radius radius 0 = some 0.07672 := by
    simp only [weight, hamming, le_refl, if_true, quot_pos hr, Option.bind_eq_bind, Option.bind_some, Option.some.injEq]
    rw [mul_div_assoc, ratio_eq hr, div_self hr.ne', cos1, mul_one, Real.cos_pi]
    norm_num
  refine ⟨(128 / 18608) / (1 + 128 / 18608), 0.07672 / (1 + 0.07672), ?_, ?_, by norm_num⟩
  · show pyWindow b h t [x] [y] radius (some 2) none none (some false) = _
    unfold pyWindow
    rw [hc]
    show windowFunction b h t [x] [y] radius 2 .blackman none false = _
    unfold windowFunction points window pairs
    simp [hn, hi, hj, vi, vj, RTree.windowLoop, RTree.close, hr.le, hb0, hb1, pure, Except.pure, bind, Except.bind]
    norm_num
  · show windowFunction b h t [x] [y] radius 2 .hamming none false = _
    unfold windowFunction points window pairs
    simp [hn, hi, hj, vi, vj, RTree.windowLoop, RTree.close, hr.le, hh0, hh1, pure, Except.pure, bind, Except.bind]
    norm_num

/-! ### Examples -/

/-- The hypotheses of `C130_copy_false` are met. -/
example : ∃ h t x y i j, toy.near (contents h t) (pos x y) 2 = [i, j] ∧ toy.distance t.axes (pos x y) i.pos = 0 ∧
    toy.distance t.axes (pos x y) j.pos = 1 ∧ i.val = 0 ∧ j.val = 1 := by
  refine ⟨[[⟨pos 10 1, 0⟩, ⟨pos 10 2, 1⟩]], ⟨0, wgs84⟩, 10, 1, ⟨pos 10 1, 0⟩, ⟨pos 10 2, 1⟩, ?_, ?_, ?_, rfl, rfl⟩
  · simp [toy, contents, List.insertionSort, pos]
  · simp [toy]
  · simp [toy, pos]; norm_num

/-- The hypotheses of `C130_window_partial` and of `C130_lanczos_false` are met. -/
example : Agree toy ⟨0, wgs84⟩ ∧ Means (some "parzen") .parzen ∧ ArgRule .parzen none ∧ Means (some "lanczos") .lanczos ∧
    ArgRule .lanczos none ∧ toy.near (contents [[⟨pos 10 1, 7⟩]] ⟨0, wgs84⟩) (pos 10 1) 1 = [⟨pos 10 1, 7⟩] ∧
    toy.distance wgs84 (pos 10 1) (pos 10 1) < 3 := by
  refine ⟨toy_agree _, Or.inl ⟨_, rfl, by decide⟩, by simp [ArgRule], Or.inl ⟨_, rfl, by decide⟩, by simp [ArgRule], ?_, ?_⟩
  · simp [toy, contents]
  · simp [toy]

end Pyinterp.GeoTree
