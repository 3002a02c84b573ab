import Verif.Lemmas.Frame
import Verif.Props.C74_Bicubic

/-!
C79 – `pyinterp.bicubic`: the window of the grid that is used for a point, and the value.
-/
namespace Pyinterp.Interp
open Pyinterp Spec Variate
set_option linter.unusedSectionVars false
set_option linter.unusedVariables false
set_option linter.unusedSimpArgs false

section
variable {K : Type} [Field K] [LinearOrder K] [IsStrictOrderedRing K] [FloorRing K]

/-! ### helpers -/

theorem plain_axisOk {a : Axis K} {l : List K} (h : AxisOk a l) :
    AxisOk { a with isCircle := false, circle := none } l :=
  ⟨h.stores, h.find, Or.inl rfl, fun hh => by cases hh⟩

theorem mapM_congr {α β : Type} {f g : α → Out β} (h : ∀ a, f a = g a) (l : List α) :
    l.mapM f = l.mapM g := by
  rw [funext h]

/-- The window of an axis whose coordinates are not normalised. -/
theorem window_y {a : Axis K} {l : List K} (h : AxisOk a l) (hasc : l.Pairwise (· < ·)) {c : K} {n : Nat}
    (hn : 0 < n) {i : Nat} (hi : i < l.length) (hle : l[i] ≤ c)
    (hup : ∃ h : i + 1 < l.length, c ≤ l[i + 1]) (hfit : n ≤ i + 1 ∧ i + n < l.length) :
    ∃ ys : List K, (windowFrom l ((i : Int) + 1 - n) n).mapM a.cont.coord = .ok ys ∧
      WindowAt l false false n c ((windowFrom l ((i : Int) + 1 - n) n).map Int.toNat) ys c := by
  obtain ⟨x0, xs, -, h2, h3⟩ := window_x (plain_axisOk h) hasc (x := c) (c := c) hn (by intro hh; cases hh)
    ⟨fun _ => rfl, fun hh => by cases hh⟩ hi hle (Or.inl hup) (Or.inr hfit)
  refine ⟨xs, ?_, h3⟩
  rw [← h2]
  apply mapM_congr
  intro j
  unfold frameX
  simp only [Axis.isAngle, Option.isSome_none, Bool.false_eq_true, if_false]
  cases a.cont.coord j <;> rfl

theorem mem_windowFrom {l : List K} (hne : 0 < l.length) {s : Int} {n : Nat} {j : Int}
    (hj : j ∈ windowFrom l s n) : 0 ≤ j ∧ j < l.length := by
  obtain ⟨k, -, rfl⟩ := List.mem_map.mp hj
  exact ⟨Int.emod_nonneg _ (by omega), Int.emod_lt_of_pos _ (by omega)⟩

/-- The values of the window. -/
theorem frameQ_ok {arr : Arr K} {lx ly : List K} {shape rest : List Nat}
    (hs : arr.shape = lx.length :: ly.length :: shape) {xi yi : List Int}
    (hx : ∀ i ∈ xi, 0 ≤ i ∧ i < lx.length) (hy : ∀ j ∈ yi, 0 ≤ j ∧ j < ly.length)
    (hr : rest.length = shape.length ∧ ∀ p ∈ rest.zip shape, p.1 < p.2) :
    frameQ arr xi yi (rest.map Nat.cast) =
      .ok (xi.map fun i => yi.map fun j => arr.at' (i.toNat :: j.toNat :: rest)) := by
  unfold frameQ
  apply mapM_ok
  intro i hi
  apply mapM_ok
  intro j hj
  unfold Arr.value
  rw [if_pos]
  · simp [Function.comp_def]
  · rw [hs]
    refine ⟨by simp [hr.1], ?_⟩
    intro p hp
    simp only [List.zip_cons_cons, List.mem_cons] at hp
    rcases hp with rfl | rfl | hp
    · exact hx i hi
    · exact hy j hj
    · rw [List.zip_map_left, List.mem_map] at hp
      obtain ⟨q, hq, rfl⟩ := hp
      have := hr.2 q hq
      simp only [Prod.map_fst, Prod.map_snd, id]
      omega

theorem frameMat_none {arr : Arr K} {xi yi : List Int} {rest : List Nat}
    (h : ∃ i ∈ xi.map Int.toNat, ∃ j ∈ yi.map Int.toNat, arr.at' (i :: j :: rest) = none) :
    frameMat xi yi (xi.map fun i => yi.map fun j => arr.at' (i.toNat :: j.toNat :: rest)) = none := by
  obtain ⟨i', hi', j', hj', e⟩ := h
  obtain ⟨i, hi, rfl⟩ := List.mem_map.mp hi'
  obtain ⟨j, hj, rfl⟩ := List.mem_map.mp hj'
  unfold frameMat
  rw [if_neg]
  simp only [List.all_map, List.all_eq_true, not_forall]
  refine ⟨i, hi, ?_⟩
  simp only [Function.comp, List.all_map, List.all_eq_true, not_forall]
  exact ⟨j, hj, by simp [Function.comp, e]⟩

theorem frameMat_some {arr : Arr K} {xi yi : List Int} {rest : List Nat}
    (h : ∀ i ∈ xi.map Int.toNat, ∀ j ∈ yi.map Int.toNat, arr.at' (i :: j :: rest) ≠ none) :
    ∃ z : Nat → Nat → K, frameMat xi yi (xi.map fun i => yi.map fun j => arr.at' (i.toNat :: j.toNat :: rest)) =
        some ⟨xi.length, yi.length, z⟩ ∧
      ∀ p r (hp : p < (xi.map Int.toNat).length) (hr : r < (yi.map Int.toNat).length),
        arr.at' ((xi.map Int.toNat)[p] :: (yi.map Int.toNat)[r] :: rest) = some (z p r) := by
  unfold frameMat
  rw [if_pos]
  · refine ⟨_, rfl, ?_⟩
    intro p r hp hr
    have hp' : p < xi.length := by simpa using hp
    have hr' : r < yi.length := by simpa using hr
    simp only [List.getD_eq_getElem?_getD, List.getElem?_map, List.getElem?_eq_getElem hp',
      List.getElem?_eq_getElem hr', List.getElem_map, Option.map_some, Option.getD_some]
    have := h xi[p].toNat (List.mem_map_of_mem (List.getElem_mem _)) yi[r].toNat
      (List.mem_map_of_mem (List.getElem_mem _))
    obtain ⟨v, hv⟩ := Option.ne_none_iff_exists'.1 this
    rw [hv]
    rfl
  · simp only [List.all_map, List.all_eq_true]
    intro i hi
    simp only [Function.comp, List.all_map, List.all_eq_true]
    intro j hj
    have := h i.toNat (List.mem_map_of_mem hi) j.toNat (List.mem_map_of_mem hj)
    simpa [Function.comp, Option.isSome_iff_ne_none] using this

/-- What the theorems on windows suppose about the x and y axes of the grid: they are increasing, with
at least two coordinates, three when the x axis is circular; an angular x axis covers less than a
turn. -/
structure IncreasingAxes (ax ay : Axis K) (lx ly : List K) : Prop where
  rx : Reach false ax
  ry : Reach false ay
  cx : Coordinates ax lx
  cy : Coordinates ay ly
  xs : lx.Pairwise (· < ·)
  ys : ly.Pairwise (· < ·)
  two : 2 ≤ lx.length
  two' : 2 ≤ ly.length
  three : ax.isCircle = true → 3 ≤ lx.length
  turn : ax.isAngle = true → ∀ v ∈ lx, ∀ w ∈ lx, w < v + 360

/-- The windows of indexes and the coordinates of the frame. -/
theorem frame_window {ax ay : Axis K} {lx ly : List K} (h : IncreasingAxes ax ay lx ly) (g : Grid2D K)
    (hgx : g.x = ax) (hgy : g.y = ay) (hcirc : ay.isCircle = false) {x y c : K} (hx : OnTurn ax lx x c)
    (hy : OnTurn ay ly y y) {nx ny : Nat} (hnx : 0 < nx) (hny : 0 < ny) (b : Boundary)
    (fx : WindowFits lx ax.isCircle nx c) (fy : WindowFits ly false ny y) :
    ∃ (xi yi : List Int) (xs ys : List K), ax.findIndexesWindow x nx b = .ok xi ∧
      ay.findIndexesWindow y ny b = .ok yi ∧ xi.length = 2 * nx ∧ yi.length = 2 * ny ∧
      (∀ i ∈ xi, 0 ≤ i ∧ i < lx.length) ∧ (∀ j ∈ yi, 0 ≤ j ∧ j < ly.length) ∧
      frameXY g xi yi = .ok (xs, ys) ∧
      WindowAt lx ax.isAngle ax.isCircle nx x (xi.map Int.toNat) xs (frameQuery ax xs x) ∧
      WindowAt ly false false ny y (yi.map Int.toNat) ys y := by
  subst hgx hgy
  have okx := reach_axisOk h.rx h.cx
  have oky := reach_axisOk h.ry h.cy
  obtain ⟨i, hi, hle, hup, hfit, ex⟩ := (window_cases okx h.two h.three h.xs hx hnx b).1 fx
  obtain ⟨j, hj, hle', hup', hfit', ey⟩ := (window_cases oky h.two' (by rw [hcirc]; simp) h.ys hy hny b).1
    (by rw [hcirc]; exact fy)
  rw [hcirc] at hup' hfit'
  obtain ⟨x0, xs, e1, e2, wx⟩ := window_x okx h.xs hnx h.turn hx hi hle hup hfit
  obtain ⟨ys, e3, wy⟩ := window_y oky h.ys hny hj hle' (by simpa using hup') (by simpa using hfit')
  refine ⟨_, _, xs, ys, ex, ey, by simp [windowFrom], by simp [windowFrom],
    fun k hk => mem_windowFrom (by omega) hk, fun k hk => mem_windowFrom (by omega) hk, ?_, wx, wy⟩
  unfold frameXY
  rw [e1, e3]
  simp only [bind, Except.bind, e2]

/-- The search of a window never fails. -/
theorem window_total {T : Type} [CommRing T] [LinearOrder T] [IsStrictOrderedRing T] [AxisNum T]
    [LawfulAxisNum T] {a : Axis T} {l : List T} (h : AxisOk a l) (h2 : 2 ≤ l.length) (x : T)
    {n : Nat} (hn : 0 < n) (b : Boundary) : ∃ w, a.findIndexesWindow x n b = .ok w := by
  have h0 : a.cont.coord 0 = .ok (l[0]'(by omega)) := h.stores.coord_eq 0 (by omega)
  unfold Axis.findIndexesWindow
  rw [if_neg (by omega)]
  rcases findIndexes_ok h h2 x with e | ⟨i, j, -, -, e, -, -⟩
  · rw [e]
    by_cases h1 : n = 1
    · simp [bind, Except.bind, h1, h0, pure, Except.pure]
    · simp [bind, Except.bind, h1, pure, Except.pure]
  · rw [e]
    simp [bind, Except.bind, pure, Except.pure]

theorem grid_shape {ax ay : Axis K} {lx ly : List K} (h : IncreasingAxes ax ay lx ly) {arr : Arr K}
    {g : Grid2D K} (hg : mkGrid2D ax ay arr = .ok g) :
    g.x = ax ∧ g.y = ay ∧ g.arr = arr ∧ ay.isCircle = false ∧ arr.shape = [lx.length, ly.length] := by
  have okx := reach_axisOk h.rx h.cx
  have oky := reach_axisOk h.ry h.cy
  obtain ⟨rfl, rfl, rfl, hcirc, nx, ny, hs, hnx, hny⟩ := mkGrid2D_ok hg
  have hnx' : nx = lx.length := by have := okx.stores.size_eq; unfold Axis.size at hnx; omega
  have hny' : ny = ly.length := by have := oky.stores.size_eq; unfold Axis.size at hny; omega
  subst hnx' hny'
  exact ⟨rfl, rfl, rfl, hcirc, hs⟩

/-! ### the window -/

/-- **C79** The window used for a point: `2 * nx` successive abscissas and `2 * ny` successive
ordinates of the grid around the point, brought to one turn when the x axis is an angle, when the
axes have enough coordinates around it. The interpolator is called on this window of values, for the
point brought to the same turn; the result is NaN if a value of the window is NaN, and the
interpolator is not used. An angular y axis is not normalised: the ordinate must be on its turn
(`C79_y_angle_false`). -/
theorem C79_window (ax ay : Axis K) (arr : Arr K) (g : Grid2D K) (lx ly : List K)
    (h : IncreasingAxes ax ay lx ly) (hg : mkGrid2D ax ay arr = .ok g) (x y c : K)
    (hx : OnTurn ax lx x c) (hy : OnTurn ay ly y y) (nx ny : Nat) (hnx : 0 < nx) (hny : 0 < ny)
    (fx : WindowFits lx ax.isCircle nx c) (fy : WindowFits ly false ny y) (same : Nat → Nat → Bool)
    (b : Boundary) (boundsError : Bool) :
    ∃ (idx jdx : List Nat) (xs ys : List K) (q : K),
      WindowAt lx ax.isAngle ax.isCircle nx x idx xs q ∧ WindowAt ly false false ny y jdx ys y ∧
      ((∃ p ∈ idx, ∃ r ∈ jdx, arr.at' [p, r] = none) → ∀ junk o,
        bicubicPoint same nx ny b boundsError g junk o (x, y) = .ok (none, o)) ∧
      ((∀ p ∈ idx, ∀ r ∈ jdx, arr.at' [p, r] ≠ none) → ∃ z : Nat → Nat → K,
        (∀ p r (hp : p < idx.length) (hr : r < jdx.length), arr.at' [idx[p], jdx[r]] = some (z p r)) ∧
        ∀ junk o, bicubicPoint same nx ny b boundsError g junk o (x, y) =
          o.call same junk xs ys ⟨xs.length, ys.length, z⟩ q y) := by
  obtain ⟨rfl, rfl, rfl, hcirc, hs⟩ := grid_shape h hg
  obtain ⟨xi, yi, xs, ys, ex, ey, lxi, lyi, rx, ry, ef, wx, wy⟩ := frame_window h g rfl rfl hcirc hx hy
    hnx hny b fx fy
  have nex : xi ≠ [] := by rintro rfl; simp at lxi; omega
  have ney : yi ≠ [] := by rintro rfl; simp at lyi; omega
  have hq := frameQ_ok (rest := []) hs rx ry (by simp)
  refine ⟨_, _, xs, ys, _, wx, wy, ?_, ?_⟩
  · intro hnone junk o
    unfold bicubicPoint
    simp only [List.map_nil] at hq
    have e := frameMat_none hnone
    simp only [ey, ex, ef, bind, Except.bind, nex, ney, or_self, if_false, hq, e]
  · intro hsome
    obtain ⟨z, hz, hzv⟩ := frameMat_some (rest := []) hsome
    refine ⟨z, hzv, ?_⟩
    intro junk o
    unfold bicubicPoint
    simp only [List.map_nil] at hq
    simp only [ey, ex, ef, bind, Except.bind, nex, ney, or_self, if_false, hq, hz, wx.size', wy.size', lxi, lyi]

/-- **C79** Without enough coordinates around the point (or outside of the grid, whatever the
boundary mode), the result is NaN, or an exception if `bounds_error` is set. A half size of zero
is refused. -/
theorem C79_outside (ax ay : Axis K) (arr : Arr K) (g : Grid2D K) (lx ly : List K)
    (h : IncreasingAxes ax ay lx ly) (hg : mkGrid2D ax ay arr = .ok g) (x y c d : K)
    (hx : OnTurn ax lx x c) (hy : OnTurn ay ly y d) (nx ny : Nat) (same : Nat → Nat → Bool) (b : Boundary)
    (boundsError : Bool) (junk : Nat → K) (o : Obj2D K) :
    (0 < nx → 0 < ny →
      (ax.isCircle = false ∧ ((b = .undef ∧ ¬ WindowFits lx false nx c) ∨ Outside lx c)) ∨
      ((b = .undef ∧ ¬ WindowFits ly false ny d) ∨ Outside ly d) →
      bicubicPoint same nx ny b boundsError g junk o (x, y) =
        if boundsError then .error .exn else .ok (none, o)) ∧
    (nx = 0 ∨ ny = 0 → bicubicPoint same nx ny b boundsError g junk o (x, y) = .error .exn) := by
  obtain ⟨rfl, rfl, rfl, hcirc, hs⟩ := grid_shape h hg
  have okx := reach_axisOk h.rx h.cx
  have oky := reach_axisOk h.ry h.cy
  refine ⟨?_, ?_⟩
  · intro hnx hny hout
    obtain ⟨wx, ex⟩ := window_total okx h.two x hnx b
    obtain ⟨wy, ey⟩ := window_total oky h.two' y hny b
    have : wx = [] ∨ wy = [] := by
      rcases hout with ⟨hc, ho⟩ | ho
      · left
        have := (window_cases okx h.two h.three h.xs hx hnx b).2 hc ho
        rw [ex] at this
        exact Except.ok.inj this
      · right
        have := (window_cases oky h.two' (by rw [hcirc]; simp) h.ys hy hny b).2 hcirc ho
        rw [ey] at this
        exact Except.ok.inj this
    unfold bicubicPoint
    simp only [ey, ex, bind, Except.bind]
    rw [if_pos this]
  · intro hn
    have zero : ∀ (a : Axis K) x, a.findIndexesWindow x 0 b = .error .exn := by
      intro a x
      unfold Axis.findIndexesWindow
      rw [if_pos rfl]
    unfold bicubicPoint
    rcases Nat.eq_zero_or_pos ny with rfl | hny
    · rw [zero]
      rfl
    · obtain ⟨wy, ey⟩ := window_total oky h.two' y hny b
      have : nx = 0 := by omega
      subst this
      simp only [ey, zero, bind, Except.bind]

/-! ### the value -/

theorem _root_.Pyinterp.Spec.WindowAt.within {l : List K} {angle circle : Bool} {n : Nat} {x q : K} {idx : List Nat} {xs : List K}
    (w : WindowAt l angle circle n x idx xs q) : Within xs q := by
  have h1 := w.size'
  have h2 := w.positive
  exact ⟨⟨_, List.getElem_mem (by omega : n - 1 < xs.length), w.left _⟩,
    _, List.getElem_mem (by omega : n < xs.length), w.right _⟩

/-- **C79** The models `bicubic` and `c_spline`: with at least two coordinates on each side and no NaN
in the window, the result is the value at the point of the natural cubic splines through the values
of the window, first along an axis and then along the other one (the order does not matter).
It does not depend on the points interpolated before with the same interpolator. -/
theorem C79_value (ax ay : Axis K) (arr : Arr K) (g : Grid2D K) (lx ly : List K)
    (h : IncreasingAxes ax ay lx ly) (hg : mkGrid2D ax ay arr = .ok g) (x y c : K)
    (hx : OnTurn ax lx x c) (hy : OnTurn ay ly y y) (nx ny : Nat) (hnx : 2 ≤ nx) (hny : 2 ≤ ny)
    (fx : WindowFits lx ax.isCircle nx c) (fy : WindowFits ly false ny y) (same : Nat → Nat → Bool)
    (b : Boundary) (boundsError : Bool) (k : Kind2D) (hk : k = .bicubic ∨ k = .spline .cspline) :
    ∃ (idx jdx : List Nat) (xs ys : List K) (q : K),
      WindowAt lx ax.isAngle ax.isCircle nx x idx xs q ∧ WindowAt ly false false ny y jdx ys y ∧
      ((∀ p ∈ idx, ∀ r ∈ jdx, arr.at' [p, r] ≠ none) → ∃ (z : Nat → Nat → K) (v : K),
        (∀ p r (hp : p < idx.length) (hr : r < jdx.length), arr.at' [idx[p], jdx[r]] = some (z p r)) ∧
        ColumnsFirst SplineAt xs ys z q y v ∧ RowsFirst SplineAt xs ys z q y v ∧
        ∀ junk o, Reach2D same k (2 * nx) (2 * ny) o →
          (bicubicPoint same nx ny b boundsError g junk o (x, y)).map (·.1) = .ok (some v)) := by
  obtain ⟨idx, jdx, xs, ys, q, wx, wy, -, hw⟩ := C79_window ax ay arr g lx ly h hg x y c hx hy nx ny
    (by omega) (by omega) fx fy same b boundsError
  refine ⟨idx, jdx, xs, ys, q, wx, wy, fun hs => ?_⟩
  obtain ⟨z, hz, hc⟩ := hw hs
  have l1 := wx.size'
  have l2 := wy.size'
  obtain ⟨v, e, h1, h2⟩ := C74_splines same k hk xs ys z wx.increasing wy.increasing (by omega) (by omega) q y
    wx.within wy.within (Obj2D.new (fun _ => 0) k) (.new _) (fun _ => 0)
  refine ⟨z, v, hz, h1, h2, ?_⟩
  intro junk o ho
  rw [hc, ← e]
  exact C74_no_history same k xs ys _ q y o _ (by rw [l1, l2]; exact ho) (.new _) junk _

/-- A coordinate of the axis is one of the two coordinates in the middle of its window. -/
theorem _root_.Pyinterp.Spec.WindowAt.node {l : List K} (hs : l.Pairwise (· < ·)) {angle circle : Bool} {n : Nat} {x q : K}
    {idx : List Nat} {xs : List K} (w : WindowAt l angle circle n x idx xs q)
    (hturn : angle = true → ∀ v ∈ l, ∀ w ∈ l, w < v + 360) {i : Nat} (hi : i < l.length)
    (hx : SameCoordinate angle x l[i]) :
    ∃ (k : Nat) (hk : k < idx.length) (hk' : k < xs.length), idx[k] = i ∧ q = xs[k] := by
  have h1 := w.size
  have h2 := w.size'
  have h3 := w.positive
  have trans : ∀ {a b c : K}, SameCoordinate angle a b → SameCoordinate angle b c → SameCoordinate angle a c := by
    intro a b c hab hbc
    unfold SameCoordinate at *
    cases angle
    · simp at *; rw [hab, hbc]
    · simp at *
      obtain ⟨k, rfl⟩ := hab
      obtain ⟨k', rfl⟩ := hbc
      exact ⟨k' + k, by push_cast; ring⟩
  have symm : ∀ {a b : K}, SameCoordinate angle a b → SameCoordinate angle b a := by
    intro a b hab
    unfold SameCoordinate at *
    cases angle
    · simp at *; rw [hab]
    · simp at *
      obtain ⟨k, rfl⟩ := hab
      exact ⟨-k, by push_cast; ring⟩
  have uniq : ∀ {j : Nat} (hj : j < l.length), SameCoordinate angle l[j] l[i] → j = i := by
    intro j hj hh
    unfold SameCoordinate at hh
    have key : l[j] = l[i] := by
      cases ha : angle
      · rw [ha] at hh; simpa using hh
      · rw [ha] at hh
        simp only [if_true] at hh
        obtain ⟨k, hk⟩ := hh
        have g1 := hturn ha _ (List.getElem_mem hi) _ (List.getElem_mem hj)
        have g2 := hturn ha _ (List.getElem_mem hj) _ (List.getElem_mem hi)
        have hk0 : k = 0 := by
          by_contra hne
          rcases lt_or_gt_of_ne hne with hl | hl
          · have : (k : K) ≤ ((-1 : ℤ) : K) := by exact_mod_cast (by omega : k ≤ -1)
            push_cast at this
            nlinarith
          · have : ((1 : ℤ) : K) ≤ (k : K) := by exact_mod_cast (by omega : 1 ≤ k)
            push_cast at this
            nlinarith
        rw [hk, hk0]
        simp
    have g1 := (le_of_asc hs hj hi).1 key.le
    have g2 := (le_of_asc hs hi hj).1 key.ge
    omega
  have hq : SameCoordinate angle q l[i] := trans w.query hx
  have hmid : q = xs[n - 1] ∨ q = xs[n] := by
    have hc := w.cell _ (List.getElem_mem hi) q hq (by omega) (by omega)
    have hl := w.left (by omega)
    have hr := w.right (by omega)
    rcases hl.lt_or_eq with hl | hl
    · rcases hr.lt_or_eq with hr | hr
      · exact absurd ⟨hl, hr⟩ hc
      · exact Or.inr hr
    · exact Or.inl hl.symm
  have fin : ∀ k (hk : k < idx.length) (hk' : k < xs.length), q = xs[k] → idx[k] = i := by
    intro k hk hk' e
    have hv := w.valid _ (List.getElem_mem hk)
    have := w.coordinates k hk hk' hv
    rw [← e] at this
    exact uniq hv (trans (symm this) hq)
  rcases hmid with e | e
  · exact ⟨n - 1, by omega, by omega, fin _ _ _ e, e⟩
  · exact ⟨n, by omega, by omega, fin _ _ _ e, e⟩

/-- **C79** At a node of a grid without NaN, when the axes have enough coordinates around it, the
result is the value of the grid, for the models `bicubic`, `linear`, `steffen`, `c_spline` and
`c_spline_periodic` with windows that are large enough for them. -/
theorem C79_nodes (ax ay : Axis K) (arr : Arr K) (g : Grid2D K) (lx ly : List K)
    (h : IncreasingAxes ax ay lx ly) (hg : mkGrid2D ax ay arr = .ok g) (i j : Nat) (hi : i < lx.length)
    (hj : j < ly.length) (x : K) (hx : OnTurn ax lx x lx[i]) (hy : OnTurn ay ly ly[j] ly[j]) (nx ny : Nat)
    (hnx : 0 < nx) (hny : 0 < ny) (fx : WindowFits lx ax.isCircle nx lx[i]) (fy : WindowFits ly false ny ly[j])
    (same : Nat → Nat → Bool) (b : Boundary) (boundsError : Bool) (k : Kind2D) (m : Nat)
    (hk : (k, m) ∈ [(Kind2D.bilinear, 2), (.bicubic, 4), (.spline .linear, 2), (.spline .steffen, 3),
      (.spline .cspline, 4), (.spline .csplinePeriodic, 4)])
    (hm : m ≤ 2 * nx) (hm' : m ≤ 2 * ny)
    (hnan : ∀ p r, p < lx.length → r < ly.length → arr.at' [p, r] ≠ none)
    (junk : Nat → K) (o : Obj2D K) (ho : Reach2D same k (2 * nx) (2 * ny) o) :
    (bicubicPoint same nx ny b boundsError g junk o (x, ly[j])).map (·.1) = .ok (arr.at' [i, j]) := by
  obtain ⟨idx, jdx, xs, ys, q, wx, wy, -, hw⟩ := C79_window ax ay arr g lx ly h hg x ly[j] lx[i] hx hy nx ny
    hnx hny fx fy same b boundsError
  obtain ⟨z, hz, hc⟩ := hw (fun p hp r hr => hnan p r (wx.valid p hp) (wy.valid r hr))
  have l1 := wx.size'
  have l2 := wy.size'
  have hxs : SameCoordinate ax.isAngle x lx[i] := by
    unfold SameCoordinate
    cases ha : ax.isAngle
    · simpa using (hx.1 ha).symm
    · obtain ⟨-, kk, e⟩ := hx.2 ha
      rw [if_pos rfl]
      exact ⟨-kk, by rw [e]; push_cast; ring⟩
  obtain ⟨p, hp, hp', ep, eq⟩ := wx.node h.xs h.turn hi hxs
  obtain ⟨r, hr, hr', er, eqy⟩ := wy.node h.ys (by simp) hj (by unfold SameCoordinate; simp)
  rw [hc, eq, eqy, C74_nodes same k m hk xs ys z wx.increasing wy.increasing (by omega) (by omega) p r hp' hr'
    o (by rw [l1, l2]; exact ho) junk, ← hz p r hp hr, ep, er]

end
/-! ### Examples and counter-examples -/

/-- the interpolation of one point of the array `exArr` on the axes built from the values `vx` (an
angle or not) and `vy` (an angle or not), with a new interpolator -/
def exBicubic (k : Kind2D) (vx vy : List ℚ) (angle yangle : Bool) (nx ny : Nat) (b : Boundary) (x y : ℚ)
    (boundsError : Bool) : Out (Option ℚ) := do
  let ax ← exAxis vx angle
  let ay ← exAxis vy yangle
  let g ← mkGrid2D ax ay (exArr vx.length vy.length)
  let r ← bicubicPoint (fun _ _ => false) nx ny b boundsError g (fun _ => 0) (Obj2D.new (fun _ => 0) k) (x, y)
  .ok r.1

/-- The hypotheses of `C79_window`, `C79_value` and `C79_nodes` are met by a circular x axis, a point
beyond its last coordinate and windows of 4 x 4 points. -/
example : ∃ (ax ay : Axis ℚ) (g : Grid2D ℚ) (lx ly : List ℚ), IncreasingAxes ax ay lx ly ∧
    mkGrid2D ax ay (exArr 6 5) = .ok g ∧ lx = [0, 60, 120, 180, 240, 300] ∧ ly = [0, 1, 3, 4, 5] ∧
    ax.isCircle = true ∧ OnTurn ax lx (-10) 350 ∧ OnTurn ay ly 2 2 ∧
    WindowFits lx ax.isCircle 2 350 ∧ WindowFits ly false 2 2 := by
  refine ⟨{ isCircle := true, circle := some 360, cont := .regular ⟨6, 0, 60, 1 / 60, true⟩ },
    { isCircle := false, circle := none, cont := .irregular [0, 1, 3, 4, 5] true }, _,
    [0, 60, 120, 180, 240, 300], [0, 1, 3, 4, 5], ⟨?_, ?_, ?_, ?_, by decide +kernel, by decide +kernel, by decide,
      by decide, by decide, ?_⟩, rfl, rfl, rfl, rfl, ?_, ?_, ?_, ?_⟩
  · exact Reach.values [0, 60, 120, 180, 240, 300] (1 / 1000000) true _ (by norm_num) (by decide +kernel)
  · exact Reach.values [0, 1, 3, 4, 5] (1 / 1000000) false _ (by norm_num) (by decide +kernel)
  · refine ⟨rfl, ?_⟩
    intro i hi
    have : i = 0 ∨ i = 1 ∨ i = 2 ∨ i = 3 ∨ i = 4 ∨ i = 5 := by simp at hi; omega
    rcases this with rfl | rfl | rfl | rfl | rfl | rfl <;> revert hi <;> decide +kernel
  · refine ⟨rfl, ?_⟩
    intro i hi
    have : i = 0 ∨ i = 1 ∨ i = 2 ∨ i = 3 ∨ i = 4 := by simp at hi; omega
    rcases this with rfl | rfl | rfl | rfl | rfl <;> rfl
  · intro _
    decide +kernel
  · refine ⟨by intro h; simp [Axis.isAngle] at h, fun _ => ⟨?_, 1, by norm_num⟩⟩
    intro v hv hle
    have h1 := hle 0 (by simp)
    simp at hv
    rcases hv with rfl | rfl | rfl | rfl | rfl | rfl <;> revert h1 <;> norm_num
  · exact ⟨fun _ => rfl, by intro h; simp [Axis.isAngle] at h⟩
  · unfold WindowFits; decide
  · unfold WindowFits; decide +kernel

/- The values: a point beyond the last coordinate of a circle, a node, a point without enough coordinates
around it. -/
example : exBicubic (.spline .linear) [0, 60, 120, 180, 240, 300] [0, 1, 3, 4, 5] true false 2 2 .undef (-30) 2
      false = .ok (some (53 / 2)) ∧
    exBicubic .bicubic [0, 60, 120, 180, 240, 300] [0, 1, 3, 4, 5] true false 2 2 .undef 300 3 false =
      .ok (some 52) ∧
    exBicubic .bicubic [0, 60, 120, 180, 240, 300] [0, 1, 3, 4, 5] true false 2 2 .undef 300 (1 / 2) false =
      .ok none ∧
    exBicubic .bicubic [0, 60, 120, 180, 240, 300] [0, 1, 3, 4, 5] true false 2 2 .undef 300 (1 / 2) true =
      .error .exn := by
  decide +kernel

/-- **C79** A window of two coordinates is too small for `bicubic`: every point of the grid raises
an exception, even without `bounds_error`. -/
theorem C79_half_size_one :
    exBicubic .bicubic [0, 1, 2, 3] [0, 1, 2, 3] false false 1 1 .undef (3 / 2) (3 / 2) false = .error .exn := by
  decide +kernel

/-- **C79, false with an angular y axis** The search of the window normalises `y`, the interpolation does
not: `y = 361` (that is 1) on the axis 0, 1, 2, 3 is found in the window but raises an exception with
`bicubic` and is NaN with `linear`; at `y = 1` the value is 11. -/
theorem C79_y_angle_false :
    exBicubic .bicubic [0, 1, 2, 3] [0, 1, 2, 3] false true 2 2 .undef 1 361 false = .error .exn ∧
    exBicubic (.spline .linear) [0, 1, 2, 3] [0, 1, 2, 3] false true 2 2 .undef 1 361 false = .ok none ∧
    exBicubic .bicubic [0, 1, 2, 3] [0, 1, 2, 3] false true 2 2 .undef 1 1 false = .ok (some 11) := by
  decide +kernel

/-- the abscissas of the window used for `x` -/
def exFrameX (vx : List ℚ) (n : Nat) (b : Boundary) (x : ℚ) : Out (List ℚ) := do
  let ax ← exAxis vx false
  let g ← mkGrid2D ax ax (exArr vx.length vx.length)
  let xi ← ax.findIndexesWindow x n b
  let f ← frameXY g xi xi
  .ok f.1

/-- **C79, false with the boundary modes** `expand`, `wrap` and `sym`: near an end of an axis that is
not a circle, the coordinates given to the interpolators are those of the repeated indexes; they are
not increasing, as the interpolators require. -/
theorem C79_boundary_false :
    exFrameX [0, 1, 2, 3, 4] 2 .expand (1 / 2) = .ok [0, 0, 1, 2] ∧
    exFrameX [0, 1, 2, 3, 4] 2 .wrap (1 / 2) = .ok [4, 0, 1, 2] ∧
    exFrameX [0, 1, 2, 3, 4] 2 .sym (1 / 2) = .ok [1, 0, 1, 2] ∧
    ∀ l ∈ [[0, 0, 1, 2], [4, 0, 1, 2], [1, 0, 1, (2 : ℚ)]], ¬ l.Pairwise (· < ·) := by
  decide +kernel

/-- **C79** At the abscissa number `size - n` of an axis of `size` coordinates, the window around the
coordinate would fit on its left, but the code looks for one coordinate more on the right: the result is
NaN at the node 2 of the axis 0, 1, 2, 3, and not at the node 1. -/
theorem C79_last_node :
    exBicubic .bicubic [0, 1, 2, 3] [0, 1, 2, 3] false false 2 2 .undef 2 1 false = .ok none ∧
    exBicubic .bicubic [0, 1, 2, 3] [0, 1, 2, 3] false false 2 2 .undef 1 1 false = .ok (some 11) := by
  decide +kernel

end Pyinterp.Interp
