import Verif.Lemmas.Variate
import Verif.Props.C06_Indexes

/-!
C47 – interpolation of a 2-D grid.
-/
namespace Pyinterp.Variate
open Pyinterp Spec
set_option linter.unusedSectionVars false
set_option linter.unusedVariables false
set_option linter.unusedSimpArgs false

section
variable {K : Type} [Field K] [LinearOrder K] [IsStrictOrderedRing K] [FloorRing K]

theorem mkGrid2D_ok {ax ay : Axis K} {arr : Arr K} {g : Grid2D K} (h : mkGrid2D ax ay arr = .ok g) :
    g.x = ax ∧ g.y = ay ∧ g.arr = arr ∧ ay.isCircle = false ∧
      ∃ nx ny : Nat, arr.shape = [nx, ny] ∧ ax.size = nx ∧ ay.size = ny := by
  unfold mkGrid2D at h
  split at h
  · simp at h
  · rename_i h0
    split at h
    · simp at h
    · rename_i h1
      split at h
      · simp at h
      · rename_i h2
        injection h with h
        subst h
        simp only [Bool.or_eq_true, Bool.not_eq_eq_eq_not, Bool.not_true, not_or, Bool.not_eq_false] at h1
        have hlen : arr.shape.length = 2 := by omega
        obtain ⟨nx, ny, hs⟩ := List.length_eq_two.mp hlen
        refine ⟨rfl, rfl, rfl, by simpa using h2, nx, ny, hs, ?_, ?_⟩
        · simpa [checkShape, hs] using h1.1
        · simpa [checkShape, hs] using h1.2

theorem value2_ok {arr : Arr K} {nx ny i j : Nat} (hs : arr.shape = [nx, ny]) (hi : i < nx) (hj : j < ny) :
    arr.value [(i : Int), (j : Int)] = .ok (arr.at' [i, j]) := by
  unfold Arr.value
  rw [if_pos]
  · simp
  · rw [hs]
    refine ⟨rfl, ?_⟩
    intro p hp
    simp at hp
    rcases hp with rfl | rfl <;> simp <;> omega

/-- `_bivariate` once the indexes are known. -/
theorem bivariate_eq {m : Method K} {g : Grid2D K} {nx ny : Nat} (hs : g.arr.shape = [nx, ny])
    {x y : K} {b : Bool} {i i' j j' : Nat} (hi : i < nx) (hi' : i' < nx) (hj : j < ny) (hj' : j' < ny)
    (hx : g.x.findIndexes x = .ok (some ((i : Int), (i' : Int))))
    (hy : g.y.findIndexes y = .ok (some ((j : Int), (j' : Int)))) {x0 x1 y0 y1 : K}
    (hx0 : g.x.cont.coord i = .ok x0) (hx1 : g.x.cont.coord i' = .ok x1)
    (hy0 : g.y.cont.coord j = .ok y0) (hy1 : g.y.cont.coord j' = .ok y1) :
    bivariate m g x y b = .ok (m.evaluate (g.x.normalizeCoordinate' x x0, y) (x0, y0) (x1, y1)
      (g.arr.at' [i, j]) (g.arr.at' [i, j']) (g.arr.at' [i', j]) (g.arr.at' [i', j'])) := by
  unfold bivariate
  rw [hx, hy]
  simp only [bind, Except.bind, hx0, hx1, hy0, hy1, value2_ok hs hi hj, value2_ok hs hi hj',
    value2_ok hs hi' hj, value2_ok hs hi' hj']
  rfl

theorem between_comm {T : Type} [CommRing T] [LinearOrder T] {a b c : T} (h : Between a c b) : Between b c a := by
  rcases h with h | h
  · exact Or.inr h
  · exact Or.inl h

theorem strict_ne {T : Type} [CommRing T] [LinearOrder T] {l : List T} (h : StrictlyMonotone l) {i j : Nat} (hi : i < l.length) (hj : j < l.length)
    (hne : i ≠ j) : l[i] ≠ l[j] := by
  rcases h with h | h <;> rcases Nat.lt_or_gt_of_ne hne with hl | hl
  · exact (List.pairwise_iff_getElem.mp h i j hi hj hl).ne
  · exact (List.pairwise_iff_getElem.mp h j i hj hi hl).ne'
  · exact (List.pairwise_iff_getElem.mp h i j hi hj hl).ne'
  · exact (List.pairwise_iff_getElem.mp h j i hj hi hl).ne

theorem axisOk_strict {T : Type} [CommRing T] [LinearOrder T] [IsStrictOrderedRing T] [AxisNum T]
    [LawfulAxisNum T] {a : Axis T} {l : List T} (h : AxisOk a l) : StrictlyMonotone l := by
  cases hd : a.cont.isAscending with
  | true => exact Or.inl (h.stores.asc hd)
  | false => exact Or.inr (h.stores.desc hd)

theorem side_of_pairwise {T : Type} [CommRing T] [LinearOrder T] [IsStrictOrderedRing T] [AxisNum T]
    [LawfulAxisNum T] {a : Axis T} {l : List T} (h : AxisOk a l) (h2 : 2 ≤ l.length) {c : T}
    (hs : a.isAngle = true → l.Pairwise (· < ·) ∨ ∃ v ∈ l, v < c) :
    a.isAngle = true → a.cont.isAscending = true ∨ ∃ v ∈ l, v < c := by
  intro ha
  rcases hs ha with hp | hp
  · left
    cases hd : a.cont.isAscending with
    | true => rfl
    | false =>
      exfalso
      have h1 := List.pairwise_iff_getElem.mp (h.stores.desc hd) 0 1 (by omega) (by omega) (by omega)
      have h3 := List.pairwise_iff_getElem.mp hp 0 1 (by omega) (by omega) (by omega)
      exact absurd h1 (not_lt.mpr h3.le)
  · exact Or.inr hp

theorem mem_swapY {α : Type} {a b c d v : α} (h : v ∈ [a, b, c, d]) : v ∈ [b, a, d, c] := by
  simp only [List.mem_cons, List.not_mem_nil, or_false] at h ⊢
  tauto

theorem mem_swapX {α : Type} {a b c d v : α} (h : v ∈ [a, b, c, d]) : v ∈ [c, d, a, b] := by
  simp only [List.mem_cons, List.not_mem_nil, or_false] at h ⊢
  tauto

theorem inRange_swapY {a b c d r : K} (h : InRange [a, b, c, d] r) : InRange [b, a, d, c] r := by
  obtain ⟨⟨q, hq, h1⟩, ⟨p, hp, h2⟩⟩ := h
  exact ⟨⟨q, mem_swapY hq, h1⟩, ⟨p, mem_swapY hp, h2⟩⟩

theorem inRange_swapX {a b c d r : K} (h : InRange [a, b, c, d] r) : InRange [c, d, a, b] r := by
  obtain ⟨⟨q, hq, h1⟩, ⟨p, hp, h2⟩⟩ := h
  exact ⟨⟨q, mem_swapX hq, h1⟩, ⟨p, mem_swapX hp, h2⟩⟩

theorem none_mem4 {α : Type} {a b c d : Option α} (h : none ∈ [a, b, c, d]) :
    a = none ∨ b = none ∨ c = none ∨ d = none := by
  simp only [List.mem_cons, List.not_mem_nil, or_false] at h
  rcases h with h | h | h | h <;> simp [← h]

/-- **C47** Bilinear interpolation inside the grid. Let `cx` be `x` brought, if the x axis is an
angle, to the turn that starts at its smallest coordinate, and let `(cx, y)` lie within the
coordinates of the axes (both have at least two). There is a cell of the grid, between the nodes
`i, i + 1` and `j, j + 1`, that contains the point, and the result is the value at the point of
the function `a + b x + c y + d x y` given by the four nodes of this cell, within their range;
it is NaN if one of the four nodes is NaN.

Restrictions: on an angular y axis, `y` must already be on the turn that starts at the smallest
coordinate (`C47_y_angle_false`); on a decreasing angular x axis the point must not be the
smallest coordinate itself (`C47_descending_angle_false`). Points beyond the last coordinate of
a circular axis are not covered (`C47_seam_false`). -/
theorem C47_bilinear_partial (ax ay : Axis K) (arr : Arr K) (g : Grid2D K) (lx ly : List K)
    (hax : Reach false ax) (hay : Reach false ay) (hlx : Coordinates ax lx) (hly : Coordinates ay ly)
    (hg : mkGrid2D ax ay arr = .ok g) (h2x : 2 ≤ lx.length) (h2y : 2 ≤ ly.length)
    (x y cx : K) (b : Bool) (htx : OnTurn ax lx x cx) (hty : OnTurn ay ly y y)
    (hinx : ¬ Outside lx cx) (hiny : ¬ Outside ly y)
    (hside : ax.isAngle = true → lx.Pairwise (· < ·) ∨ ∃ v ∈ lx, v < cx) :
    ∃ (i j : Nat) (hi : i + 1 < lx.length) (hj : j + 1 < ly.length),
      Between lx[i] cx lx[i + 1] ∧ Between ly[j] y ly[j + 1] ∧
      (∀ q00 q01 q10 q11, arr.at' [i, j] = some q00 → arr.at' [i, j + 1] = some q01 →
        arr.at' [i + 1, j] = some q10 → arr.at' [i + 1, j + 1] = some q11 →
        ∃ r, bivariate .bilinear g x y b = .ok (some r) ∧
          OnBilinear lx[i] lx[i + 1] ly[j] ly[j + 1] q00 q01 q10 q11 cx y r ∧
          InRange [q00, q01, q10, q11] r) ∧
      (none ∈ [arr.at' [i, j], arr.at' [i, j + 1], arr.at' [i + 1, j], arr.at' [i + 1, j + 1]] →
        bivariate .bilinear g x y b = .ok none) := by
  have okx := reach_axisOk hax hlx
  have oky := reach_axisOk hay hly
  obtain ⟨rfl, rfl, rfl, hcirc, nx, ny, hs, hnx, hny⟩ := mkGrid2D_ok hg
  have hnx' : nx = lx.length := by have := okx.stores.size_eq; unfold Axis.size at hnx; omega
  have hny' : ny = ly.length := by have := oky.stores.size_eq; unfold Axis.size at hny; omega
  subst hnx' hny'
  obtain ⟨i, i', hi, hi', hadji, fx, bx, cx0, cx1, hnx⟩ := locate okx h2x htx hinx
  obtain ⟨j, j', hj, hj', hadjj, fy, b_y, cy0, cy1, -⟩ := locate oky h2y hty hiny
  have hc := hnx (side_of_pairwise okx h2x hside)
  have hb := bivariate_eq (m := .bilinear) (b := b) hs hi hi' hj hj' fx fy cx0 cx1 cy0 cy1
  rw [hc] at hb
  have nex := strict_ne (axisOk_strict okx) hi hi' (by omega)
  have ney := strict_ne (axisOk_strict oky) hj hj' (by omega)
  -- the value in the cell found by the code
  have hval : ∀ q00 q01 q10 q11, g.arr.at' [i, j] = some q00 → g.arr.at' [i, j'] = some q01 →
      g.arr.at' [i', j] = some q10 → g.arr.at' [i', j'] = some q11 →
      ∃ r, bivariate .bilinear g x y b = .ok (some r) ∧
        OnBilinear lx[i] lx[i'] ly[j] ly[j'] q00 q01 q10 q11 cx y r ∧
        InRange [q00, q01, q10, q11] r := by
    intro q00 q01 q10 q11 e1 e2 e3 e4
    rw [e1, e2, e3, e4] at hb
    obtain ⟨r, h1, h2⟩ := C46_bilinear (cx, y) (lx[i], ly[j]) (lx[i'], ly[j']) q00 q01 q10 q11 nex ney
    exact ⟨r, by rw [hb, h1], h2, (h2.isMean nex ney bx b_y).inRange⟩
  have hnan : none ∈ [g.arr.at' [i, j], g.arr.at' [i, j'], g.arr.at' [i', j], g.arr.at' [i', j']] →
      bivariate .bilinear g x y b = .ok none := by
    intro hn
    rw [hb, C46_bilinear_nan _ _ _ _ _ _ _ (none_mem4 hn)]
  rcases hadji with rfl | rfl <;> rcases hadjj with rfl | rfl
  · exact ⟨i, j, hi', hj', bx, b_y, hval, hnan⟩
  · refine ⟨i, j', hi', hj, bx, between_comm b_y, ?_, fun hn => hnan (mem_swapY hn)⟩
    intro q00 q01 q10 q11 e1 e2 e3 e4
    obtain ⟨r, h1, h2, h3⟩ := hval _ _ _ _ e2 e1 e4 e3
    exact ⟨r, h1, h2.swapY, inRange_swapY h3⟩
  · refine ⟨i', j, hi, hj', between_comm bx, b_y, ?_, fun hn => hnan (mem_swapX hn)⟩
    intro q00 q01 q10 q11 e1 e2 e3 e4
    obtain ⟨r, h1, h2, h3⟩ := hval _ _ _ _ e3 e4 e1 e2
    exact ⟨r, h1, h2.swapX, inRange_swapX h3⟩
  · refine ⟨i', j', hi, hj, between_comm bx, between_comm b_y, ?_,
      fun hn => hnan (mem_swapX (mem_swapY hn))⟩
    intro q00 q01 q10 q11 e1 e2 e3 e4
    obtain ⟨r, h1, h2, h3⟩ := hval _ _ _ _ e4 e3 e2 e1
    exact ⟨r, h1, h2.swapX.swapY, inRange_swapY (inRange_swapX h3)⟩

theorem node_of_between {T : Type} [CommRing T] [LinearOrder T] [IsStrictOrderedRing T]
    {l : List T} (h : StrictlyMonotone l) {i k : Nat} (hi : i + 1 < l.length)
    (hk : k < l.length) (hb : Between l[i] l[k] l[i + 1]) : k = i ∨ k = i + 1 := by
  by_contra hne
  push Not at hne
  rcases h with h | h
  · have lt := fun a b ha hb hab => List.pairwise_iff_getElem.mp h a b ha hb hab
    have h0 := lt i (i + 1) (by omega) hi (by omega)
    rcases Nat.lt_or_ge k i with hlt | hge
    · have := lt k i hk (by omega) hlt
      rcases hb with hb | hb <;> linarith [hb.1, hb.2]
    · have := lt (i + 1) k hi hk (by omega)
      rcases hb with hb | hb <;> linarith [hb.1, hb.2]
  · have lt := fun a b ha hb hab => List.pairwise_iff_getElem.mp h a b ha hb hab
    have h0 := lt i (i + 1) (by omega) hi (by omega)
    rcases Nat.lt_or_ge k i with hlt | hge
    · have := lt k i hk (by omega) hlt
      rcases hb with hb | hb <;> linarith [hb.1, hb.2]
    · have := lt (i + 1) k hi hk (by omega)
      rcases hb with hb | hb <;> linarith [hb.1, hb.2]

theorem not_outside_mem {T : Type} [CommRing T] [LinearOrder T] {l : List T} {v : T} (h : v ∈ l) : ¬ Outside l v := by
  rintro (h' | h')
  · exact lt_irrefl _ (h' v h)
  · exact lt_irrefl _ (h' v h)

/-- **C47** At a node of the grid the bilinear result is the value of the node (when the nodes
around it are defined): on a circular axis also for any longitude equal to the one of the node
up to turns. Same restrictions as `C47_bilinear_partial`. -/
theorem C47_node_partial (ax ay : Axis K) (arr : Arr K) (g : Grid2D K) (lx ly : List K)
    (hax : Reach false ax) (hay : Reach false ay) (hlx : Coordinates ax lx) (hly : Coordinates ay ly)
    (hg : mkGrid2D ax ay arr = .ok g) (h2x : 2 ≤ lx.length) (h2y : 2 ≤ ly.length)
    (n m : Nat) (hn : n < lx.length) (hm : m < ly.length) (x : K) (b : Bool)
    (htx : OnTurn ax lx x lx[n]) (hty : OnTurn ay ly ly[m] ly[m])
    (hside : ax.isAngle = true → lx.Pairwise (· < ·) ∨ ∃ v ∈ lx, v < lx[n])
    (hdef : ∀ i j, n ≤ i + 1 → i ≤ n + 1 → m ≤ j + 1 → j ≤ m + 1 → i < lx.length → j < ly.length →
      (arr.at' [i, j]).isSome) :
    bivariate .bilinear g x ly[m] b = .ok (arr.at' [n, m]) := by
  obtain ⟨i, j, hi, hj, bx, b_y, hv, -⟩ := C47_bilinear_partial ax ay arr g lx ly hax hay hlx hly hg h2x h2y
    x ly[m] lx[n] b htx hty (not_outside_mem (List.getElem_mem hn)) (not_outside_mem (List.getElem_mem hm)) hside
  have okx := reach_axisOk hax hlx
  have oky := reach_axisOk hay hly
  have hni := node_of_between (axisOk_strict okx) hi hn bx
  have hmj := node_of_between (axisOk_strict oky) hj hm b_y
  obtain ⟨q00, e00⟩ := Option.isSome_iff_exists.mp (hdef i j (by omega) (by omega) (by omega) (by omega)
    (by omega) (by omega))
  obtain ⟨q01, e01⟩ := Option.isSome_iff_exists.mp (hdef i (j + 1) (by omega) (by omega) (by omega) (by omega)
    (by omega) (by omega))
  obtain ⟨q10, e10⟩ := Option.isSome_iff_exists.mp (hdef (i + 1) j (by omega) (by omega) (by omega) (by omega)
    (by omega) (by omega))
  obtain ⟨q11, e11⟩ := Option.isSome_iff_exists.mp (hdef (i + 1) (j + 1) (by omega) (by omega) (by omega) (by omega)
    (by omega) (by omega))
  obtain ⟨r, h1, h2, -⟩ := hv _ _ _ _ e00 e01 e10 e11
  rw [h1]
  congr 1
  obtain ⟨a, bb, c, d, f1, f2, f3, f4, f5⟩ := h2
  rcases hni with rfl | rfl <;> rcases hmj with rfl | rfl
  · rw [e00, f5, f1]
  · rw [e01, f5, f2]
  · rw [e10, f5, f3]
  · rw [e11, f5, f4]

/-- **C47** If the grid samples a function `a + b x + c y + d x y`, the bilinear result is the
value of this function. Same restrictions. -/
theorem C47_exact_partial (ax ay : Axis K) (arr : Arr K) (g : Grid2D K) (lx ly : List K)
    (hax : Reach false ax) (hay : Reach false ay) (hlx : Coordinates ax lx) (hly : Coordinates ay ly)
    (hg : mkGrid2D ax ay arr = .ok g) (h2x : 2 ≤ lx.length) (h2y : 2 ≤ ly.length)
    (x y cx : K) (bd : Bool) (htx : OnTurn ax lx x cx) (hty : OnTurn ay ly y y)
    (hinx : ¬ Outside lx cx) (hiny : ¬ Outside ly y)
    (hside : ax.isAngle = true → lx.Pairwise (· < ·) ∨ ∃ v ∈ lx, v < cx)
    (a b c d : K)
    (hf : ∀ (i j : Nat) (hi : i < lx.length) (hj : j < ly.length),
      arr.at' [i, j] = some (a + b * lx[i] + c * ly[j] + d * (lx[i] * ly[j]))) :
    bivariate .bilinear g x y bd = .ok (some (a + b * cx + c * y + d * (cx * y))) := by
  obtain ⟨i, j, hi, hj, bx, b_y, hv, -⟩ := C47_bilinear_partial ax ay arr g lx ly hax hay hlx hly hg h2x h2y
    x y cx bd htx hty hinx hiny hside
  obtain ⟨r, h1, h2, -⟩ := hv _ _ _ _ (hf i j (by omega) (by omega)) (hf i (j + 1) (by omega) (by omega))
    (hf (i + 1) j (by omega) (by omega)) (hf (i + 1) (j + 1) (by omega) (by omega))
  rw [h1]
  congr 2
  exact h2.unique (strict_ne (axisOk_strict (reach_axisOk hax hlx)) _ _ (by omega))
    (strict_ne (axisOk_strict (reach_axisOk hay hly)) _ _ (by omega)) ⟨a, b, c, d, rfl, rfl, rfl, rfl, rfl⟩

/-- **C47** Outside the grid: with any interpolator, when a coordinate lies outside its axis (an
x axis that goes round the circle has no outside), the result is NaN, or an exception if
`bounds_error` is set. -/
theorem C47_outside (ax ay : Axis K) (arr : Arr K) (g : Grid2D K) (lx ly : List K)
    (hax : Reach false ax) (hay : Reach false ay) (hlx : Coordinates ax lx) (hly : Coordinates ay ly)
    (hg : mkGrid2D ax ay arr = .ok g) (h2x : 2 ≤ lx.length) (h2y : 2 ≤ ly.length)
    (x y cx cy : K) (htx : OnTurn ax lx x cx) (hty : OnTurn ay ly y cy)
    (hout : (ax.isCircle = false ∧ Outside lx cx) ∨ Outside ly cy) (m : Method K) :
    bivariate m g x y false = .ok none ∧ bivariate m g x y true = .error .exn := by
  have okx := reach_axisOk hax hlx
  have oky := reach_axisOk hay hly
  obtain ⟨rfl, rfl, rfl, hcirc, nx, ny, hs, hnx, hny⟩ := mkGrid2D_ok hg
  have key : g.x.findIndexes x = .ok none ∨ g.y.findIndexes y = .ok none := by
    rcases hout with ⟨h1, h2⟩ | h
    · exact Or.inl (locate_none okx h2x htx h1 h2)
    · exact Or.inr (locate_none oky h2y hty hcirc h)
  rcases findIndexes_ok okx h2x x with fx | ⟨i, i', -, -, fx, -, -⟩ <;>
    rcases findIndexes_ok oky h2y y with fy | ⟨j, j', -, -, fy, -, -⟩
  · constructor <;> simp [bivariate, fx, fy, bind, Except.bind, pure, Except.pure]
  · constructor <;> simp [bivariate, fx, fy, bind, Except.bind, pure, Except.pure]
  · constructor <;> simp [bivariate, fx, fy, bind, Except.bind, pure, Except.pure]
  · rw [fx, fy] at key
    simp at key

/-- the node `(i, j)` of a grid: its position and its value -/
def node (lx ly : List K) (arr : Arr K) (i j : Nat) : (K × K) × Option K :=
  ((lx.getD i 0, ly.getD j 0), arr.at' [i, j])

/-- **C47** Nearest and inverse distance interpolators: for a point of the grid, two x nodes and
two y nodes frame the point (on a circular axis: also the two ends, for a point beyond the last
coordinate). `nearest` returns the value of one of these four nodes, at the smallest distance of
the point; `inverse distance` returns the value of a node at distance at most `eps`, if there is
one, and otherwise a weighted mean of the four (when they are defined). The point is `(x', y)`
where `x'` is `x` up to turns (`x` itself if the axis is not an angle). -/
theorem C47_other_methods (ax ay : Axis K) (arr : Arr K) (g : Grid2D K) (lx ly : List K)
    (hax : Reach false ax) (hay : Reach false ay) (hlx : Coordinates ax lx) (hly : Coordinates ay ly)
    (hg : mkGrid2D ax ay arr = .ok g) (h2x : 2 ≤ lx.length) (h2y : 2 ≤ ly.length)
    (x y cx cy : K) (b : Bool) (htx : OnTurn ax lx x cx) (hty : OnTurn ay ly y cy)
    (hinx : ax.isCircle = true ∨ ¬ Outside lx cx) (hiny : ¬ Outside ly cy) :
    ∃ (i i' j j' : Nat) (x' : K), Frames lx ax.isCircle cx i i' ∧ Frames ly false cy j j' ∧
      (∃ k : ℤ, x' = x + (k : K) * 360 ∧ (ax.isAngle = false → k = 0)) ∧
      let nodes := [node lx ly arr i j, node lx ly arr i j', node lx ly arr i' j, node lx ly arr i' j']
      (∀ cdist, ∃ n ∈ nodes, bivariate (.nearest cdist) g x y b = .ok n.2 ∧
        ∀ n' ∈ nodes, cdist (x', y) n.1 ≤ cdist (x', y) n'.1) ∧
      (∀ dist eps e, 0 ≤ eps → (∃ n ∈ nodes, dist (x', y) n.1 ≤ eps) →
        ∃ n ∈ nodes, dist (x', y) n.1 ≤ eps ∧ bivariate (.idw dist eps e) g x y b = .ok n.2) ∧
      (∀ dist eps e qs, 0 ≤ eps → (∀ n ∈ nodes, eps < dist (x', y) n.1) →
        nodes.map (·.2) = qs.map some →
        ∃ r, bivariate (.idw dist eps e) g x y b = .ok (some r) ∧ IsMean qs r ∧ InRange qs r) := by
  have okx := reach_axisOk hax hlx
  have oky := reach_axisOk hay hly
  obtain ⟨rfl, rfl, rfl, hcirc, nx, ny, hs, hnx, hny⟩ := mkGrid2D_ok hg
  have hnx' : nx = lx.length := by have := okx.stores.size_eq; unfold Axis.size at hnx; omega
  have hny' : ny = ly.length := by have := oky.stores.size_eq; unfold Axis.size at hny; omega
  subst hnx' hny'
  obtain ⟨mx, cx', hmx, hnx, hrx⟩ := findIndexes_spec okx h2x x
  have e1 := onTurn_normOf okx hmx hnx htx
  subst e1
  obtain ⟨my, cy', hmy, hny, hry⟩ := findIndexes_spec oky h2y y
  have e2 := onTurn_normOf oky hmy hny hty
  subst e2
  rcases hrx with ⟨i, i', fx, frx, -, -⟩ | ⟨-, hc, ho⟩
  swap
  · rcases hinx with h | h
    · rw [h] at hc; cases hc
    · exact absurd ho h
  rcases hry with ⟨j, j', fy, fry, -, -⟩ | ⟨-, hc, ho⟩
  swap
  · exact absurd ho hiny
  obtain ⟨a1, a2, a3, a4, a5⟩ := frx
  obtain ⟨b1, b2, b3, b4, b5⟩ := fry
  obtain ⟨i, rfl⟩ := Int.eq_ofNat_of_zero_le a1
  obtain ⟨i', rfl⟩ := Int.eq_ofNat_of_zero_le a2
  obtain ⟨j, rfl⟩ := Int.eq_ofNat_of_zero_le b1
  obtain ⟨j', rfl⟩ := Int.eq_ofNat_of_zero_le b2
  have frx : Frames lx g.x.isCircle cx i i' := ⟨a1, a2, a3, a4, a5⟩
  have fry : Frames ly false cy j j' := by rw [← hcirc]; exact ⟨b1, b2, b3, b4, b5⟩
  simp only [Int.toNat_natCast] at a3 a4 b3 b4
  have hci : g.x.cont.coord (i : Int) = .ok lx[i] := by
    simpa using okx.stores.coord_int (i : Int) (by omega) (by simpa using a3)
  have hci' : g.x.cont.coord (i' : Int) = .ok lx[i'] := by
    simpa using okx.stores.coord_int (i' : Int) (by omega) (by simpa using a4)
  have hcj : g.y.cont.coord (j : Int) = .ok ly[j] := by
    simpa using oky.stores.coord_int (j : Int) (by omega) (by simpa using b3)
  have hcj' : g.y.cont.coord (j' : Int) = .ok ly[j'] := by
    simpa using oky.stores.coord_int (j' : Int) (by omega) (by simpa using b4)
  have hb := fun m => bivariate_eq (m := m) (b := b) hs a3 a4 b3 b4 fx fy hci hci' hcj hcj'
  have hnode : [node lx ly g.arr i j, node lx ly g.arr i j', node lx ly g.arr i' j, node lx ly g.arr i' j']
      = corners (lx[i], ly[j]) (lx[i'], ly[j']) (g.arr.at' [i, j]) (g.arr.at' [i, j'])
        (g.arr.at' [i', j]) (g.arr.at' [i', j']) := by
    simp [node, corners, a3, a4, b3, b4]
  refine ⟨i, i', j, j', g.x.normalizeCoordinate' x lx[i], frx, fry, ?_, ?_⟩
  · obtain ⟨hn, -⟩ := normalize'_spec g.x lx[i] x okx.circle
    rcases okx.circle with hc | hc
    · exact ⟨0, by rw [hn.1 hc]; simp, fun _ => rfl⟩
    · obtain ⟨-, -, k, hk⟩ := hn.2 _ hc
      exact ⟨k, hk, fun h => by simp [Axis.isAngle, hc] at h⟩
  · rw [hnode]
    refine ⟨?_, ?_, ?_⟩
    · intro cdist
      obtain ⟨c, h1, h2, h3⟩ := C46_nearest cdist (g.x.normalizeCoordinate' x lx[i], y) (lx[i], ly[j])
        (lx[i'], ly[j']) (g.arr.at' [i, j]) (g.arr.at' [i, j']) (g.arr.at' [i', j]) (g.arr.at' [i', j'])
      exact ⟨c, h1, by rw [hb, h2], h3⟩
    · intro dist eps e he hex
      obtain ⟨c, h1, h2, h3⟩ := C46_idw_corner dist eps e (g.x.normalizeCoordinate' x lx[i], y) (lx[i], ly[j])
        (lx[i'], ly[j']) (g.arr.at' [i, j]) (g.arr.at' [i, j']) (g.arr.at' [i', j]) (g.arr.at' [i', j']) hex
      exact ⟨c, h1, h2, by rw [hb, h3]⟩
    · intro dist eps e qs he hall hq
      simp only [corners, List.map_cons, List.map_nil] at hq
      match qs, hq with
      | [q00, q01, q10, q11], hq =>
        simp only [List.map_cons, List.map_nil, List.cons.injEq, and_true] at hq
        obtain ⟨e00, e01, e10, e11⟩ := hq
        rw [e00, e01, e10, e11] at hall
        obtain ⟨r, h1, -, h3, h4⟩ := C46_idw dist eps he e (g.x.normalizeCoordinate' x lx[i], y)
          (lx[i], ly[j]) (lx[i'], ly[j']) q00 q01 q10 q11 hall
        refine ⟨r, ?_, h3, h4⟩
        rw [hb, e00, e01, e10, e11, h1]
      | [], hq => simp at hq
      | [_], hq => simp at hq
      | [_, _], hq => simp at hq
      | [_, _, _], hq => simp at hq
      | _ :: _ :: _ :: _ :: _ :: _, hq => simp at hq

end

/-! ### Examples and counter-examples -/

/-- an axis built from values with the default tolerance -/
def exAxis (v : List ℚ) (angle : Bool) : Out (Axis ℚ) := mkAxis false v (1 / 1000000) angle

/-- an array of this shape with the value `10 * i + j` at `(i, j)` -/
def exArr (nx ny : Nat) : Arr ℚ :=
  { shape := [nx, ny], at' := fun idx => some (10 * (idx.getD 0 0 : ℚ) + (idx.getD 1 0 : ℚ)) }

/-- interpolation of the array `exArr` on the axes built from the values `vx` (an angle or not)
and `vy` -/
def exBivariate (vx vy : List ℚ) (angle yangle : Bool) (x y : ℚ) (b : Bool) : Out (Option ℚ) := do
  let ax ← exAxis vx angle
  let ay ← exAxis vy yangle
  let g ← mkGrid2D ax ay (exArr vx.length vy.length)
  bivariate .bilinear g x y b

/-- The hypotheses of `C47_bilinear_partial`, `C47_node_partial` and `C47_outside` are met by
concrete axes, grids and points. -/
example : ∃ (ax ay : Axis ℚ) (g : Grid2D ℚ) (lx ly : List ℚ), Reach false ax ∧ Reach false ay ∧
    Coordinates ax lx ∧ Coordinates ay ly ∧ mkGrid2D ax ay (exArr 4 3) = .ok g ∧
    lx = [0, 90, 180, 270] ∧ ly = [5, 3, 2] ∧ ax.isCircle = true ∧ ax.isAngle = true ∧
    ay.isAngle = false ∧ OnTurn ax lx 405 45 := by
  refine ⟨{ isCircle := true, circle := some 360, cont := .regular ⟨4, 0, 90, 1 / 90, true⟩ },
    { isCircle := false, circle := none, cont := .irregular [5, 3, 2] false }, _,
    [0, 90, 180, 270], [5, 3, 2], ?_, ?_, ?_, ?_, rfl, rfl, rfl, rfl, rfl, rfl, ?_⟩
  · exact Reach.values [0, 90, 180, 270] (1 / 1000000) true _ (by norm_num) (by decide +kernel)
  · exact Reach.values [5, 3, 2] (1 / 1000000) false _ (by norm_num) (by decide +kernel)
  · refine ⟨rfl, ?_⟩
    intro i hi
    have : i = 0 ∨ i = 1 ∨ i = 2 ∨ i = 3 := by simp at hi; omega
    rcases this with rfl | rfl | rfl | rfl <;> revert hi <;> decide +kernel
  · refine ⟨rfl, ?_⟩
    intro i hi
    have : i = 0 ∨ i = 1 ∨ i = 2 := by simp at hi; omega
    rcases this with rfl | rfl | rfl <;> rfl
  · refine ⟨by intro h; simp [Axis.isAngle] at h, fun _ => ⟨?_, -1, by norm_num⟩⟩
    intro v hv hle
    have h1 := hle 0 (by simp)
    simp at hv
    rcases hv with rfl | rfl | rfl | rfl <;> revert h1 <;> norm_num

example : exBivariate [0, 90, 180, 270] [5, 3, 2] true false 405 4 false = .ok (some (11 / 2)) ∧
    exBivariate [0, 90, 180, 270] [5, 3, 2] true false 90 3 false = .ok (some 11) ∧
    exBivariate [0, 90, 180, 270] [5, 3, 2] true false 90 6 false = .ok none ∧
    exBivariate [0, 90, 180, 270] [5, 3, 2] true false 90 6 true = .error .exn := by
  decide +kernel

/-- **C47, false at the seam** On the circular axis 0, 90, 180, 270 the value at longitude 315,
between the nodes 270 (value 30) and 360 = 0 (value 0), is 35 and not 15: the code takes the
raw coordinate 0 of the second node (and not 360), so it extrapolates. -/
theorem C47_seam_false :
    exBivariate [0, 90, 180, 270] [5, 3, 2] true false 315 5 false = .ok (some 35) := by
  decide +kernel

/-- **C47, false on a decreasing angular axis** The value at the node 0 of the axis 20, 10, 0 is
not the value of the node (20) but -340: the longitude 0 is brought to 360 because the
first node of the cell is 10. -/
theorem C47_descending_angle_false :
    exBivariate [20, 10, 0] [5, 3, 2] true false 0 5 false = .ok (some (-340)) ∧
    (exArr 3 3).at' [2, 0] = some 20 := by
  decide +kernel

/-- **C47, false with an angular y axis** The search normalises `y`, the interpolation does
not: at `y = 361` (that is 1) on the axis 0, 1, 2 the value is 361 and not 1. -/
theorem C47_y_angle_false :
    exBivariate [0, 90, 180, 270] [0, 1, 2] true true 0 361 false = .ok (some 361) ∧
    exBivariate [0, 90, 180, 270] [0, 1, 2] true true 0 1 false = .ok (some 1) := by
  decide +kernel

end Pyinterp.Variate
