import Mathlib.Data.Rat.Floor
import Verif.Lemmas.Delayed

/-
C106: `push_delayed` of Binning2D, Binning1D and Histogram2D.
-/
namespace Pyinterp.Delayed

open Spec

set_option linter.unusedSectionVars false

section
variable {K : Type} [Field K] [LinearOrder K] [IsStrictOrderedRing K] [FloorRing K]

/-- C106, Binning2D: for every way of cutting the samples in blocks and every tree of
additions, `push_delayed` returns a new object, which holds what `push` puts in a new instance
(of type `float64`) with the same axes and spheroid when it receives all the samples at
once; the objects that existed before, among them the instance and its axes, are not
modified. For the linear binning, the cells of the grid have an area (on the plane: always), and
the axis is not a circle of one coordinate. -/
theorem C106_binning2d (geo : K × K → List (K × K) → K) (tiny eps : K) (self : Typed (Bin2D.Binning K)) (lx ly : List K)
    (rx : Reach false self.instance'.x) (ry : Reach false self.instance'.y)
    (hx : Coordinates self.instance'.x lx) (hy : Coordinates self.instance'.y ly) (simple : Bool)
    (hlin : simple = false →
      0 < eps ∧ (∀ w, self.instance'.wgs = some w → AreaOk (geo w) lx ly) ∧
        (self.instance'.x.isCircle = true → 2 ≤ lx.length) ∧
        (self.instance'.y.isCircle = true → 2 ≤ ly.length))
    (graph : Sum (List (K × K × Option K))) (heap : Bin2D.Heap (Typed (Bin2D.Binning K))) :
    ∃ a heap' b, pushDelayed2D geo tiny eps self simple graph heap = .ok (a, heap') ∧
      heap'[a]? = some ⟨.float64, b⟩ ∧
      push2D geo tiny eps (Bin2D.make self.instance'.x self.instance'.y self.instance'.wgs)
        graph.blocks.flatten simple = .ok b ∧
      heap.length ≤ a ∧ heap <+: heap' := by
  set x := self.instance'.x with ex
  set y := self.instance'.y with ey
  set wgs := self.instance'.wgs with ew
  have okx := reach_axisOk rx hx
  have oky := reach_axisOk ry hy
  cases simple with
  | true =>
    obtain ⟨a, heap', o, e, g, p, l, pre⟩ := runSum_spec
      (block2D geo tiny eps x y wgs true) (Typed.iadd Bin2D.Binning.merge)
      (fun s o => o.dtype = .float64 ∧ (Bin2D.make x y wgs).pushSimple s = .ok o.instance')
      (by
        rintro s t ⟨d, a⟩ ⟨d', b⟩ ⟨rfl, ha⟩ ⟨rfl, hb⟩
        obtain ⟨a', b', c, e1, e2, e3, e4⟩ := Bin2D.C38_merge x y wgs lx ly rx ry hx hy s t
        rw [ha] at e1
        rw [hb] at e2
        rw [← Except.ok.inj e1, ← Except.ok.inj e2] at e4
        exact ⟨⟨.float64, c⟩, by simp [Typed.iadd, e4, bind, Except.bind], rfl, e3⟩)
      graph
      (by
        intro s _
        obtain ⟨a, _, _, e1, _⟩ := Bin2D.C38_merge x y wgs lx ly rx ry hx hy s []
        exact ⟨⟨.float64, a⟩, by simp [block2D, push2D, e1, bind, Except.bind], rfl, e1⟩)
      heap
    obtain ⟨d, o⟩ := o
    obtain ⟨rfl, p⟩ := p
    exact ⟨a, heap', o, e, g, by simpa [push2D] using p, l, pre⟩
  | false =>
    obtain ⟨heps, hw, hx2, hy2⟩ := hlin rfl
    choose ws g1 g2 using pushLinearOne_scatter (tiny := tiny) heps (strategy_ok hw) okx oky hx2 hy2
    have hacc := make_acc okx oky wgs
    have good : ∀ s, GoodItems (lx.length * ly.length) (linearItems ws s) := by
      intro s it hit
      obtain ⟨q, _, hq⟩ := List.mem_flatMap.1 hit
      cases ho : q.2.2 with
      | none => simp [ho] at hq
      | some v =>
        simp only [ho] at hq
        obtain ⟨p, hp, rfl⟩ := List.mem_map.1 hq
        exact g1 _ _ p hp
    have hpush : ∀ s, ∃ acc, Bin2D.pushLinear (strategy geo wgs) tiny eps x y (Bin2D.make x y wgs).acc s = .ok acc ∧
        CellsOf (lx.length * ly.length) (linearItems ws s) acc := by
      intro s
      rw [pushLinear_scatter ws g2, hacc]
      exact scatter_cells (good s)
    have hmk : ∀ s acc, Bin2D.pushLinear (strategy geo wgs) tiny eps x y (Bin2D.make x y wgs).acc s = .ok acc →
        push2D geo tiny eps (Bin2D.make x y wgs) s false = .ok ⟨x, y, acc, wgs⟩ := by
      intro s acc h
      have h' : Bin2D.pushLinear (strategy geo (Bin2D.make x y wgs).wgs) tiny eps (Bin2D.make x y wgs).x (Bin2D.make x y wgs).y
        (Bin2D.make x y wgs).acc s = .ok acc := h
      simp only [push2D, Bool.false_eq_true, if_false, h', bind, Except.bind]
      rfl
    obtain ⟨a, heap', o, e, g, p, l, pre⟩ := runSum_spec
      (block2D geo tiny eps x y wgs false) (Typed.iadd Bin2D.Binning.merge)
      (fun s o => ∃ acc, o = ⟨.float64, ⟨x, y, acc, wgs⟩⟩ ∧
        CellsOf (lx.length * ly.length) (linearItems ws s) acc)
      (by
        rintro s t _ _ ⟨a, rfl, ha⟩ ⟨b, rfl, hb⟩
        obtain ⟨c, e, hc⟩ := mergeCells_cells (good s) (good t) ha hb
        refine ⟨⟨.float64, ⟨x, y, c, wgs⟩⟩, ?_, c, rfl, ?_⟩
        · simp only [Typed.iadd, ne_eq, not_true_eq_false, if_false,
            merge_same okx oky wgs e, bind, Except.bind]
        · simpa [linearItems] using hc)
      graph
      (by
        intro s _
        obtain ⟨acc, e, h⟩ := hpush s
        exact ⟨⟨.float64, ⟨x, y, acc, wgs⟩⟩, by
          simp only [block2D, hmk s acc e, bind, Except.bind], acc, rfl, h⟩)
      heap
    obtain ⟨acc, rfl, hc⟩ := p
    obtain ⟨acc', e', hc'⟩ := hpush graph.blocks.flatten
    rw [cellsOf_unique hc hc'] at g
    exact ⟨a, heap', _, e, g, hmk _ _ e', l, pre⟩

/-- An area proportional to that of the plane. -/
theorem areaOk_scaled {c : K} (hc : 0 < c) (lx ly : List K) :
    AreaOk (fun r => c * Bin2D.ringArea r) lx ly := by
  have h := ringArea_ok (K := K) lx ly
  refine ⟨fun a b c' d hn => ?_, fun x0 m0 x1 m1 y0 n0 y1 n1 hx hy => ?_⟩
  · have : Bin2D.ringArea [a, b, c', d, a] < 0 := by
      by_contra hh
      exact absurd hn (not_lt.2 (mul_nonneg hc.le (not_lt.1 hh)))
    exact mul_pos hc (h.reverse _ _ _ _ this)
  · exact mul_ne_zero hc.ne' (h.cell x0 m0 x1 m1 y0 n0 y1 n1 hx hy)

/- Three blocks added as (b1 + b2) + b3, with one object already there, on the plane and with a
spheroid, whose areas are twice those of the plane. -/
example : AreaOk ((fun (w : ℚ × ℚ) r => w.1 * Bin2D.ringArea r) (2, 0)) [0, 2, 4] [0, 4] :=
  areaOk_scaled (by norm_num) _ _

example : ∃ self : Typed (Bin2D.Binning ℚ), Reach false self.instance'.x ∧
    Reach false self.instance'.y ∧ Coordinates self.instance'.x [0, 2, 4] ∧
    Coordinates self.instance'.y [0, 4] ∧
    (pushDelayed2D (fun w r => w.1 * Bin2D.ringArea r) (1 / 10 ^ 12) (1 / 10 ^ 10) self false
      (.add (.add (.block [(1, 1, some 8)]) (.block [(3, 4, some 2), (1, 1, none)]))
        (.block [(5, 1, some 1)])) [self]).map
      (fun r => (r.1, r.2.map fun o => o.instance'.acc.map (·.sumOfWeights))) =
      .ok (1, [[0, 0, 0, 0, 0, 0], [3 / 8, 1 / 8, 3 / 8, 5 / 8, 0, 1 / 2],
        [0, 0, 0, 1 / 2, 0, 1 / 2], [0, 0, 0, 0, 0, 0]]) := by
  refine ⟨⟨.float64, Bin2D.make ⟨false, none, .regular ⟨3, 0, 2, 1 / 2, true⟩⟩
      ⟨false, none, .regular ⟨2, 0, 4, 1 / 4, true⟩⟩ (some (2, 0))⟩,
    .regular 0 4 3 (1/1000000) false _ (by decide +kernel),
    .regular 0 4 2 (1/1000000) false _ (by decide +kernel),
    ⟨rfl, by decide +kernel⟩, ⟨rfl, by decide +kernel⟩, by decide +kernel⟩

/-- C106, what is false: `push_delayed` of an instance of type `float32` gives an instance of
type `float64`: the sum of the instance and of the result is refused. -/
theorem C106_dtype_false (geo : K × K → List (K × K) → K) (tiny eps : K) (self : Typed (Bin2D.Binning K)) (lx ly : List K)
    (rx : Reach false self.instance'.x) (ry : Reach false self.instance'.y)
    (hx : Coordinates self.instance'.x lx) (hy : Coordinates self.instance'.y ly)
    (h32 : self.dtype = .float32) (graph : Sum (List (K × K × Option K))) :
    ∃ a heap' o, pushDelayed2D geo tiny eps self true graph [self] = .ok (a, heap') ∧
      heap'[a]? = some o ∧ o.dtype ≠ self.dtype ∧
      Bin2D.pyAdd (Typed.iadd Bin2D.Binning.merge) heap' 0 a = .error .exn := by
  obtain ⟨a, heap', b, e, g, _, _, pre⟩ := C106_binning2d geo tiny eps self lx ly rx ry hx hy true
    (fun h => absurd h (by decide)) graph [self]
  have h0 : heap'[0]? = some self := by
    obtain ⟨t, rfl⟩ := pre
    rfl
  refine ⟨a, heap', _, e, g, by rw [h32]; exact fun h => Dtype.noConfusion h, ?_⟩
  simp [Bin2D.pyAdd, h0, g, Typed.iadd, h32, bind, Except.bind]

example : ∃ self : Typed (Bin2D.Binning ℚ), self.dtype = .float32 ∧ Reach false self.instance'.x ∧
    Reach false self.instance'.y ∧ Coordinates self.instance'.x [0, 2, 4] ∧
    Coordinates self.instance'.y [0, 4] :=
  ⟨⟨.float32, Bin2D.make ⟨false, none, .regular ⟨3, 0, 2, 1 / 2, true⟩⟩
      ⟨false, none, .regular ⟨2, 0, 4, 1 / 4, true⟩⟩ none⟩, rfl,
    .regular 0 4 3 (1/1000000) false _ (by decide +kernel),
    .regular 0 4 2 (1/1000000) false _ (by decide +kernel),
    ⟨rfl, by decide +kernel⟩, ⟨rfl, by decide +kernel⟩⟩

/-! ### Binning1D -/

theorem unitAxis_ok : ∃ y : Axis K, unitAxis = .ok y ∧ Reach false y ∧ Coordinates y [0] := by
  have e : ∃ y : Axis K, unitAxis = .ok y ∧ Coordinates y [0] := by
    refine ⟨⟨false, none, .regular ⟨1, 0, 1, AxisNum.regAux 1, true⟩⟩, ?_, rfl, ?_⟩
    · simp [unitAxis, mkAxisRegular, mkRegular, computeProperties, Container.size,
        Container.isMonotonic, bind, Except.bind, pure, Except.pure]
    · intro i hi
      have : i = 0 := by simpa using hi
      subst this
      simp [Axis.coordinateValue, Axis.size, Container.size, Container.coord, AxisNum.mulInt]
  obtain ⟨y, e, c⟩ := e
  exact ⟨y, e, .regular 0 1 1 0 false y e, c⟩

/-- C106, Binning1D, for an instance with the default range: with positive weights,
`push_delayed` returns what `push` puts in a new instance with the same axis when it
receives all the samples at once, whatever the blocks and the tree of additions; the objects
that existed before are not modified. -/
theorem C106_binning1d_partial (self : Typed (Binning1 K)) (l : List K)
    (rx : Reach false self.instance'.bins.x) (hx : Coordinates self.instance'.bins.x l)
    (graph : Sum (List (K × Option K × K))) (hw : ∀ b ∈ graph.blocks, ∀ s ∈ b, 0 < s.2.2)
    (heap : Bin2D.Heap (Typed (Binning1 K))) :
    ∃ new a heap' b, make1D self.instance'.bins.x none = .ok new ∧
      pushDelayed1D self graph heap = .ok (a, heap') ∧ heap'[a]? = some ⟨.float64, b⟩ ∧
      push1D new graph.blocks.flatten = .ok b ∧ heap.length ≤ a ∧ heap <+: heap' := by
  set x := self.instance'.bins.x with ex
  have okx := reach_axisOk rx hx
  obtain ⟨y, ey, ry, hy⟩ := unitAxis_ok (K := K)
  have oky := reach_axisOk ry hy
  obtain ⟨cx, fx, bx, nx⟩ := Bin2D.exists_index_function okx
  obtain ⟨lo, elo, _⟩ := okx.stores.minValue
  obtain ⟨hi, ehi, _⟩ := okx.stores.maxValue
  have hnew : make1D x none = .ok ⟨Bin2D.make x y none, lo, hi⟩ := by
    simp only [make1D, ey, elo, ehi, bind, Except.bind]
  have hacc : (Bin2D.make x y none).acc = List.replicate l.length (Stats.empty : Stats.Acc K) := by
    have := make_acc okx oky none
    simpa using this
  let items : List (K × Option K × K) → List (Nat × (K × K)) := Bin2D.items1D cx lo hi
  have good : ∀ s : List (K × Option K × K), (∀ q ∈ s, 0 < q.2.2) → GoodItems l.length (items s) := by
    intro s hs it hit
    obtain ⟨q, hq, e⟩ := List.mem_filterMap.1 hit
    obtain ⟨v, _, rfl⟩ := Option.map_eq_some_iff.1 e
    exact ⟨bx q.1, hs q (List.mem_of_mem_filter hq)⟩
  have hpush : ∀ s : List (K × Option K × K), (∀ q ∈ s, 0 < q.2.2) →
      ∃ acc, push1D ⟨Bin2D.make x y none, lo, hi⟩ s = .ok ⟨⟨x, y, acc, none⟩, lo, hi⟩ ∧
        CellsOf l.length (items s) acc := by
    intro s hs
    obtain ⟨acc, e, h⟩ := scatter_cells (good s hs)
    refine ⟨acc, ?_, h⟩
    have e' : Bin2D.push1D x lo hi (Bin2D.make x y none).acc s = .ok acc := by
      rw [Bin2D.push1D_scatter okx.stores.size_eq cx fx bx, hacc]
      exact e
    have e'' : Bin2D.push1D (Bin2D.make x y none).x lo hi (Bin2D.make x y none).acc s = .ok acc := e'
    simp only [push1D, e'', bind, Except.bind]
    rfl
  obtain ⟨a, heap', o, e, g, p, le, pre⟩ := runSum_spec (block1D x) (Typed.iadd merge1D)
    (fun s o => (∀ q ∈ s, 0 < q.2.2) ∧ ∃ acc, o = ⟨.float64, ⟨⟨x, y, acc, none⟩, lo, hi⟩⟩ ∧
      CellsOf l.length (items s) acc)
    (by
      rintro s t _ _ ⟨hs, a, rfl, ha⟩ ⟨ht, b, rfl, hb⟩
      obtain ⟨c, e, hc⟩ := mergeCells_cells (good s hs) (good t ht) ha hb
      refine ⟨⟨.float64, ⟨⟨x, y, c, none⟩, lo, hi⟩⟩, ?_, ?_, c, rfl, ?_⟩
      · simp only [Typed.iadd, ne_eq, not_true_eq_false, if_false, merge1D,
          merge_same okx oky none e, bind, Except.bind]
      · intro q hq
        rcases List.mem_append.1 hq with h | h
        exacts [hs q h, ht q h]
      · simpa [items, Bin2D.items1D] using hc)
    graph
    (by
      intro s hs
      obtain ⟨acc, e, h⟩ := hpush s (hw s hs)
      exact ⟨_, by simp only [block1D, hnew, e, bind, Except.bind], hw s hs, acc, rfl, h⟩)
    heap
  obtain ⟨hpos, acc, rfl, hc⟩ := p
  obtain ⟨acc', e', hc'⟩ := hpush _ hpos
  rw [cellsOf_unique hc hc'] at g
  exact ⟨_, a, heap', _, hnew, e, g, e', le, pre⟩

/- Two blocks, with weights. -/
example : ∃ self : Typed (Binning1 ℚ), Reach false self.instance'.bins.x ∧
    Coordinates self.instance'.bins.x [0, 2, 4] ∧
    (pushDelayed1D self (.add (.block [(1 / 2, some 8, 2), (7 / 2, some 2, 1)])
      (.block [(9 / 2, some 2, 1), (2, none, 1), (0, some 1, 1)])) []).map
      (fun r => r.2.map fun o => o.instance'.bins.acc.map (·.sumOfWeights)) =
      .ok [[3, 0, 1], [1, 0, 0]] := by
  refine ⟨⟨.float64, ⟨Bin2D.make ⟨false, none, .regular ⟨3, 0, 2, 1 / 2, true⟩⟩
      ⟨false, none, .regular ⟨1, 0, 1, 1, true⟩⟩ none, 0, 4⟩⟩,
    .regular 0 4 3 (1/1000000) false _ (by decide +kernel),
    ⟨rfl, by decide +kernel⟩, by decide +kernel⟩

/-- C106, what is false: the range given to a `Binning1D` is lost by `push_delayed`. For the
axis 0, 2, 4 and the range (0, 1), `push` ignores a sample at 3 but `push_delayed` counts
it. -/
theorem C106_range_false :
    ∃ (self : Binning1 ℚ), make1D ⟨false, none, .regular ⟨3, 0, 2, 1 / 2, true⟩⟩ (some (0, 1)) = .ok self ∧
      (push1D self [(3, some 8, 1)]).map (fun b => b.bins.acc.map (·.count)) = .ok [0, 0, 0] ∧
      (pushDelayed1D ⟨.float64, self⟩ (.block [(3, some 8, 1)]) []).map
        (fun r => r.2.map fun o => (o.instance'.bins.acc.map (·.count), o.instance'.lo, o.instance'.hi)) =
        .ok [([0, 0, 1], 0, 4)] :=
  ⟨⟨⟨⟨false, none, .regular ⟨3, 0, 2, 1 / 2, true⟩⟩, ⟨false, none, .regular ⟨1, 0, 1, 1, true⟩⟩,
    [Stats.empty, Stats.empty, Stats.empty], none⟩, 0, 1⟩, by with_unfolding_all rfl, by decide +kernel,
    by decide +kernel⟩

/-! ### Histogram2D -/

/-- C106, Histogram2D: for every way of cutting the samples in blocks and every tree of
additions, `push_delayed` returns a new object of the same type and axes, each cell of which
has received exactly the samples with a value that are nearest to it (with C30 to C32: its
count, its weight, its mean are those of these samples); the objects that existed before
are not modified. -/
theorem C106_histogram (num : Streaming.Numeric K) (B : K) (hf : Fits num B)
    (self : Typed (Bin2D.Histogram K)) (lx ly : List K)
    (rx : Pyinterp.Reach false self.instance'.x) (ry : Pyinterp.Reach false self.instance'.y)
    (hx : Coordinates self.instance'.x lx) (hy : Coordinates self.instance'.y ly) :
    ∃ cx cy : K → Nat, NearestIndex self.instance'.x lx cx ∧ NearestIndex self.instance'.y ly cy ∧
      ∀ (graph : Sum (List (K × K × Option K))) (heap : Bin2D.Heap (Typed (Bin2D.Histogram K))),
        (∀ b ∈ graph.blocks, ∀ v ∈ definedValues b, |v| ≤ B) →
        ∃ a heap' h, pushDelayedHistogram num self graph heap = .ok (a, heap') ∧
          heap'[a]? = some ⟨self.dtype, h⟩ ∧ h.x = self.instance'.x ∧ h.y = self.instance'.y ∧
          Bin2D.CellsReach num B h lx.length ly.length
            (fun i j => (cellValues cx cy i j graph.blocks.flatten).map fun v => (v, 1)) ∧
          heap.length ≤ a ∧ heap <+: heap' := by
  have okx := reach_axisOk rx hx
  have oky := reach_axisOk ry hy
  obtain ⟨cx, cy, nx, ny, hpush⟩ := Bin2D.C39_push num B hf self.instance'.x self.instance'.y lx ly
    rx ry hx hy
  refine ⟨cx, cy, nx, ny, fun graph heap hb => ?_⟩
  have hnew : makeHistogram num self.instance'.x self.instance'.y none =
      ⟨self.instance'.x, self.instance'.y,
        List.replicate (lx.length * ly.length) (Streaming.make num 100 false)⟩ := by
    unfold makeHistogram
    rw [show self.instance'.x.size = (lx.length : Int) from okx.stores.size_eq,
      show self.instance'.y.size = (ly.length : Int) from oky.stores.size_eq, ← Int.natCast_mul]
    rfl
  obtain ⟨a, heap', o, e, g, p, l, pre⟩ := runSum_spec
    (blockHistogram num self.instance'.x self.instance'.y self.dtype)
    (Typed.iadd (Bin2D.Histogram.merge num))
    (fun s o => o.dtype = self.dtype ∧ o.instance'.x = self.instance'.x ∧
      o.instance'.y = self.instance'.y ∧ Bin2D.CellsReach num B o.instance' lx.length ly.length
        (fun i j => (cellValues cx cy i j s).map fun v => (v, 1)))
    (by
      rintro s t ⟨d, a⟩ ⟨d', b⟩ ⟨rfl, a1, a2, a3⟩ ⟨rfl, b1, b2, b3⟩
      obtain ⟨c, e, c1, c2, c3⟩ := Bin2D.C39_merge num B hf _ _ lx ly rx ry hx hy a b _ _ a1 a2 b1 b2
        a3 b3
      refine ⟨⟨self.dtype, c⟩, by simp [Typed.iadd, e, bind, Except.bind], rfl, c1, c2, ?_⟩
      simpa [cellValues] using c3)
    graph
    (by
      intro s hs
      obtain ⟨h', e, h1, h2, h3⟩ := hpush ⟨self.instance'.x, self.instance'.y,
        List.replicate (lx.length * ly.length) (Streaming.make num 100 false)⟩ _ rfl rfl
        (Bin2D.C39_new num B self.instance'.x self.instance'.y lx.length ly.length 100 (by norm_num))
        s (hb s hs)
      rw [← hnew] at e
      exact ⟨⟨self.dtype, h'⟩, by simp only [blockHistogram, e, bind, Except.bind], rfl, h1, h2,
        by simpa using h3⟩)
    heap
  obtain ⟨d, o⟩ := o
  obtain ⟨rfl, p1, p2, p3⟩ := p
  exact ⟨a, heap', o, e, g, p1, p2, p3, l, pre⟩

example : ∃ self : Typed (Bin2D.Histogram ℚ), Pyinterp.Reach false self.instance'.x ∧
    Pyinterp.Reach false self.instance'.y ∧ Coordinates self.instance'.x [0, 2] ∧
    Coordinates self.instance'.y [0, 4] ∧
    (pushDelayedHistogram Streaming.exNum self (.add (.block [(0, 0, some 1), (0, 0, some 10)])
      (.block [(2, 1, some 3), (0, 0, some 2)])) []).map (fun r => r.2.map fun o =>
        o.instance'.cells.map fun c => c.bins.map (·.value)) =
      .ok [[[1, 2, 10], [], [3], []], [[2], [], [3], []]] :=
  ⟨⟨.float32, makeHistogram Streaming.exNum ⟨false, none, .regular ⟨2, 0, 2, 1 / 2, true⟩⟩
      ⟨false, none, .regular ⟨2, 0, 4, 1 / 4, true⟩⟩ none⟩,
    .regular 0 2 2 (1/1000000) false _ (by decide +kernel),
    .regular 0 4 2 (1/1000000) false _ (by decide +kernel),
    ⟨rfl, by decide +kernel⟩, ⟨rfl, by decide +kernel⟩, by decide +kernel⟩

/-- C106, what is false: the number of bins given to a `Histogram2D` is lost by
`push_delayed`: with 2 bins, three values pushed in a cell leave 2 bins, but 3 bins with
`push_delayed`, where the histograms have up to 100 bins. -/
theorem C106_bin_counts_false :
    ∃ x y : Axis ℚ, Pyinterp.Reach false x ∧ Pyinterp.Reach false y ∧ Coordinates x [0, 2] ∧
      Coordinates y [0, 4] ∧
      (((makeHistogram Streaming.exNum x y (some 2)).push Streaming.exNum
        [(0, 0, some 1), (0, 0, some 10), (0, 0, some 2)]).map fun h =>
          h.cells.map fun c => c.bins.length) = .ok [2, 0, 0, 0] ∧
      ((pushDelayedHistogram Streaming.exNum ⟨.float64, makeHistogram Streaming.exNum x y (some 2)⟩
        (.block [(0, 0, some 1), (0, 0, some 10), (0, 0, some 2)]) []).map fun r =>
          r.2.map fun o => o.instance'.cells.map fun c => (c.bins.length, c.binCount)) =
        .ok [[(3, 100), (0, 100), (0, 100), (0, 100)]] := by
  refine ⟨⟨false, none, .regular ⟨2, 0, 2, 1 / 2, true⟩⟩, ⟨false, none, .regular ⟨2, 0, 4, 1 / 4, true⟩⟩,
    .regular 0 2 2 (1/1000000) false _ (by decide +kernel),
    .regular 0 4 2 (1/1000000) false _ (by decide +kernel),
    ⟨rfl, by decide +kernel⟩, ⟨rfl, by decide +kernel⟩, by decide +kernel, by decide +kernel⟩

end

end Pyinterp.Delayed
