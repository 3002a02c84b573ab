import Verif.Model.Binning1D
import Verif.Props.C108_History
import Verif.Props.C08_FlipPickle

/-
C118: copies and pickling of Binning1D.
-/
namespace Pyinterp.Delayed

open Spec

set_option linter.unusedSectionVars false

section
variable {K : Type} [Field K] [LinearOrder K] [IsStrictOrderedRing K] [FloorRing K]

/-- C118: the range of a new Binning1D is the one given, or else the smallest and the largest
coordinates of the axis, and no bin has a sample. -/
theorem C118_new (x : Axis K) (l : List K) (rx : Reach false x) (hx : Coordinates x l)
    (range : Option (K × K)) :
    ∃ b, make1D x range = .ok b ∧ b.bins.x = x ∧
      b.bins.acc = List.replicate l.length Stats.empty ∧
      (∀ r, range = some r → (b.lo, b.hi) = r) ∧
      (range = none → b.lo ∈ l ∧ b.hi ∈ l ∧ ∀ v ∈ l, b.lo ≤ v ∧ v ≤ b.hi) := by
  have okx := reach_axisOk rx hx
  obtain ⟨y, ey, ry, hy⟩ := unitAxis_ok (K := K)
  have oky := reach_axisOk ry hy
  have hacc : (Bin2D.make x y none).acc = List.replicate l.length (Stats.empty : Stats.Acc K) := by
    simp only [Bin2D.make]
    congr 1
    rw [show x.size = (l.length : Int) from okx.stores.size_eq,
      show y.size = (([0] : List K).length : Int) from oky.stores.size_eq]
    simp
  obtain ⟨lo, elo, hlo⟩ := okx.stores.minValue
  obtain ⟨hi, ehi, hhi⟩ := okx.stores.maxValue
  cases range with
  | some r =>
    obtain ⟨u, v⟩ := r
    refine ⟨⟨Bin2D.make x y none, u, v⟩, by simp only [make1D, ey, bind, Except.bind], rfl, hacc,
      ?_, fun h => by cases h⟩
    rintro _ ⟨⟩; rfl
  | none =>
    refine ⟨⟨Bin2D.make x y none, lo, hi⟩, by simp only [make1D, ey, elo, ehi, bind, Except.bind],
      rfl, hacc, fun r h => (by cases h), fun _ => ?_⟩
    exact ⟨hlo.1, hhi.1, fun v hv => ⟨hlo.2 v hv, hhi.2 v hv⟩⟩

/-- C118: a Binning1D obtained by the constructor and any sequence of pushes, whose axis has at
least two coordinates (and is circular if it is an angle), is unchanged by pickling: same
axis, same range, same statistics. -/
theorem C118_pickle (x : Axis K) (rx : Reach false x) (h2 : 2 ≤ x.size)
    (hang : x.isAngle = true → x.isCircle = true) (range : Option (K × K))
    (calls : List (List (K × Option K × K))) (new b : Binning1 K)
    (hnew : make1D x range = .ok new) (hb : Variable.pushes1D new calls = .ok b) :
    ∃ s, getstate1D b = .ok s ∧ setstate1D s = .ok b := by
  obtain ⟨y, ey, ry, hy⟩ := unitAxis_ok (K := K)
  have oky := reach_axisOk ry hy
  have ysize : y.size = 1 := oky.stores.size_eq
  obtain ⟨sx, gx, ux⟩ := C09_pickle_identity_partial x rx h2 hang
  have h1 : ∃ lo hi, new = ⟨Bin2D.make x y none, lo, hi⟩ := by
    cases range with
    | some r =>
      obtain ⟨u, v⟩ := r
      simp only [make1D, ey, bind, Except.bind] at hnew
      exact ⟨u, v, (Except.ok.inj hnew).symm⟩
    | none =>
      simp only [make1D, ey, bind, Except.bind] at hnew
      cases h : x.cont.minValue with
      | error e => rw [h] at hnew; cases hnew
      | ok lo =>
        cases h' : x.cont.maxValue with
        | error e => rw [h, h'] at hnew; cases hnew
        | ok hi => rw [h, h'] at hnew; exact ⟨lo, hi, (Except.ok.inj hnew).symm⟩
  obtain ⟨lo, hi, rfl⟩ := h1
  rw [Variable.pushes1D_flatten] at hb
  unfold push1D at hb
  simp only [bind] at hb
  cases h : Bin2D.push1D (Bin2D.make x y none).x lo hi (Bin2D.make x y none).acc calls.flatten with
  | error e => simp only [h, Except.bind] at hb; cases hb
  | ok acc =>
    simp only [h, Except.bind] at hb
    obtain rfl := Except.ok.inj hb
    refine ⟨⟨sx, x.size, y.size, acc, (lo, hi)⟩, ?_, ?_⟩
    · simp only [getstate1D, Bin2D.make, gx, bind, Except.bind]
    · simp only [setstate1D, ux, bind, Except.bind, ysize, ne_eq, not_true_eq_false, or_self,
        if_false, make1D, ey]

example : ∃ x : Axis ℚ, Reach false x ∧ 2 ≤ x.size ∧ (x.isAngle = true → x.isCircle = true) ∧
    ((make1D x (some (0, 3))).bind fun new =>
      (Variable.pushes1D new [[(1 / 2, some 8, 2)], [(3, some 2, 1)]]).map fun b =>
        b.bins.acc.map (·.sum)) = .ok [16, 0, 2] :=
  ⟨⟨false, none, .regular ⟨3, 0, 2, 1 / 2, true⟩⟩,
    .regular 0 4 3 (1/1000000) false _ (by decide +kernel), by decide +kernel, by decide +kernel,
    by decide +kernel⟩

/-- C118: a state whose matrix has not the shape of the axis is refused. -/
theorem C118_invalid (s : State1 K) (x : Axis K) (hx : Axis.setstate s.x = .ok x)
    (h : s.rows ≠ x.size ∨ s.cols ≠ 1) : setstate1D s = .error .exn := by
  simp only [setstate1D, hx, bind, Except.bind]
  rw [if_pos h]

/-- C118: the sum of two Binning1D with the same axis and range is the Binning1D, with this axis
and range, that has received the samples of both, with positive weights. -/
theorem C118_sum (x : Axis K) (l : List K) (rx : Reach false x) (hx : Coordinates x l)
    (range : Option (K × K)) (s t : List (K × Option K × K)) (hs : ∀ q ∈ s, 0 < q.2.2)
    (ht : ∀ q ∈ t, 0 < q.2.2) :
    ∃ new a b c, make1D x range = .ok new ∧ push1D new s = .ok a ∧ push1D new t = .ok b ∧
      merge1D a b = .ok c ∧ push1D new (s ++ t) = .ok c ∧ c.lo = new.lo ∧ c.hi = new.hi := by
  have okx := reach_axisOk rx hx
  obtain ⟨y, ey, ry, hy⟩ := unitAxis_ok (K := K)
  have oky := reach_axisOk ry hy
  obtain ⟨cx, fx, bx, nx⟩ := Bin2D.exists_index_function okx
  have hnew : ∃ lo hi, make1D x range = .ok ⟨Bin2D.make x y none, lo, hi⟩ := by
    cases range with
    | some r => exact ⟨r.1, r.2, by simp only [make1D, ey, bind, Except.bind]⟩
    | none =>
      obtain ⟨lo, elo, _⟩ := okx.stores.minValue
      obtain ⟨hi, ehi, _⟩ := okx.stores.maxValue
      exact ⟨lo, hi, by simp only [make1D, ey, elo, ehi, bind, Except.bind]⟩
  obtain ⟨lo, hi, hnew⟩ := hnew
  have hacc : (Bin2D.make x y none).acc = List.replicate l.length (Stats.empty : Stats.Acc K) := by
    have := make_acc okx oky none
    simpa using this
  have good : ∀ s : List (K × Option K × K), (∀ q ∈ s, 0 < q.2.2) →
      GoodItems l.length (Bin2D.items1D cx lo hi s) := by
    intro s hs it hit
    obtain ⟨q, hq, e⟩ := List.mem_filterMap.1 hit
    obtain ⟨v, _, rfl⟩ := Option.map_eq_some_iff.1 e
    exact ⟨bx q.1, hs q (List.mem_of_mem_filter hq)⟩
  have hpush : ∀ s : List (K × Option K × K), (∀ q ∈ s, 0 < q.2.2) →
      ∃ acc, push1D ⟨Bin2D.make x y none, lo, hi⟩ s = .ok ⟨⟨x, y, acc, none⟩, lo, hi⟩ ∧
        CellsOf l.length (Bin2D.items1D cx lo hi s) acc := by
    intro s hs
    obtain ⟨acc, e, h⟩ := scatter_cells (good s hs)
    refine ⟨acc, ?_, h⟩
    have e'' : Bin2D.push1D (Bin2D.make x y none).x lo hi (Bin2D.make x y none).acc s = .ok acc := by
      rw [show (Bin2D.make x y none).x = x from rfl,
        Bin2D.push1D_scatter okx.stores.size_eq cx fx bx, hacc]
      exact e
    simp only [push1D, e'', bind, Except.bind]
    rfl
  obtain ⟨a, ea, ha⟩ := hpush s hs
  obtain ⟨b, eb, hb⟩ := hpush t ht
  obtain ⟨c, ec, hc⟩ := mergeCells_cells (good s hs) (good t ht) ha hb
  obtain ⟨d, ed, hd⟩ := hpush (s ++ t) (by
    intro q hq
    rcases List.mem_append.1 hq with h | h
    exacts [hs q h, ht q h])
  have hcd : c = d := by
    refine cellsOf_unique hc ?_
    simpa [Bin2D.items1D] using hd
  subst hcd
  refine ⟨_, _, _, _, hnew, ea, eb, ?_, ed, rfl, rfl⟩
  simp only [merge1D, merge_same okx oky none ec, bind, Except.bind]

example : ∃ x : Axis ℚ, Reach false x ∧ Coordinates x [0, 2, 4] ∧
    ((make1D x (some (0, 3))).bind fun new => (push1D new [(1 / 2, some 8, 2), (4, some 1, 1)]).bind fun a =>
      (push1D new [(3, some 2, 1)]).bind fun b => (merge1D a b).map fun c =>
        (c.bins.acc.map (·.sum), c.lo, c.hi)) = .ok ([16, 0, 2], 0, 3) :=
  ⟨⟨false, none, .regular ⟨3, 0, 2, 1 / 2, true⟩⟩,
    .regular 0 4 3 (1/1000000) false _ (by decide +kernel), ⟨rfl, by decide +kernel⟩,
    by decide +kernel⟩

/-- C118, what is false: the ranges are not compared. The sum of two Binning1D with the same axis
and different ranges is accepted; it has the range of the left one and also the samples outside of
this range of the right one. -/
theorem C118_sum_ranges_false :
    ∃ x : Axis ℚ, Reach false x ∧ Coordinates x [0, 2, 4] ∧
      ((make1D x (some (0, 1))).bind fun a => (make1D x (some (0, 4))).bind fun new =>
        (push1D new [(4, some 5, 1)]).bind fun b => (merge1D a b).map fun c =>
          (c.lo, c.hi, c.bins.acc.map (·.count))) = .ok (0, 1, [0, 0, 1]) :=
  ⟨⟨false, none, .regular ⟨3, 0, 2, 1 / 2, true⟩⟩,
    .regular 0 4 3 (1/1000000) false _ (by decide +kernel), ⟨rfl, by decide +kernel⟩,
    by decide +kernel⟩

/-- C118, what is false: `copy.copy` of a `core.Binning1D` is never a `Binning1D`: it is a
`Binning2D` with the same bins, the range is lost. -/
theorem C118_copy_false (b : Binning1 K) :
    (∀ c : Binning1 K, coreCopy (.binning1D b) ≠ .binning1D c) ∧
      coreCopy (.binning1D b) = .binning2D b.bins :=
  ⟨fun _ h => (by cases h), rfl⟩

end

end Pyinterp.Delayed
