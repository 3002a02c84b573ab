import Mathlib.Data.Rat.Floor
import Verif.Lemmas.Binning
import Verif.Props.C03_Nearest
import Verif.Props.C30_StreamingHistogram

/-
C37, C38, C39, C63: binning of samples on a grid.
-/
namespace Pyinterp.Bin2D

open Spec

set_option linter.unusedSectionVars false

section
variable {K : Type} [Field K] [LinearOrder K] [IsStrictOrderedRing K] [FloorRing K]

/-! ### C37: linear binning -/

/-- The four rectangles cut by the sample in the cell are null or at least `tiny`. -/
def NoTinyArea (tiny x y x0 y0 x1 y1 : K) : Prop :=
  ∀ u ∈ [|x0 - x|, |x - x1|], ∀ v ∈ [|y0 - y|, |y - y1|], u * v = 0 ∨ tiny ≤ u * v

/-- C37: the four weights (w00, w01, w11, w10) are non-negative and at most 1; their sum
is 1 up to the rectangles whose area is below `tiny`, and exactly 1 when there is none;
then the mean position of the four corners with these weights is the sample. -/
theorem C37_weights (tiny x y x0 y0 x1 y1 : K) (htiny : 0 < tiny) (hx : Between x0 x x1)
    (hy : Between y0 y y1) (nx : x0 ≠ x1) (ny : y0 ≠ y1) :
    ∃ w00 w01 w11 w10, binning2d ringArea tiny (x, y) (x0, y0) (x1, y1) = .ok (w00, w01, w11, w10) ∧
      (0 ≤ w00 ∧ 0 ≤ w01 ∧ 0 ≤ w11 ∧ 0 ≤ w10) ∧ w00 + w01 + w11 + w10 ≤ 1 ∧
      1 - 4 * tiny / (|x1 - x0| * |y1 - y0|) ≤ w00 + w01 + w11 + w10 ∧
      (NoTinyArea tiny x y x0 y0 x1 y1 →
        w00 + w01 + w11 + w10 = 1 ∧
        (w00 + w01) * x0 + (w11 + w10) * x1 = x ∧
        (w00 + w10) * y0 + (w01 + w11) * y1 = y) := by
  have sx := between_abs hx
  have sy := between_abs hy
  have px0 := abs_nonneg (x0 - x)
  have px1 := abs_nonneg (x - x1)
  have py0 := abs_nonneg (y0 - y)
  have py1 := abs_nonneg (y - y1)
  have hA : 0 < |x0 - x1| * |y0 - y1| :=
    mul_pos (abs_pos.2 (sub_ne_zero.2 nx)) (abs_pos.2 (sub_ne_zero.2 ny))
  obtain ⟨b1, b2, b3⟩ := keep_bounds (mul_nonneg px1 py1) htiny.le
  obtain ⟨d1, d2, d3⟩ := keep_bounds (mul_nonneg px1 py0) htiny.le
  obtain ⟨c1, c2, c3⟩ := keep_bounds (mul_nonneg px0 py0) htiny.le
  obtain ⟨a1, a2, a3⟩ := keep_bounds (mul_nonneg px0 py1) htiny.le
  have tot : |x - x1| * |y - y1| + |x - x1| * |y0 - y| + |x0 - x| * |y0 - y| + |x0 - x| * |y - y1| =
      |x0 - x1| * |y0 - y1| := by rw [← sx, ← sy]; ring
  refine ⟨_, _, _, _, binning2d_eq tiny x y x0 y0 x1 y1 hx hy nx ny,
    ⟨div_nonneg b1 hA.le, div_nonneg d1 hA.le, div_nonneg c1 hA.le, div_nonneg a1 hA.le⟩,
    ?_, ?_, ?_⟩
  · rw [← add_div, ← add_div, ← add_div, div_le_one hA]
    linarith
  · rw [← add_div, ← add_div, ← add_div, abs_sub_comm x1 x0, abs_sub_comm y1 y0,
      sub_le_iff_le_add, ← add_div, le_div_iff₀ hA]
    linarith
  · intro hno
    have hk : ∀ s : K, s = 0 ∨ tiny ≤ s → keep tiny s = s := by
      intro s hs
      unfold keep
      rcases hs with rfl | hs
      · rw [if_pos htiny]
      · rw [if_neg (not_lt.2 hs)]
    rw [hk _ (hno _ (by simp) _ (by simp)), hk _ (hno _ (by simp) _ (by simp)),
      hk _ (hno _ (by simp) _ (by simp)), hk _ (hno _ (by simp) _ (by simp))]
    have posx : |x - x1| * x0 + |x0 - x| * x1 = |x0 - x1| * x := by
      rcases hx with ⟨h1, h2⟩ | ⟨h1, h2⟩
      · rw [abs_of_nonpos (by linarith : x0 - x ≤ 0), abs_of_nonpos (by linarith : x - x1 ≤ 0),
          abs_of_nonpos (by linarith : x0 - x1 ≤ 0)]; ring
      · rw [abs_of_nonneg (by linarith : 0 ≤ x0 - x), abs_of_nonneg (by linarith : 0 ≤ x - x1),
          abs_of_nonneg (by linarith : 0 ≤ x0 - x1)]; ring
    have posy : |y - y1| * y0 + |y0 - y| * y1 = |y0 - y1| * y := by
      rcases hy with ⟨h1, h2⟩ | ⟨h1, h2⟩
      · rw [abs_of_nonpos (by linarith : y0 - y ≤ 0), abs_of_nonpos (by linarith : y - y1 ≤ 0),
          abs_of_nonpos (by linarith : y0 - y1 ≤ 0)]; ring
      · rw [abs_of_nonneg (by linarith : 0 ≤ y0 - y), abs_of_nonneg (by linarith : 0 ≤ y - y1),
          abs_of_nonneg (by linarith : 0 ≤ y0 - y1)]; ring
    refine ⟨?_, ?_, ?_⟩
    · rw [← add_div, ← add_div, ← add_div, tot, div_self hA.ne']
    · rw [← add_div, ← add_div, div_mul_eq_mul_div, div_mul_eq_mul_div, ← add_div,
        div_eq_iff hA.ne']
      calc (|x - x1| * |y - y1| + |x - x1| * |y0 - y|) * x0 +
            (|x0 - x| * |y0 - y| + |x0 - x| * |y - y1|) * x1
          = (|x - x1| * x0 + |x0 - x| * x1) * (|y0 - y| + |y - y1|) := by ring
        _ = x * (|x0 - x1| * |y0 - y1|) := by rw [posx, sy]; ring
    · rw [← add_div, ← add_div, div_mul_eq_mul_div, div_mul_eq_mul_div, ← add_div,
        div_eq_iff hA.ne']
      calc (|x - x1| * |y - y1| + |x0 - x| * |y - y1|) * y0 +
            (|x - x1| * |y0 - y| + |x0 - x| * |y0 - y|) * y1
          = (|y - y1| * y0 + |y0 - y| * y1) * (|x0 - x| + |x - x1|) := by ring
        _ = y * (|x0 - x1| * |y0 - y1|) := by rw [posy, sx]; ring

/- A descending X axis. -/
example : binning2d ringArea (1 / 10 ^ 12 : ℚ) (1, 1) (2, 0) (0, 4) = .ok (3 / 8, 1 / 8, 1 / 8, 3 / 8) ∧
    NoTinyArea (1 / 10 ^ 12 : ℚ) 1 1 2 0 0 4 ∧ Between (2 : ℚ) 1 0 := by
  refine ⟨by decide +kernel, ?_, Or.inr ⟨by norm_num, by norm_num⟩⟩
  intro u hu v hv
  simp only [List.mem_cons, List.not_mem_nil, or_false] at hu hv
  right
  rcases hu with rfl | rfl <;> rcases hv with rfl | rfl <;> norm_num

/-- C37, boundary: in a cell whose area is below 1e-12, the sample is lost. -/
theorem C37_tiny_cell_false :
    binning2d ringArea (1 / 10 ^ 12 : ℚ) (1 / (2 * 10 ^ 7), 1 / (2 * 10 ^ 7)) (0, 0) (1 / 10 ^ 7, 1 / 10 ^ 7) =
      .ok (0, 0, 0, 0) := by decide +kernel

/-- A sample goes to the grid: it has a value and it is inside both axes. -/
def accepted (lx ly : List K) (s : K × K × Option K) : Prop :=
  s.2.2.isSome ∧ ¬ Outside lx s.1 ∧ ¬ Outside ly s.2.1

/-- No rectangle cut by the sample in a cell is tiny, nor less than the fraction `eps` of
the cell. -/
def Regular (tiny eps : K) (lx ly : List K) (s : K × K × Option K) : Prop :=
  ∀ x0 ∈ lx, ∀ x1 ∈ lx, ∀ y0 ∈ ly, ∀ y1 ∈ ly, Between x0 s.1 x1 → Between y0 s.2.1 y1 →
    NoTinyArea tiny s.1 s.2.1 x0 y0 x1 y1 ∧
    NoTinyArea (eps * (|x0 - x1| * |y0 - y1|)) s.1 s.2.1 x0 y0 x1 y1

theorem strictlyMonotone_ne {l : List K} (h : StrictlyMonotone l) {i j : Nat} (hi : i < l.length)
    (hj : j < l.length) (hne : i ≠ j) : l[i] ≠ l[j] := by
  rcases h with h | h <;> rcases lt_or_gt_of_ne hne with hij | hij
  · exact (List.pairwise_iff_getElem.mp h i j hi hj hij).ne
  · exact (List.pairwise_iff_getElem.mp h j i hj hi hij).ne'
  · exact (List.pairwise_iff_getElem.mp h i j hi hj hij).ne'
  · exact (List.pairwise_iff_getElem.mp h j i hj hi hij).ne

theorem between_pos {x0 x x1 : K} (h : Between x0 x x1) :
    |x - x1| * x0 + |x0 - x| * x1 = |x0 - x1| * x := by
  rcases h with ⟨h1, h2⟩ | ⟨h1, h2⟩
  · rw [abs_of_nonpos (by linarith : x0 - x ≤ 0), abs_of_nonpos (by linarith : x - x1 ≤ 0),
      abs_of_nonpos (by linarith : x0 - x1 ≤ 0)]; ring
  · rw [abs_of_nonneg (by linarith : 0 ≤ x0 - x), abs_of_nonneg (by linarith : 0 ≤ x - x1),
      abs_of_nonneg (by linarith : 0 ≤ x0 - x1)]; ring

theorem stores_strict {k : Container K} {l : List K} (h : Stores k l) : StrictlyMonotone l := by
  cases hc : k.isAscending
  · exact Or.inr (h.desc hc)
  · exact Or.inl (h.asc hc)

theorem frame_of {a : Axis K} {l : List K} (h : AxisOk a l) (h2 : 2 ≤ l.length)
    (hang : a.isAngle = false) (v : K) :
    (¬ Outside l v → ∃ i j : Nat, ∃ (hi : i < l.length) (hj : j < l.length),
      a.findIndexes v = .ok (some ((i : Int), (j : Int))) ∧ Between l[i] v l[j] ∧ i ≠ j ∧
      a.cont.coord i = .ok l[i] ∧ a.cont.coord j = .ok l[j]) ∧
    (Outside l v → a.findIndexes v = .ok none) := by
  have hcirc : a.isCircle = false := not_circle_of_not_angle h hang
  obtain ⟨c, ⟨hc, _⟩, hr⟩ := findIndexes_onTurn h h2 v
  have hcv : c = v := hc hang
  subst hcv
  constructor
  · intro ho
    rcases hr with ⟨i, j, e, ⟨i0, j0, hi, hj, hf⟩, _⟩ | ⟨_, _, ho'⟩
    · rcases hf with ⟨hij, hb⟩ | ⟨hc, _⟩
      · refine ⟨i.toNat, j.toNat, hi, hj, by rw [Int.toNat_of_nonneg i0, Int.toNat_of_nonneg j0, e],
          hb, by omega, ?_, ?_⟩
        · have := h.stores.coord_int (i.toNat : Int) (by omega) (by omega)
          simp only [Int.toNat_natCast] at this
          exact this
        · have := h.stores.coord_int (j.toNat : Int) (by omega) (by omega)
          simp only [Int.toNat_natCast] at this
          exact this
      · rw [hcirc] at hc; exact absurd hc (by decide)
    · exact absurd ho' ho
  · intro ho
    rcases hr with ⟨i, j, e, _, hn⟩ | ⟨e, _⟩
    · rcases hn with hc | hn
      · rw [hcirc] at hc; exact absurd hc (by decide)
      · exact absurd ho hn
    · exact e

/-- What the search gives for the coordinate `px`, whose position on the axis is `q`. -/
def LocatedAt (x : Axis K) (lx : List K) (px q : K) : Prop :=
  (¬ Outside lx q → ∃ i j : Nat, ∃ (hi : i < lx.length) (hj : j < lx.length),
      x.findIndexes px = .ok (some ((i : Int), (j : Int))) ∧ Between lx[i] q lx[j] ∧ i ≠ j ∧
      x.cont.coord i = .ok lx[i] ∧ x.cont.coord j = .ok lx[j] ∧
      (if x.isAngle then Math.normalizeAngleF px lx[i] 360 else px) = q) ∧
    (Outside lx q → x.findIndexes px = .ok none)

open Classical in
theorem conservation_core (tiny eps : K) (htiny : 0 < tiny) (heps : 0 < eps) (x y : Axis K)
    (lx ly : List K) (okx : AxisOk x lx) (oky : AxisOk y ly) (hy2 : 2 ≤ ly.length)
    (hya : y.isAngle = false) (pos : K → K) (samples : List (K × K × Option K))
    (hloc : ∀ s ∈ samples, LocatedAt x lx s.1 (pos s.1))
    (hreg : ∀ s ∈ samples, Regular tiny eps lx ly (pos s.1, s.2)) :
    ∃ acc, pushLinear ringArea tiny eps x y (List.replicate (lx.length * ly.length) Stats.empty) samples =
        .ok acc ∧ acc.length = lx.length * ly.length ∧
      (acc.map (·.sumOfWeights)).sum =
        (((samples.map fun s => (pos s.1, s.2)).filter fun s => accepted lx ly s).length : K) ∧
      (acc.map (·.sum)).sum =
        (definedValues ((samples.map fun s => (pos s.1, s.2)).filter fun s => accepted lx ly s)).sum ∧
      (acc.mapIdx fun c a => lx.getD (c / ly.length) 0 * a.sumOfWeights).sum =
        (((samples.map fun s => (pos s.1, s.2)).filter fun s => accepted lx ly s).map (·.1)).sum ∧
      (acc.mapIdx fun c a => ly.getD (c % ly.length) 0 * a.sumOfWeights).sum =
        (((samples.map fun s => (pos s.1, s.2)).filter fun s => accepted lx ly s).map (·.2.1)).sum := by
  have hsx : x.size = (lx.length : Int) := okx.stores.size_eq
  have hsy : y.size = (ly.length : Int) := oky.stores.size_eq
  have main : ∀ (samples : List (K × K × Option K)) (acc : List (Stats.Acc K)),
      (∀ s ∈ samples, LocatedAt x lx s.1 (pos s.1)) →
      (∀ s ∈ samples, Regular tiny eps lx ly (pos s.1, s.2)) → acc.length = lx.length * ly.length →
      (∀ a ∈ acc, CellInv a) →
      ∃ acc', pushLinear ringArea tiny eps x y acc samples = .ok acc' ∧
        acc'.length = lx.length * ly.length ∧
        gridWeight acc' = gridWeight acc + (((samples.map fun s => (pos s.1, s.2)).filter fun s => accepted lx ly s).length : K) ∧
        gridSum acc' = gridSum acc +
          (definedValues ((samples.map fun s => (pos s.1, s.2)).filter fun s => accepted lx ly s)).sum ∧
        gridMoment (fun c => lx.getD (c / ly.length) 0) acc' =
          gridMoment (fun c => lx.getD (c / ly.length) 0) acc +
          (((samples.map fun s => (pos s.1, s.2)).filter fun s => accepted lx ly s).map (·.1)).sum ∧
        gridMoment (fun c => ly.getD (c % ly.length) 0) acc' =
          gridMoment (fun c => ly.getD (c % ly.length) 0) acc +
          (((samples.map fun s => (pos s.1, s.2)).filter fun s => accepted lx ly s).map (·.2.1)).sum := by
    intro samples
    induction samples with
    | nil =>
      intro acc _ _ h1 _
      exact ⟨acc, rfl, h1, by simp, by simp [definedValues], by simp, by simp⟩
    | cons s samples ih =>
      intro acc hloc hreg h1 h2
      have hreg' : ∀ s ∈ samples, Regular tiny eps lx ly (pos s.1, s.2) := fun t ht => hreg t (by simp [ht])
      have hloc' : ∀ s ∈ samples, LocatedAt x lx s.1 (pos s.1) := fun t ht => hloc t (by simp [ht])
      obtain ⟨px, py, o⟩ := s
      cases o with
      | none =>
        obtain ⟨acc', e1, e2, e3, e4, e5, e6⟩ := ih acc hloc' hreg' h1 h2
        have hna : ¬ accepted lx ly ((pos px), py, none) := by simp [accepted]
        refine ⟨acc', e1, e2, ?_, ?_, ?_, ?_⟩
        · rw [e3, List.map_cons, List.filter_cons_of_neg (by simpa using hna)]
        · rw [e4, List.map_cons, List.filter_cons_of_neg (by simpa using hna)]
        · rw [e5, List.map_cons, List.filter_cons_of_neg (by simpa using hna)]
        · rw [e6, List.map_cons, List.filter_cons_of_neg (by simpa using hna)]
      | some v =>
        obtain ⟨fx1, fx2⟩ := hloc (px, py, some v) (by simp)
        obtain ⟨fy1, fy2⟩ := frame_of oky hy2 hya py
        by_cases hacc : accepted lx ly ((pos px), py, some v)
        · obtain ⟨_, hox, hoy⟩ := hacc
          obtain ⟨i0, i1, hi0, hi1, ex, bx, nex, cx0, cx1, eq⟩ := fx1 hox
          obtain ⟨j0, j1, hj0, hj1, ey, by', ney, cy0, cy1⟩ := fy1 hoy
          have nx := strictlyMonotone_ne (stores_strict okx.stores) hi0 hi1 nex
          have ny := strictlyMonotone_ne (stores_strict oky.stores) hj0 hj1 ney
          obtain ⟨hno, hno'⟩ := hreg (px, py, some v) (by simp) _ (List.getElem_mem hi0) _
            (List.getElem_mem hi1) _ (List.getElem_mem hj0) _ (List.getElem_mem hj1) bx by'
          have hA : 0 < |lx[i0] - lx[i1]| * |ly[j0] - ly[j1]| :=
            mul_pos (abs_pos.2 (sub_ne_zero.2 nx)) (abs_pos.2 (sub_ne_zero.2 ny))
          have hk : ∀ s : K, s = 0 ∨ tiny ≤ s → keep tiny s = s := by
            intro s hs
            unfold keep
            rcases hs with rfl | hs
            · rw [if_pos htiny]
            · rw [if_neg (not_lt.2 hs)]
          have hbin := binning2d_eq tiny (pos px) py _ _ _ _ bx by' nx ny
          have px0 := abs_nonneg (lx[i0] - (pos px))
          have px1 := abs_nonneg ((pos px) - lx[i1])
          have py0 := abs_nonneg (ly[j0] - py)
          have py1 := abs_nonneg (py - ly[j1])
          rw [hk _ (hno _ (by simp) _ (by simp)), hk _ (hno _ (by simp) _ (by simp)),
            hk _ (hno _ (by simp) _ (by simp)), hk _ (hno _ (by simp) _ (by simp))] at hbin
          have hwt : ∀ u : K, u = 0 ∨ eps * (|lx[i0] - lx[i1]| * |ly[j0] - ly[j1]|) ≤ u →
              u / (|lx[i0] - lx[i1]| * |ly[j0] - ly[j1]|) = 0 ∨
              eps ≤ u / (|lx[i0] - lx[i1]| * |ly[j0] - ly[j1]|) := by
            intro u hu
            rcases hu with rfl | hu
            · left; simp
            · right; rwa [le_div_iff₀ hA]
          obtain ⟨q1, a1, a2, a3, a4, a5, a6⟩ := updateAcc_spec heps h1 h2 hi0 hj0 v _
            (div_nonneg (mul_nonneg px1 py1) hA.le) (hwt _ (hno' _ (by simp) _ (by simp)))
          obtain ⟨q2, b1, b2, b3, b4, b5, b6⟩ := updateAcc_spec heps a2 a3 hi0 hj1 v _
            (div_nonneg (mul_nonneg px1 py0) hA.le) (hwt _ (hno' _ (by simp) _ (by simp)))
          obtain ⟨q3, c1, c2, c3, c4, c5, c6⟩ := updateAcc_spec heps b2 b3 hi1 hj1 v _
            (div_nonneg (mul_nonneg px0 py0) hA.le) (hwt _ (hno' _ (by simp) _ (by simp)))
          obtain ⟨q4, d1, d2, d3, d4, d5, d6⟩ := updateAcc_spec heps c2 c3 hi1 hj0 v _
            (div_nonneg (mul_nonneg px0 py1) hA.le) (hwt _ (hno' _ (by simp) _ (by simp)))
          obtain ⟨acc', e1, e2, e3, e4, e5, e6⟩ := ih q4 hloc' hreg' d2 d3
          have one : pushLinearOne ringArea tiny eps x y acc px py v = .ok q4 := by
            simp only [pushLinearOne, ex, ey, bind, Except.bind, cx0, cx1, cy0, cy1, eq, hbin, hsx, hsy, a1, b1, c1, d1]
          have sx := between_abs bx
          have sy := between_abs by'
          have tot : |(pos px) - lx[i1]| * |py - ly[j1]| / (|lx[i0] - lx[i1]| * |ly[j0] - ly[j1]|) +
              |(pos px) - lx[i1]| * |ly[j0] - py| / (|lx[i0] - lx[i1]| * |ly[j0] - ly[j1]|) +
              |lx[i0] - (pos px)| * |ly[j0] - py| / (|lx[i0] - lx[i1]| * |ly[j0] - ly[j1]|) +
              |lx[i0] - (pos px)| * |py - ly[j1]| / (|lx[i0] - lx[i1]| * |ly[j0] - ly[j1]|) = 1 := by
            rw [← add_div, ← add_div, ← add_div, div_eq_one_iff_eq hA.ne', ← sx, ← sy]
            ring
          have hacc : accepted lx ly ((pos px), py, some v) := ⟨rfl, hox, hoy⟩
          have dv : ∀ i j : Nat, j < ly.length → (i * ly.length + j) / ly.length = i := by
            intro i j hj
            rw [Nat.add_comm, Nat.add_mul_div_right _ _ (by omega), Nat.div_eq_of_lt hj, Nat.zero_add]
          have md : ∀ i j : Nat, j < ly.length → (i * ly.length + j) % ly.length = j := by
            intro i j hj
            rw [Nat.add_comm, Nat.add_mul_mod_self_right, Nat.mod_eq_of_lt hj]
          have gx : ∀ i (h : i < lx.length), lx.getD i 0 = lx[i] := by
            intro i h; simp [List.getD, List.getElem?_eq_getElem h]
          have gy : ∀ i (h : i < ly.length), ly.getD i 0 = ly[i] := by
            intro i h; simp [List.getD, List.getElem?_eq_getElem h]
          have posx := between_pos bx
          have posy := between_pos by'
          refine ⟨acc', ?_, e2, ?_, ?_, ?_, ?_⟩
          rotate_left 3
          · rw [e5, List.map_cons, List.filter_cons_of_pos (by simpa using hacc), List.map_cons, List.sum_cons,
              d6, c6, b6, a6, dv _ _ hj0, dv _ _ hj1, dv _ _ hj1, dv _ _ hj0, gx _ hi0, gx _ hi1]
            have : (pos px) = (lx[i0] * (|(pos px) - lx[i1]| * |py - ly[j1]|) +
                lx[i0] * (|(pos px) - lx[i1]| * |ly[j0] - py|) +
                lx[i1] * (|lx[i0] - (pos px)| * |ly[j0] - py|) +
                lx[i1] * (|lx[i0] - (pos px)| * |py - ly[j1]|)) / (|lx[i0] - lx[i1]| * |ly[j0] - ly[j1]|) := by
              rw [eq_div_iff hA.ne']
              calc (pos px) * (|lx[i0] - lx[i1]| * |ly[j0] - ly[j1]|)
                  = (|lx[i0] - lx[i1]| * (pos px)) * (|ly[j0] - py| + |py - ly[j1]|) := by rw [sy]; ring
                _ = _ := by rw [← posx]; ring
            simp only
            linear_combination (-1 : K) * this
          · rw [e6, List.map_cons, List.filter_cons_of_pos (by simpa using hacc), List.map_cons, List.sum_cons,
              d6, c6, b6, a6, md _ _ hj0, md _ _ hj1, md _ _ hj1, md _ _ hj0, gy _ hj0, gy _ hj1]
            have : py = (ly[j0] * (|(pos px) - lx[i1]| * |py - ly[j1]|) +
                ly[j1] * (|(pos px) - lx[i1]| * |ly[j0] - py|) +
                ly[j1] * (|lx[i0] - (pos px)| * |ly[j0] - py|) +
                ly[j0] * (|lx[i0] - (pos px)| * |py - ly[j1]|)) / (|lx[i0] - lx[i1]| * |ly[j0] - ly[j1]|) := by
              rw [eq_div_iff hA.ne']
              calc py * (|lx[i0] - lx[i1]| * |ly[j0] - ly[j1]|)
                  = (|ly[j0] - ly[j1]| * py) * (|lx[i0] - (pos px)| + |(pos px) - lx[i1]|) := by rw [sx]; ring
                _ = _ := by rw [← posy]; ring
            simp only
            linear_combination (-1 : K) * this
          · simp only [pushLinear, one, bind, Except.bind, e1]
          · rw [e3, List.map_cons, List.filter_cons_of_pos (by simpa using hacc), List.length_cons, d4, c4, b4, a4]
            push_cast
            linear_combination tot
          · rw [e4, List.map_cons, List.filter_cons_of_pos (by simpa using hacc), d5, c5, b5, a5]
            simp only [definedValues, List.filterMap_cons, List.sum_cons]
            linear_combination v * tot
        · have one : pushLinearOne ringArea tiny eps x y acc px py v = .ok acc := by
            by_cases hox : Outside lx (pos px)
            · by_cases hoy : Outside ly py
              · simp only [pushLinearOne, fx2 hox, fy2 hoy, bind, Except.bind]
              · obtain ⟨_, _, _, _, ey, _⟩ := fy1 hoy
                simp only [pushLinearOne, fx2 hox, ey, bind, Except.bind]
            · have hoy : Outside ly py := by
                by_contra hoy
                exact hacc ⟨rfl, hox, hoy⟩
              obtain ⟨_, _, _, _, ex, _⟩ := fx1 hox
              simp only [pushLinearOne, ex, fy2 hoy, bind, Except.bind]
          obtain ⟨acc', e1, e2, e3, e4, e5, e6⟩ := ih acc hloc' hreg' h1 h2
          refine ⟨acc', ?_, e2, ?_, ?_, ?_, ?_⟩
          · simp only [pushLinear, one, bind, Except.bind, e1]
          · rw [e3, List.map_cons, List.filter_cons_of_neg (by simpa using hacc)]
          · rw [e4, List.map_cons, List.filter_cons_of_neg (by simpa using hacc)]
          · rw [e5, List.map_cons, List.filter_cons_of_neg (by simpa using hacc)]
          · rw [e6, List.map_cons, List.filter_cons_of_neg (by simpa using hacc)]
  have zero : ∀ φ : Nat → K,
      gridMoment φ (List.replicate (lx.length * ly.length) (Stats.empty : Stats.Acc K)) = 0 := by
    intro φ
    unfold gridMoment
    apply List.sum_eq_zero
    intro t ht
    obtain ⟨c, hc, rfl⟩ := List.mem_mapIdx.1 ht
    rw [List.getElem_replicate]
    simp [Stats.empty]
  obtain ⟨acc, e1, e2, e3, e4, e5, e6⟩ := main samples (List.replicate (lx.length * ly.length) Stats.empty)
    hloc hreg (by simp) (by intro a ha; rw [List.eq_of_mem_replicate ha]; exact cellInv_empty)
  rw [zero, zero_add] at e5 e6
  refine ⟨acc, e1, e2, ?_, ?_, e5, e6⟩
  · have : gridWeight (List.replicate (lx.length * ly.length) (Stats.empty : Stats.Acc K)) = 0 := by
      simp [gridWeight, Stats.empty]
    rw [this, zero_add] at e3
    exact e3
  · have : gridSum (List.replicate (lx.length * ly.length) (Stats.empty : Stats.Acc K)) = 0 := by
      simp [gridSum, Stats.empty]
    rw [this, zero_add] at e4
    exact e4

open Classical in
/-- C37: linear binning on axes which are not angles never loses weight: after any
sequence of samples, the total weight in the grid has grown by one and the total sum
by the value, for each sample accepted (defined and inside the grid), and nothing else
changes them; the mean position of the grid nodes with these weights is the mean position
of the accepted samples. -/
theorem C37_conservation (tiny eps : K) (htiny : 0 < tiny) (heps : 0 < eps) (x y : Axis K)
    (lx ly : List K) (rx : Reach false x) (ry : Reach false y) (cx : Coordinates x lx)
    (cy : Coordinates y ly) (hx2 : 2 ≤ lx.length) (hy2 : 2 ≤ ly.length)
    (hxa : x.isAngle = false) (hya : y.isAngle = false)
    (samples : List (K × K × Option K)) (hreg : ∀ s ∈ samples, Regular tiny eps lx ly s)  :
    ∃ acc, pushLinear ringArea tiny eps x y (List.replicate (lx.length * ly.length) Stats.empty) samples =
        .ok acc ∧ acc.length = lx.length * ly.length ∧
      (acc.map (·.sumOfWeights)).sum = ((samples.filter fun s => accepted lx ly s).length : K) ∧
      (acc.map (·.sum)).sum =
        (definedValues (samples.filter fun s => accepted lx ly s)).sum ∧
      (acc.mapIdx fun c a => lx.getD (c / ly.length) 0 * a.sumOfWeights).sum =
        ((samples.filter fun s => accepted lx ly s).map (·.1)).sum ∧
      (acc.mapIdx fun c a => ly.getD (c % ly.length) 0 * a.sumOfWeights).sum =
        ((samples.filter fun s => accepted lx ly s).map (·.2.1)).sum := by
  have okx := reach_axisOk rx cx
  have oky := reach_axisOk ry cy
  have h := conservation_core tiny eps htiny heps x y lx ly okx oky hy2 hya (fun v => v) samples
    (fun s _ => by
      obtain ⟨f1, f2⟩ := frame_of okx hx2 hxa s.1
      refine ⟨fun ho => ?_, f2⟩
      obtain ⟨i, j, hi, hj, e, hb, hne, c0, c1⟩ := f1 ho
      exact ⟨i, j, hi, hj, e, hb, hne, c0, c1, by simp [hxa]⟩)
    hreg
  simpa using h

/- Two axes, four samples (one outside, one undefined). -/
example : ∃ x y : Axis ℚ, Reach false x ∧ Reach false y ∧ Coordinates x [0, 2, 4] ∧
    Coordinates y [0, 4] ∧ x.isAngle = false ∧ y.isAngle = false ∧
    (pushLinear ringArea (1 / 10 ^ 12) (1 / 10 ^ 10) x y (List.replicate 6 Stats.empty)
      [(1, 1, some 8), (3, 4, some 2), (5, 1, some 1), (1, 1, none)]).map
      (fun acc => acc.map (·.sumOfWeights)) = .ok [3 / 8, 1 / 8, 3 / 8, 5 / 8, 0, 1 / 2] := by
  refine ⟨⟨false, none, .regular ⟨3, 0, 2, 1 / 2, true⟩⟩, ⟨false, none, .regular ⟨2, 0, 4, 1 / 4, true⟩⟩,
    .regular 0 4 3 (1/1000000) false _ (by decide +kernel),
    .regular 0 4 2 (1/1000000) false _ (by decide +kernel),
    ⟨rfl, by decide +kernel⟩, ⟨rfl, by decide +kernel⟩, rfl, rfl, by decide +kernel⟩

/-- C37, what is false: across the 0/360 meridian the second longitude of the cell is not
brought to the same turn. In the cell between 270 and 0 degrees, a sample at 300 gives a
total weight of 11/9 instead of 1. -/
theorem C37_wrap_false :
    ∃ x y : Axis ℚ, Reach false x ∧ Reach false y ∧ Coordinates x [0, 90, 180, 270] ∧
      Coordinates y [0, 4] ∧ x.isCircle = true ∧
      (pushLinear ringArea (1 / 10 ^ 12) (1 / 10 ^ 10) x y (List.replicate 8 Stats.empty)
        [(300, 1, some 8)]).map (fun acc => acc.map (·.sumOfWeights)) =
        .ok [1 / 12, 1 / 36, 0, 0, 0, 0, 5 / 6, 5 / 18] := by
  refine ⟨⟨true, some 360, .regular ⟨4, 0, 90, 1 / 90, true⟩⟩,
    ⟨false, none, .regular ⟨2, 0, 4, 1 / 4, true⟩⟩,
    .regular 0 270 4 (1/1000000) true _ (by decide +kernel),
    .regular 0 4 2 (1/1000000) false _ (by decide +kernel),
    ⟨rfl, by decide +kernel⟩, ⟨rfl, by decide +kernel⟩, rfl, by decide +kernel⟩

/-! ### C38: nearest binning -/

/-- C38: with simple binning, each defined sample is added to exactly one bin, a nearest
one, and nothing else changes. -/
theorem C38_simple (b : Binning K) (lx ly : List K) (rx : Reach false b.x) (ry : Reach false b.y)
    (hx : Coordinates b.x lx) (hy : Coordinates b.y ly)
    (hlen : b.acc.length = lx.length * ly.length) :
    ∃ cx cy : K → Nat, NearestIndex b.x lx cx ∧ NearestIndex b.y ly cy ∧
      ∀ samples, ∃ b', b.pushSimple samples = .ok b' ∧ b'.x = b.x ∧ b'.y = b.y ∧ b'.wgs = b.wgs ∧
        b'.acc.length = b.acc.length ∧
        ∀ i j, i < lx.length → j < ly.length →
          b'.acc[i * ly.length + j]? = b.acc[i * ly.length + j]?.map fun a =>
            (cellValues cx cy i j samples).foldl Stats.push a := by
  have okx := reach_axisOk rx hx
  have oky := reach_axisOk ry hy
  obtain ⟨cx, fx, bx, nx⟩ := exists_index_function okx
  obtain ⟨cy, fy, by', ny⟩ := exists_index_function oky
  refine ⟨cx, cy, nx, ny, fun samples => ?_⟩
  have hs := pushNearest_scatter okx.stores.size_eq oky.stores.size_eq cx cy fx fy bx by'
    (fun s v => (.ok (Stats.push s v) : Out (Stats.Acc K))) samples b.acc
  have hok := scatter_ok (fun s v => (.ok (Stats.push s v) : Out (Stats.Acc K)))
    (nearestItems ly.length cx cy samples) b.acc
    (b.acc.mapIdx fun c a => (itemsOf c (nearestItems ly.length cx cy samples)).foldl Stats.push a)
    (by simp) (by rw [hlen]; exact nearestItems_lt bx by' samples)
    (by intro c hc; rw [foldlM_pure]; simp)
  refine ⟨{ b with acc := b.acc.mapIdx fun c a =>
      (itemsOf c (nearestItems ly.length cx cy samples)).foldl Stats.push a },
    by unfold Binning.pushSimple; simp only [hs, hok, bind, Except.bind], rfl, rfl,
    rfl, by simp, ?_⟩
  intro i j hi hj
  rw [List.getElem?_mapIdx, itemsOf_nearest by' hj]

/-- C38: the total count grows by the number of defined samples. -/
theorem C38_total (b : Binning K) (lx ly : List K) (rx : Reach false b.x) (ry : Reach false b.y)
    (hx : Coordinates b.x lx) (hy : Coordinates b.y ly)
    (hnew : b.acc = List.replicate (lx.length * ly.length) Stats.empty)
    (samples : List (K × K × Option K)) :
    ∃ b', b.pushSimple samples = .ok b' ∧
      (b'.acc.map (·.count)).sum = (definedValues samples).length := by
  have okx := reach_axisOk rx hx
  have oky := reach_axisOk ry hy
  obtain ⟨cx, fx, bx, nx⟩ := exists_index_function okx
  obtain ⟨cy, fy, by', ny⟩ := exists_index_function oky
  have hs := pushNearest_scatter okx.stores.size_eq oky.stores.size_eq cx cy fx fy bx by'
    (fun s v => (.ok (Stats.push s v) : Out (Stats.Acc K))) samples b.acc
  have hok := scatter_ok (fun s v => (.ok (Stats.push s v) : Out (Stats.Acc K)))
    (nearestItems ly.length cx cy samples) b.acc
    (b.acc.mapIdx fun c a => (itemsOf c (nearestItems ly.length cx cy samples)).foldl Stats.push a)
    (by simp) (by rw [hnew, List.length_replicate]; exact nearestItems_lt bx by' samples)
    (by intro c hc; rw [foldlM_pure]; simp)
  refine ⟨{ b with acc := b.acc.mapIdx fun c a =>
      (itemsOf c (nearestItems ly.length cx cy samples)).foldl Stats.push a },
    by unfold Binning.pushSimple; simp only [hs, hok, bind, Except.bind], ?_⟩
  have e1 : (b.acc.mapIdx fun c a =>
      (itemsOf c (nearestItems ly.length cx cy samples)).foldl Stats.push a).map (·.count) =
      (List.range (lx.length * ly.length)).map fun c =>
        (itemsOf c (nearestItems ly.length cx cy samples)).length := by
    apply List.ext_getElem
    · simp [hnew]
    · intro c h1 h2
      simp only [List.getElem_map, List.getElem_mapIdx, List.getElem_range, hnew,
        List.getElem_replicate]
      exact count_ofValues _
  rw [e1]
  have e2 : ∀ (items : List (Nat × K)) (n : Nat), (∀ it ∈ items, it.1 < n) →
      ((List.range n).map fun c => (itemsOf c items).length).sum = items.length := by
    intro items n
    induction items with
    | nil =>
      intro _
      simp [itemsOf]
    | cons it items ih =>
      intro hlt
      have h0 := ih fun x hx => hlt x (by simp [hx])
      have hit := hlt it (by simp)
      have e3 : ((List.range n).map fun c => (itemsOf c (it :: items)).length) =
          ((List.range n).map fun c => (itemsOf c items).length).set it.1
            ((((List.range n).map fun c => (itemsOf c items).length)[it.1]'(by simpa using hit)) + 1) := by
        apply List.ext_getElem
        · simp
        · intro c h1 h2
          rw [List.getElem_set]
          simp only [List.getElem_map, List.getElem_range]
          split
          · next h => subst h; simp [itemsOf]
          · next h => simp [itemsOf, h]
      have e4 : ∀ (l : List Nat) (j : Nat) (h : j < l.length), (l.set j (l[j] + 1)).sum = l.sum + 1 := by
        intro l
        induction l with
        | nil => intro j h; simp at h
        | cons a l ih =>
          intro j h
          cases j with
          | zero => simp; omega
          | succ j =>
            have := ih j (by simpa using h)
            simp only [List.set_cons_succ, List.getElem_cons_succ, List.sum_cons, this]
            omega
      rw [e3, e4, h0, List.length_cons]
  rw [e2 _ _ (nearestItems_lt bx by' samples)]
  unfold nearestItems definedValues
  clear hs hok e1 e2
  induction samples with
  | nil => rfl
  | cons s l ih =>
    obtain ⟨px, py, o⟩ := s
    cases o with
    | none => simpa using ih
    | some v => simpa using ih

/-- C38: merging the binnings of two sets of samples on the same grid gives the binning
of all of them. -/
theorem C38_merge (x y : Axis K) (wgs : Option (K × K)) (lx ly : List K) (rx : Reach false x)
    (ry : Reach false y) (hx : Coordinates x lx) (hy : Coordinates y ly)
    (s t : List (K × K × Option K)) :
    ∃ a b c, (make x y wgs).pushSimple s = .ok a ∧ (make x y wgs).pushSimple t = .ok b ∧
      (make x y wgs).pushSimple (s ++ t) = .ok c ∧ a.merge b = .ok c := by
  have okx := reach_axisOk rx hx
  have oky := reach_axisOk ry hy
  have hacc : (make x y wgs).acc = List.replicate (lx.length * ly.length) Stats.empty := by
    simp only [make]
    congr 1
    rw [show x.size = (lx.length : Int) from okx.stores.size_eq,
      show y.size = (ly.length : Int) from oky.stores.size_eq]
    rw [← Int.natCast_mul]; rfl
  obtain ⟨cx, fx, bx, nx⟩ := exists_index_function okx
  obtain ⟨cy, fy, by', ny⟩ := exists_index_function oky
  have hs := fun samples => pushNearest_scatter okx.stores.size_eq oky.stores.size_eq cx cy fx fy bx
    by' (fun s v => (.ok (Stats.push s v) : Out (Stats.Acc K))) samples (make x y wgs).acc
  let cells : List (K × K × Option K) → List (Stats.Acc K) := fun samples =>
    (List.range (lx.length * ly.length)).map fun c =>
      Stats.ofValues (itemsOf c (nearestItems ly.length cx cy samples))
  have hok : ∀ samples, scatter (fun s v => (.ok (Stats.push s v) : Out (Stats.Acc K)))
      (make x y wgs).acc (nearestItems ly.length cx cy samples) = .ok (cells samples) := fun samples =>
    scatter_ok _ _ _ _ (by simp [cells, hacc])
      (by rw [hacc, List.length_replicate]; exact nearestItems_lt bx by' samples)
      (by
        intro c hc
        rw [foldlM_pure]
        simp only [hacc, List.getElem_replicate, cells, List.getElem_map, List.getElem_range]
        rfl)
  have hpush : ∀ samples, (make x y wgs).pushSimple samples =
      .ok { make x y wgs with acc := cells samples } := by
    intro samples
    have e := (hs samples).trans (hok samples)
    unfold Binning.pushSimple
    rw [show (make x y wgs).x = x from rfl, show (make x y wgs).y = y from rfl, e]
    rfl
  refine ⟨_, _, _, hpush s, hpush t, hpush (s ++ t), ?_⟩
  unfold Binning.merge
  have hm : mergeCells (cells s) (cells t) = .ok (cells (s ++ t)) := by
    apply mergeCells_ok _ _ _ (by simp [cells]) (by simp [cells])
    intro c hc
    simp only [cells, List.getElem_map, List.getElem_range]
    rw [mergeCell_values]
    congr 2
    simp [itemsOf, nearestItems]
  rw [show (make x y wgs).x = x from rfl, show (make x y wgs).y = y from rfl] 
  show (if (!(x.beq x) || !(y.beq y)) = true then _ else _) = _
  simp only [axis_beq_refl okx, axis_beq_refl oky, Bool.not_true, Bool.or_self, Bool.false_eq_true,
    if_false, ne_eq, not_true_eq_false, hm, bind, Except.bind]
  rfl

example : ∃ x y : Axis ℚ, Reach false x ∧ Reach false y ∧ Coordinates x [0, 2, 4] ∧
    Coordinates y [0, 4] ∧ ((make x y none).pushSimple
      [(1 / 2, 1, some 8), (3, 4, some 2), (1 / 2, 0, some 2), (1, 1, none)]).map
      (fun b => b.acc.map (·.count)) = .ok [2, 0, 0, 0, 0, 1] := by
  refine ⟨⟨false, none, .regular ⟨3, 0, 2, 1 / 2, true⟩⟩, ⟨false, none, .regular ⟨2, 0, 4, 1 / 4, true⟩⟩,
    .regular 0 4 3 (1/1000000) false _ (by decide +kernel),
    .regular 0 4 2 (1/1000000) false _ (by decide +kernel),
    ⟨rfl, by decide +kernel⟩, ⟨rfl, by decide +kernel⟩, by decide +kernel⟩

/-- C38, what is false: samples outside the grid are not ignored, they are added to the
bins of the border: the test `ix != -1` never fails since the search is bounded. -/
theorem C38_outside_false :
    ∃ x y : Axis ℚ, Reach false x ∧ Reach false y ∧ Coordinates x [0, 2, 4] ∧ Coordinates y [0, 4] ∧
      Outside [0, 2, (4 : ℚ)] 1000 ∧
      ((make x y none).pushSimple [(1000, 1, some 8)]).map (fun b => b.acc.map (·.count)) =
        .ok [0, 0, 0, 0, 1, 0] := by
  refine ⟨⟨false, none, .regular ⟨3, 0, 2, 1 / 2, true⟩⟩, ⟨false, none, .regular ⟨2, 0, 4, 1 / 4, true⟩⟩,
    .regular 0 4 3 (1/1000000) false _ (by decide +kernel),
    .regular 0 4 2 (1/1000000) false _ (by decide +kernel),
    ⟨rfl, by decide +kernel⟩, ⟨rfl, by decide +kernel⟩, Or.inr (by decide +kernel),
    by decide +kernel⟩

end

end Pyinterp.Bin2D
