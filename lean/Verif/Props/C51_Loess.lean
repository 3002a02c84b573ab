import Verif.Lemmas.Loess
import Verif.Props.C29_Threads
import Verif.Props.C47_Grid2D
import Verif.Lemmas.Grid34
import Mathlib.Analysis.Real.Sqrt
import Mathlib.Data.Rat.Floor

/-!
C51 – the loess filter (`pyinterp.fill.loess`).

`sqrt` is any function with the properties of the square root that each theorem names (they hold
for the real square root, see the example at the end).
-/
namespace Pyinterp.Loess
open Pyinterp Pyinterp.Variate Spec Thread
set_option linter.unusedSectionVars false
set_option linter.unusedVariables false

variable {K : Type} [Field K] [LinearOrder K] [IsStrictOrderedRing K] [FloorRing K]

/-- C51: the filter asks for at least one cell on each side of the window. -/
theorem C51_window_size (sqrt : K → K) (hw : Nat) (sched : List Nat) (g : Grid2D K) (nx ny : Nat)
    (vt : ValueType) (n : Nat) (h : nx = 0 ∨ ny = 0) :
    loess2D sqrt hw sched g nx ny vt n = .error .exn := by
  unfold loess2D checkWindowsSize
  rcases h with rfl | rfl
  · rfl
  · by_cases h1 : nx < 1 <;> simp [h1, bind, Except.bind]

/-- What the filter must give for a cell: the value is kept if its kind (defined or not) was not
requested, or if no defined value of the window has a weight; otherwise it is the weighted
mean of the defined values of the window. -/
def CellSpec (vt : ValueType) (s : List (K × K)) (old new : Option K) : Prop :=
  (((vt = .undefined ∧ old ≠ none) ∨ (vt = .defined ∧ old = none) ∨ ∀ p ∈ s, p.1 = 0) ∧ new = old) ∨
  (¬ ((vt = .undefined ∧ old ≠ none) ∨ (vt = .defined ∧ old = none) ∨ ∀ p ∈ s, p.1 = 0) ∧
    ∃ r, new = some r ∧ WeightedMean s r)

theorem samples_nonneg {sqrt : K → K} (hs : ∀ a, 0 ≤ a → 0 ≤ sqrt a) {nx ny : Nat} {angle : Bool}
    {lx ly : List K} {z : Nat → Nat → Option K} {i j : Nat} :
    ∀ p ∈ loessSamples sqrt nx ny angle lx ly z i j, 0 ≤ p.1 := by
  intro p hp
  unfold loessSamples at hp
  obtain ⟨c, -, hc⟩ := List.mem_filterMap.1 hp
  cases hz : z c.1 c.2 with
  | none => simp [hz] at hc
  | some v =>
    simp only [hz, Option.map_some, Option.some.injEq] at hc
    rw [← hc]
    exact tricube_nonneg (hs _ (by positivity))

theorem sum_fst_zero (s : List (K × K)) (h : ∀ p ∈ s, 0 ≤ p.1) :
    0 ≤ (s.map Prod.fst).sum ∧ ((s.map Prod.fst).sum = 0 ↔ ∀ p ∈ s, p.1 = 0) := by
  induction s with
  | nil => simp
  | cons p s ih =>
    obtain ⟨h1, h2⟩ := ih (fun q hq => h q (by simp [hq]))
    have hp := h p (by simp)
    simp only [List.map_cons, List.sum_cons, List.mem_cons, forall_eq_or_imp]
    refine ⟨by linarith, ⟨fun e => ?_, fun e => ?_⟩⟩
    · have : p.1 = 0 := by linarith
      exact ⟨this, h2.1 (by linarith)⟩
    · rw [e.1, h2.2 e.2]; ring

theorem cell_spec (sqrt : K → K) (hs : ∀ a, 0 ≤ a → 0 ≤ sqrt a) (vt : ValueType) (nx ny : Nat)
    (angle : Bool) (lx ly : List K) (z : Nat → Nat → Option K) (i j : Nat) :
    let s := loessSamples sqrt nx ny angle lx ly z i j
    CellSpec vt s (z i j)
      (if selected vt (z i j).isNone = true then
      (if (s.map Prod.fst).sum ≠ 0 then some ((s.map fun p => p.1 * p.2).sum / (s.map Prod.fst).sum) else z i j)
      else z i j) := by
  intro s
  obtain ⟨-, h0⟩ := sum_fst_zero s (samples_nonneg hs)
  have hsel : selected vt (z i j).isNone = true ↔
      ¬ ((vt = .undefined ∧ z i j ≠ none) ∨ (vt = .defined ∧ z i j = none)) := by
    cases vt <;> cases z i j <;> simp [selected]
  unfold CellSpec
  by_cases h1 : selected vt (z i j).isNone = true
  · rw [if_pos h1]
    have h1' := hsel.1 h1
    push Not at h1'
    by_cases h2 : (s.map Prod.fst).sum = 0
    · left
      rw [if_neg (by simpa using h2)]
      exact ⟨Or.inr (Or.inr (h0.1 h2)), rfl⟩
    · right
      rw [if_pos h2]
      refine ⟨?_, _, rfl, h2, by field_simp⟩
      rintro (h | h | h)
      · exact (hsel.1 h1) (Or.inl h)
      · exact (hsel.1 h1) (Or.inr h)
      · exact h2 (h0.2 h)
  · rw [if_neg h1]
    left
    rw [hsel] at h1
    push Not at h1
    exact ⟨by tauto, rfl⟩

/-- The row `i` computed by the filter. -/
theorem row2D_eq (sqrt : K → K) (nx ny : Nat) (hnx : nx < 2 ^ 31) (hny : ny < 2 ^ 31) (vt : ValueType)
    (g : Grid2D K) {lx ly : List K} (hx : Stores g.x.cont lx) (hy : Stores g.y.cont ly)
    (hsh : g.arr.shape = [lx.length, ly.length])
    (h2x : g.x.isAngle = true ∨ 2 ≤ lx.length) (h2y : 2 ≤ ly.length) {i : Nat} (hi : i < lx.length) :
    row2D sqrt nx ny vt g i = .ok ((List.range ly.length).map fun j =>
      let s := loessSamples sqrt nx ny g.x.isAngle lx ly (fun a b => g.arr.at' [a, b]) i j
      (if selected vt (g.arr.at' [i, j]).isNone = true then
        (if (s.map Prod.fst).sum ≠ 0 then some ((s.map fun p => p.1 * p.2).sum / (s.map Prod.fst).sum)
          else g.arr.at' [i, j])
      else g.arr.at' [i, j])) := by
  have hn : if g.x.isAngle then 1 ≤ lx.length else 2 ≤ lx.length := by
    split
    · exact List.length_pos_of_ne_nil hx.ne
    · rcases h2x with h | h
      · contradiction
      · exact h
  unfold row2D
  rw [xPart_eq hx hnx hi hn, show g.y.size = (ly.length : Int) from hy.size_eq]
  simp only [bind, Except.bind, Int.toNat_natCast]
  refine Interp.mapM_ok _ _ _ fun j hj => ?_
  exact cell_eq sqrt nx ny hny vt hx hy hn h2y _ (fun a b => g.arr.at' [a, b])
    (fun a b ha hb => value2_ok hsh ha hb) hi (List.mem_range.1 hj)

/-- **C51** For every grid (on any axes: x an angle or with at least two values, y with at least
two values), window, kind of values, number of threads and schedule: when the
threads have finished, every row of the result is written, and each cell is the one
specified by `CellSpec`: unchanged if it was not requested or if no defined value of the window
has a weight, otherwise the mean of the defined values of the window with the tri-cube
weights of the distances. -/
theorem C51_result (ax ay : Axis K) (arr : Arr K) (g : Grid2D K) (lx ly : List K)
    (hax : Reach false ax) (hay : Reach false ay) (hlx : Coordinates ax lx) (hly : Coordinates ay ly)
    (hg : mkGrid2D ax ay arr = .ok g) (h2x : ax.isAngle = true ∨ 2 ≤ lx.length) (h2y : 2 ≤ ly.length)
    (sqrt : K → K) (hs : ∀ a, 0 ≤ a → 0 ≤ sqrt a)
    (nx ny : Nat) (hnx : 1 ≤ nx ∧ nx < 2 ^ 31) (hny : 1 ≤ ny ∧ ny < 2 ^ 31) (vt : ValueType)
    (hw n : Nat) (hhw : 1 ≤ hw) (sched : List Nat) :
    ∃ st, loess2D sqrt hw sched g nx ny vt n = .ok st ∧ (joined st → st.except = none ∧
      ∀ i, i < lx.length → ∃ row, st.result i = some row ∧ row.length = ly.length ∧
        ∀ j (hj : j < row.length), CellSpec vt
          (loessSamples sqrt nx ny ax.isAngle lx ly (fun a b => arr.at' [a, b]) i j)
          (arr.at' [i, j]) row[j]) := by
  have okx := reach_axisOk hax hlx
  have oky := reach_axisOk hay hly
  obtain ⟨rfl, rfl, rfl, hcirc, n1, n2, hsh, hn1, hn2⟩ := mkGrid2D_ok hg
  have hx : Stores g.x.cont lx := okx.stores
  have hy : Stores g.y.cont ly := oky.stores
  have e1 : n1 = lx.length := by have := hx.size_eq; unfold Axis.size at hn1; omega
  have e2 : n2 = ly.length := by have := hy.size_eq; unfold Axis.size at hn2; omega
  subst e1 e2
  obtain ⟨sl, hsl, -⟩ := C29_slices hw lx.length n hhw
  refine ⟨run (row2D sqrt nx ny vt g) (init sl) sched, ?_, ?_⟩
  · unfold loess2D checkWindowsSize
    rw [if_neg (by omega), if_neg (by omega), hn1]
    simp only [bind, Except.bind, Int.toNat_natCast, hsl]
    rfl
  · intro hj
    obtain ⟨-, hex, hres⟩ := C29_result hw lx.length n sl hsl (row2D sqrt nx ny vt g) _
      (fun i hi => row2D_eq sqrt nx ny hnx.2 hny.2 vt g hx hy hsh h2x h2y hi) sched hj
    refine ⟨hex, fun i hi => ?_⟩
    rw [hres i, if_pos hi]
    refine ⟨_, rfl, by simp, ?_⟩
    intro j hj'
    simp only [List.getElem_map, List.getElem_range]
    exact cell_spec sqrt hs vt nx ny g.x.isAngle lx ly (fun a b => g.arr.at' [a, b]) i j

/-- **C51** Consequence of `CellSpec` for the weights of a window: every value computed lies
between the smallest and the largest defined value of the window that have a weight. -/
theorem C51_range (sqrt : K → K) (hs : ∀ a, 0 ≤ a → 0 ≤ sqrt a) (nx ny : Nat) (angle : Bool)
    (lx ly : List K) (z : Nat → Nat → Option K) (i j : Nat) (vt : ValueType) (lo hi r : K)
    (hb : ∀ p ∈ loessSamples sqrt nx ny angle lx ly z i j, p.1 ≠ 0 → lo ≤ p.2 ∧ p.2 ≤ hi)
    (h : CellSpec vt (loessSamples sqrt nx ny angle lx ly z i j) (z i j) (some r)) :
    some r = z i j ∨ (lo ≤ r ∧ r ≤ hi) := by
  rcases h with ⟨-, h⟩ | ⟨-, r', hr, h0, hm⟩
  · exact Or.inl h
  · right
    cases hr
    have hnn := samples_nonneg hs (nx := nx) (ny := ny) (angle := angle) (lx := lx) (ly := ly) (z := z)
      (i := i) (j := j)
    generalize loessSamples sqrt nx ny angle lx ly z i j = s at *
    have hpos : 0 < (s.map Prod.fst).sum := lt_of_le_of_ne (sum_fst_zero s hnn).1 (Ne.symm h0)
    have key : lo * (s.map Prod.fst).sum ≤ (s.map fun p => p.1 * p.2).sum ∧
        (s.map fun p => p.1 * p.2).sum ≤ hi * (s.map Prod.fst).sum := by
      clear hm hpos h0
      induction s with
      | nil => simp
      | cons p s ih =>
        obtain ⟨a, b⟩ := ih (fun q hq => hb q (by simp [hq])) (fun q hq => hnn q (by simp [hq]))
        have hp := hnn p (by simp)
        simp only [List.map_cons, List.sum_cons]
        by_cases hz : p.1 = 0
        · rw [hz]; constructor <;> linarith
        · obtain ⟨c, d⟩ := hb p (by simp) hz
          have := mul_le_mul_of_nonneg_left c hp
          have := mul_le_mul_of_nonneg_left d hp
          constructor <;> nlinarith
    rw [← hm] at key
    constructor
    · exact le_of_mul_le_mul_right key.1 hpos
    · exact le_of_mul_le_mul_right key.2 hpos

/-- **C51** An undefined cell stays undefined iff it was not requested or no defined value of its window is at a
distance (in units of `nx`, `ny`) smaller than 1; a defined cell stays defined. -/
theorem C51_undefined (sqrt : K → K) (hs : ∀ a, 0 ≤ a → 0 ≤ sqrt a) (hs1 : ∀ a, 0 ≤ a → (sqrt a < 1 ↔ a < 1))
    (nx ny : Nat) (angle : Bool)
    (lx ly : List K) (z : Nat → Nat → Option K) (i j : Nat) (vt : ValueType) (new : Option K)
    (h : CellSpec vt (loessSamples sqrt nx ny angle lx ly z i j) (z i j) new) :
    let wx := windowCells angle lx.length nx i
    let wy := windowCells false ly.length ny j
    (z i j ≠ none → new ≠ none) ∧
    (z i j = none → (new = none ↔ (vt = .defined ∨ ∀ a ∈ wx, ∀ b ∈ wy, z a b ≠ none →
      1 ≤ ((xPos angle lx (wx.getD 0 0) a - xPos angle lx (wx.getD 0 0) i) / (nx : K)) ^ 2 +
        ((ly.getD b 0 - ly.getD j 0) / (ny : K)) ^ 2))) := by
  intro wx wy
  have key : (∀ p ∈ loessSamples sqrt nx ny angle lx ly z i j, p.1 = 0) ↔
      ∀ a ∈ wx, ∀ b ∈ wy, z a b ≠ none →
      1 ≤ ((xPos angle lx (wx.getD 0 0) a - xPos angle lx (wx.getD 0 0) i) / (nx : K)) ^ 2 +
        ((ly.getD b 0 - ly.getD j 0) / (ny : K)) ^ 2 := by
    have hw : ∀ a b : Nat, tricube (sqrt (((xPos angle lx (wx.getD 0 0) a - xPos angle lx (wx.getD 0 0) i) / (nx : K)) ^ 2 +
        ((ly.getD b 0 - ly.getD j 0) / (ny : K)) ^ 2)) = 0 ↔
        1 ≤ ((xPos angle lx (wx.getD 0 0) a - xPos angle lx (wx.getD 0 0) i) / (nx : K)) ^ 2 +
        ((ly.getD b 0 - ly.getD j 0) / (ny : K)) ^ 2 := by
      intro a b
      rw [tricube_eq_zero (hs _ (by positivity)), ← not_lt, ← not_lt, hs1 _ (by positivity)]
    unfold loessSamples
    constructor
    · intro hall a ha b hb hz
      obtain ⟨v, hv⟩ := Option.ne_none_iff_exists'.1 hz
      rw [← hw a b]
      refine hall (_, v) (List.mem_filterMap.2 ⟨(a, b), ?_, by simp only [hv, Option.map_some]; rfl⟩)
      exact List.mem_flatMap.2 ⟨a, ha, List.mem_map.2 ⟨b, hb, rfl⟩⟩
    · intro hall p hp
      obtain ⟨⟨a, b⟩, hc, hp⟩ := List.mem_filterMap.1 hp
      obtain ⟨a', ha, hb⟩ := List.mem_flatMap.1 hc
      obtain ⟨b', hb, e⟩ := List.mem_map.1 hb
      cases e
      cases hz : z a b with
      | none => simp [hz] at hp
      | some v =>
        simp only [hz, Option.map_some, Option.some.injEq] at hp
        rw [← hp]
        exact (hw a b).2 (hall a ha b hb (by simp [hz]))
  rw [← key]
  constructor
  · rintro hz
    rcases h with ⟨-, h⟩ | ⟨-, r, h, -⟩
    · rw [h]; exact hz
    · rw [h]; simp
  · intro hz
    rcases h with ⟨h1, h⟩ | ⟨h1, r, h, -⟩
    · rw [hz] at h h1
      simp only [ne_eq, not_true, and_false, false_or, and_true] at h1
      simp only [h, true_iff]
      exact h1
    · rw [hz] at h1
      simp only [ne_eq, not_true, and_false, false_or, and_true] at h1
      simp only [h, reduceCtorEq, false_iff]
      exact h1

/-- **C51** The result does not depend on the number of threads, of processors nor on the
schedule. -/
theorem C51_schedule (ax ay : Axis K) (arr : Arr K) (g : Grid2D K) (lx ly : List K)
    (hax : Reach false ax) (hay : Reach false ay) (hlx : Coordinates ax lx) (hly : Coordinates ay ly)
    (hg : mkGrid2D ax ay arr = .ok g) (h2x : ax.isAngle = true ∨ 2 ≤ lx.length) (h2y : 2 ≤ ly.length)
    (sqrt : K → K) (nx ny : Nat) (hnx : nx < 2 ^ 31) (hny : ny < 2 ^ 31) (vt : ValueType)
    (hw hw' n n' : Nat) (sched sched' : List Nat) (st st' : State (List (Option K)) Err)
    (h : loess2D sqrt hw sched g nx ny vt n = .ok st) (h' : loess2D sqrt hw' sched' g nx ny vt n' = .ok st')
    (hj : joined st) (hj' : joined st') : st.result = st'.result := by
  have okx := reach_axisOk hax hlx
  have oky := reach_axisOk hay hly
  obtain ⟨rfl, rfl, rfl, hcirc, n1, n2, hsh, hn1, hn2⟩ := mkGrid2D_ok hg
  have hx : Stores g.x.cont lx := okx.stores
  have hy : Stores g.y.cont ly := oky.stores
  have e1 : n1 = lx.length := by have := hx.size_eq; unfold Axis.size at hn1; omega
  have e2 : n2 = ly.length := by have := hy.size_eq; unfold Axis.size at hn2; omega
  subst e1 e2
  have inv : ∀ {hw n sched st}, loess2D sqrt hw sched g nx ny vt n = .ok st →
      ∃ sl, slices hw lx.length n = .ok sl ∧ st = run (row2D sqrt nx ny vt g) (init sl) sched := by
    intro hw n sched st h
    unfold loess2D at h
    cases hc : checkWindowsSize nx ny with
    | error e => rw [hc] at h; simp [bind, Except.bind] at h
    | ok _ =>
      rw [hc, hn1] at h
      simp only [bind, Except.bind, Int.toNat_natCast] at h
      cases hsl : slices hw lx.length n with
      | error e => rw [hsl] at h; simp at h
      | ok sl =>
        rw [hsl] at h
        simp only [pure, Except.pure] at h
        injection h with h
        exact ⟨sl, rfl, h.symm⟩
  obtain ⟨sl, hsl, rfl⟩ := inv h
  obtain ⟨sl', hsl', rfl⟩ := inv h'
  exact C29_deterministic lx.length hw hw' n n' sl sl' hsl hsl' (row2D sqrt nx ny vt g)
    (fun i hi => ⟨_, row2D_eq sqrt nx ny hnx hny vt g hx hy hsh h2x h2y hi⟩) sched sched' hj hj'

section Layers
variable {T : Type} [CommRing T] [LinearOrder T] [IsStrictOrderedRing T] [AxisNum T] [LawfulAxisNum T] [ZNum T K] [LawfulZNum T K]

/-- A layer of a grid of more than two dimensions. -/
theorem layer_eq (sqrt : K → K) (nx ny : Nat) (hnx : nx < 2 ^ 31) (hny : ny < 2 ^ 31) (vt : ValueType)
    (g : Grid2D K) {lx ly : List K} (hx : Stores g.x.cont lx) (hy : Stores g.y.cont ly) (rest : List Nat)
    (hval : ∀ i j : Nat, i < lx.length → j < ly.length →
      g.arr.value ((i : Int) :: (j : Int) :: rest.map (fun n : Nat => (n : Int))) = .ok (g.arr.at' (i :: j :: rest)))
    (h2x : g.x.isAngle = true ∨ 2 ≤ lx.length) (h2y : 2 ≤ ly.length) :
    layer sqrt nx ny vt g (rest.map (fun n : Nat => (n : Int))) =
      .ok ((List.range lx.length).map fun i => (List.range ly.length).map fun j =>
      let s := loessSamples sqrt nx ny g.x.isAngle lx ly (fun a b => g.arr.at' (a :: b :: rest)) i j
      (if selected vt (g.arr.at' (i :: j :: rest)).isNone = true then
        (if (s.map Prod.fst).sum ≠ 0 then some ((s.map fun p => p.1 * p.2).sum / (s.map Prod.fst).sum)
          else g.arr.at' (i :: j :: rest))
      else g.arr.at' (i :: j :: rest))) := by
  have hn : if g.x.isAngle then 1 ≤ lx.length else 2 ≤ lx.length := by
    split
    · exact List.length_pos_of_ne_nil hx.ne
    · rcases h2x with h | h
      · contradiction
      · exact h
  unfold layer
  rw [show g.x.size = (lx.length : Int) from hx.size_eq, show g.y.size = (ly.length : Int) from hy.size_eq]
  simp only [Int.toNat_natCast]
  refine Interp.mapM_ok _ _ _ fun i hi => ?_
  have hi := List.mem_range.1 hi
  rw [xPart_eq hx hnx hi hn]
  simp only [bind, Except.bind]
  refine Interp.mapM_ok _ _ _ fun j hj => ?_
  exact cell_eq sqrt nx ny hny vt hx hy hn h2y _ (fun a b => g.arr.at' (a :: b :: rest)) hval hi (List.mem_range.1 hj)

/-- **C51** On a grid of three dimensions every layer `k` of the third axis is filtered as a grid of two
dimensions, whatever the number of threads and the schedule. -/
theorem C51_result3D (ax ay : Axis K) (az : Axis T) (arr : Arr K) (g : Grid3D T K) (lx ly : List K)
    (hax : Reach false ax) (hay : Reach false ay) (hlx : Coordinates ax lx) (hly : Coordinates ay ly)
    (hg : mkGrid3D ax ay az arr = .ok g) (h2x : ax.isAngle = true ∨ 2 ≤ lx.length) (h2y : 2 ≤ ly.length)
    (sqrt : K → K) (hs : ∀ a, 0 ≤ a → 0 ≤ sqrt a)
    (nx ny : Nat) (hnx : 1 ≤ nx ∧ nx < 2 ^ 31) (hny : 1 ≤ ny ∧ ny < 2 ^ 31) (vt : ValueType)
    (hw n : Nat) (hhw : 1 ≤ hw) (sched : List Nat) :
    ∃ st, loess3D sqrt hw sched g nx ny vt n = .ok st ∧ (joined st → st.except = none ∧
      ∀ k : Nat, (k : Int) < az.size → ∃ m, st.result k = some m ∧ m.length = lx.length ∧
        ∀ i (hi : i < m.length), m[i].length = ly.length ∧ ∀ j (hj : j < m[i].length), CellSpec vt
          (loessSamples sqrt nx ny ax.isAngle lx ly (fun a b => arr.at' [a, b, k]) i j)
          (arr.at' [i, j, k]) m[i][j]) := by
  have okx := reach_axisOk hax hlx
  have oky := reach_axisOk hay hly
  obtain ⟨rfl, rfl, rfl, rfl, -, -, n1, n2, n3, hsh, hn1, hn2, hn3⟩ := mkGrid3D_ok hg
  have hx : Stores g.x.cont lx := okx.stores
  have hy : Stores g.y.cont ly := oky.stores
  have e1 : n1 = lx.length := by have := hx.size_eq; unfold Axis.size at hn1; omega
  have e2 : n2 = ly.length := by have := hy.size_eq; unfold Axis.size at hn2; omega
  subst e1 e2
  obtain ⟨sl, hsl, -⟩ := C29_slices hw n3 n hhw
  refine ⟨run (fun iz => layer sqrt nx ny vt g.toGrid2D [(iz : Int)]) (init sl) sched, ?_, ?_⟩
  · unfold loess3D checkWindowsSize
    rw [if_neg (by omega), if_neg (by omega), hn3]
    simp only [bind, Except.bind, Int.toNat_natCast, hsl]
    rfl
  · intro hj
    obtain ⟨-, hex, hres⟩ := C29_result hw n3 n sl hsl
      (fun iz => layer sqrt nx ny vt g.toGrid2D [(iz : Int)]) _
      (fun k hk => layer_eq sqrt nx ny hnx.2 hny.2 vt g.toGrid2D hx hy [k] (by
        intro i j hi hj
        have := value_ok (arr := g.arr) (idx := [i, j, k]) (by simp [hsh]) (by
          intro p hp
          rw [hsh] at hp
          simp at hp
          rcases hp with rfl | rfl | rfl <;> assumption)
        simpa using this) h2x h2y) sched hj
    refine ⟨hex, fun k hk => ?_⟩
    rw [hres k, if_pos (by omega)]
    refine ⟨_, rfl, by simp, ?_⟩
    intro i hi'
    refine ⟨by simp, ?_⟩
    intro j hj'
    simp only [List.getElem_map, List.getElem_range]
    exact cell_spec sqrt hs vt nx ny g.x.isAngle lx ly (fun a b => g.arr.at' [a, b, k]) i j

/-- **C51** The same for the layers `(k, l)` of the last two axes of a grid of four dimensions. -/
theorem C51_result4D (ax ay : Axis K) (az : Axis T) (au : Axis K) (arr : Arr K) (g : Grid4D T K)
    (lx ly : List K)
    (hax : Reach false ax) (hay : Reach false ay) (hlx : Coordinates ax lx) (hly : Coordinates ay ly)
    (hg : mkGrid4D ax ay az au arr = .ok g) (h2x : ax.isAngle = true ∨ 2 ≤ lx.length) (h2y : 2 ≤ ly.length)
    (sqrt : K → K) (hs : ∀ a, 0 ≤ a → 0 ≤ sqrt a)
    (nx ny : Nat) (hnx : 1 ≤ nx ∧ nx < 2 ^ 31) (hny : 1 ≤ ny ∧ ny < 2 ^ 31) (vt : ValueType)
    (hw n : Nat) (hhw : 1 ≤ hw) (sched : List Nat) :
    ∃ st, loess4D sqrt hw sched g nx ny vt n = .ok st ∧ (joined st → st.except = none ∧
      ∀ l : Nat, (l : Int) < au.size → ∃ ms, st.result l = some ms ∧ (ms.length : Int) = az.size ∧
        ∀ k (hk : k < ms.length), ms[k].length = lx.length ∧ ∀ i (hi : i < ms[k].length),
        ms[k][i].length = ly.length ∧ ∀ j (hj : j < ms[k][i].length), CellSpec vt
          (loessSamples sqrt nx ny ax.isAngle lx ly (fun a b => arr.at' [a, b, k, l]) i j)
          (arr.at' [i, j, k, l]) ms[k][i][j]) := by
  have okx := reach_axisOk hax hlx
  have oky := reach_axisOk hay hly
  obtain ⟨rfl, rfl, rfl, rfl, rfl, -, -, -, n1, n2, n3, n4, hsh, hn1, hn2, hn3, hn4⟩ := mkGrid4D_ok hg
  have hx : Stores g.x.cont lx := okx.stores
  have hy : Stores g.y.cont ly := oky.stores
  have e1 : n1 = lx.length := by have := hx.size_eq; unfold Axis.size at hn1; omega
  have e2 : n2 = ly.length := by have := hy.size_eq; unfold Axis.size at hn2; omega
  subst e1 e2
  obtain ⟨sl, hsl, -⟩ := C29_slices hw n4 n hhw
  refine ⟨run (fun iu => (List.range g.z.size.toNat).mapM fun (iz : Nat) =>
    layer sqrt nx ny vt g.toGrid3D.toGrid2D [(iz : Int), (iu : Int)]) (init sl) sched, ?_, ?_⟩
  · unfold loess4D checkWindowsSize
    rw [if_neg (by omega), if_neg (by omega), hn4]
    simp only [bind, Except.bind, Int.toNat_natCast, hsl]
    rfl
  · intro hj
    obtain ⟨-, hex, hres⟩ := C29_result hw n4 n sl hsl
      (fun iu => (List.range g.z.size.toNat).mapM fun (iz : Nat) =>
        layer sqrt nx ny vt g.toGrid3D.toGrid2D [(iz : Int), (iu : Int)]) _
      (fun l hl => Interp.mapM_ok _ _ _ fun k hk =>
        layer_eq sqrt nx ny hnx.2 hny.2 vt g.toGrid3D.toGrid2D hx hy [k, l] (by
        intro i j hi hj
        have hk := List.mem_range.1 hk
        rw [hn3] at hk
        have := value_ok (arr := g.arr) (idx := [i, j, k, l]) (by simp [hsh]) (by
          intro p hp
          rw [hsh] at hp
          simp at hp hk
          rcases hp with rfl | rfl | rfl | rfl <;> assumption)
        simpa using this) h2x h2y) sched hj
    refine ⟨hex, fun l hl => ?_⟩
    rw [hres l, if_pos (by omega)]
    refine ⟨_, rfl, by simp [hn3], ?_⟩
    intro k hk'
    simp only [List.getElem_map, List.getElem_range]
    refine ⟨by simp, ?_⟩
    intro i hi'
    refine ⟨by simp, ?_⟩
    intro j hj'
    exact cell_spec sqrt hs vt nx ny g.x.isAngle lx ly (fun a b => g.arr.at' [a, b, k, l]) i j
end Layers

/-- **C51, the part that fails** On an x axis of one single value that is not an angle every row is
computed with a remainder modulo 0. -/
theorem C51_single_x_false (sqrt : K → K) (nx ny : Nat) (h : 1 ≤ nx ∧ nx < 2 ^ 31) (vt : ValueType)
    (g : Grid2D K) {x : K} (hx : Stores g.x.cont [x]) (ha : g.x.isAngle = false) :
    row2D sqrt nx ny vt g 0 = .error .ub := by
  unfold row2D xPart
  have hsz : g.x.size = 1 := by unfold Axis.size; have := hx.size_eq; simpa using this
  rw [hsz, ha, show ((0 : Nat) : Int) = 0 from rfl, show g.x.cont.coord 0 = .ok x from hx.coord_eq 0 (by simp)]
  have : frameIndex 0 1 false (frameSize nx) = .error .ub := by
    unfold frameIndex
    rw [frameSize_eq h.2, show 2 * nx + 1 = (2 * nx) + 1 from rfl, List.range_succ_eq_map, List.mapM_cons]
    have : frameOne 1 false (0 - (((2 * nx + 1) / 2 : Nat) : Int) + ((0 : Nat) : Int)) = .error .ub := by
      unfold frameOne
      rw [if_neg (by simp), if_pos (by omega), if_pos (by norm_num)]
    rw [this]
    rfl
  rw [this]
  rfl

section Examples

/-- Exact square root of the squares of rational numbers (for the examples). -/
def qsqrt (q : ℚ) : ℚ := (Nat.sqrt q.num.toNat : ℚ) / (Nat.sqrt q.den : ℚ)

/-- The result of the filter on axes built from the values `vx`, `vy`; the threads run one after
the other. -/
def exLoess (vx vy : List ℚ) (angle : Bool) (z : Nat → Nat → Option ℚ) (nx ny : Nat) (vt : ValueType)
    (n : Nat) (i : Nat) : Out (Option (List (Option ℚ))) := do
  let ax ← exAxis vx angle
  let ay ← exAxis vy false
  let g ← mkGrid2D ax ay { shape := [vx.length, vy.length], at' := fun l => z (l.getD 0 0) (l.getD 1 0) }
  let st ← loess2D qsqrt 4 [0, 0, 0, 0, 0, 1, 1, 1, 1, 1, 2, 2, 2, 2] g nx ny vt n
  return st.result i

/-- A regular grid of step 1, window of half-width 2 along x: the mean of the two
neighbours (the one on the right is the mirror image of the cell 1) with the weights `(1 - 1/8)^3`, 1 and so on. -/
example : exLoess [0, 1, 2] [0, 10] false
    (fun i j => if (i, j) = (1, 0) then none else some (i + 1)) 2 1 .undefined 2 1 =
    .ok (some [some 2, some 2]) := by decide +kernel

example : exLoess [0, 1, 2] [0, 10] false
    (fun i j => if (i, j) = (1, 0) then none else some (i + 1)) 2 1 .all 1 0 =
    .ok (some [some 1, some (1 + 686 / 1198)]) := by decide +kernel

/-- The hypotheses on `sqrt` hold for the real square root. -/
example : (∀ a : ℝ, 0 ≤ a → 0 ≤ Real.sqrt a) ∧ ∀ a : ℝ, 0 ≤ a → (Real.sqrt a < 1 ↔ a < 1) :=
  ⟨fun a _ => Real.sqrt_nonneg a, fun a ha => by
    rw [Real.sqrt_lt' (by norm_num)]; norm_num⟩

/-- **C51, the part that fails** The documentation gives `nx` and `ny` as numbers of points, but the distances are
compared with them in units of the axes: on a grid of step 5 the window of half-width 3 gives no weight to
any neighbour and the hole is not filled although all its neighbours are defined. -/
theorem C51_step_false :
    exLoess [0, 5, 10] [0, 5, 10] false (fun i j => if (i, j) = (1, 1) then none else some 7) 3 3 .undefined 1 1 =
      .ok (some [some 7, none, some 7]) ∧
    exLoess [0, 1, 2] [0, 1, 2] false (fun i j => if (i, j) = (1, 1) then none else if i = j then none else some 7) 3 3
      .undefined 1 1 = .ok (some [some 7, some 7, some 7]) := by
  decide +kernel

/-- **C51, the part that fails** On a decreasing angular axis the first cell of the window is taken for a cell a turn away:
the value 10 half a degree to the left does not fill the hole; on the same axis in increasing
order it does. -/
theorem C51_descending_angle_false :
    exLoess [3 / 2, 1, 1 / 2, 0] [0, 10] true (fun i _ => if i = 0 then some 10 else none) 1 1 .undefined 1 1 =
      .ok (some [none, none]) ∧
    exLoess [0, 1 / 2, 1, 3 / 2] [0, 10] true (fun i _ => if i = 3 then some 10 else none) 1 1 .undefined 1 2 =
      .ok (some [some 10, some 10]) := by
  decide +kernel

end Examples

end Pyinterp.Loess
