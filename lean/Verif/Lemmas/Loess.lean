import Verif.Model.Loess
import Verif.Spec.Fill
import Verif.Lemmas.Interpolate1D
import Verif.Lemmas.Math
import Verif.Lemmas.Variate

namespace Pyinterp.Loess
open Pyinterp Pyinterp.Variate Spec
set_option linter.unusedSectionVars false
set_option linter.unusedVariables false

variable {K : Type} [Field K] [LinearOrder K] [IsStrictOrderedRing K] [FloorRing K]

theorem frameOne_eq (n : Nat) (angle : Bool) (i : Int) (hn : if angle then 1 ≤ n else 2 ≤ n) :
    frameOne n angle i = .ok ((cellAt angle n i : Nat) : Int) ∧ cellAt angle n i < n := by
  cases angle with
  | true =>
    simp only [if_true] at hn
    simp only [frameOne, cellAt, if_true]
    have h1 := Int.emod_nonneg i (b := (n : Int)) (by omega)
    have h2 := Int.emod_lt_of_pos i (b := (n : Int)) (by omega)
    rw [if_neg (by omega), Math.remainderI_eq_emod _ _ (by omega)]
    refine ⟨?_, by omega⟩
    congr 1
    omega
  | false =>
    simp only [Bool.false_eq_true, if_false] at hn
    simp only [frameOne, cellAt, Bool.false_eq_true, if_false]
    generalize hm : (n : Int) - 1 = m
    have hm1 : 1 ≤ m := by omega
    have e : (n : Int) = m + 1 := by omega
    rw [show m * 2 = 2 * m by ring]
    have h1 := Int.emod_nonneg i (b := 2 * m) (by omega)
    have h2 := Int.emod_lt_of_pos i (b := 2 * m) (by omega)
    have h3 := Int.emod_nonneg (i + m) (b := 2 * m) (by omega)
    have h4 := Int.emod_lt_of_pos (i + m) (b := 2 * m) (by omega)
    -- the two remainders
    have key : (i + m) % (2 * m) = i % (2 * m) + m ∨ (i + m) % (2 * m) = i % (2 * m) - m := by
      have d1 := Int.emod_add_mul_ediv i (2 * m)
      have hrw : (i + m) % (2 * m) = (i % (2 * m) + m) % (2 * m) := by
        rw [Int.emod_add_emod]
      rcases lt_or_ge (i % (2 * m) + m) (2 * m) with hlt | hge
      · left; rw [hrw, Int.emod_eq_of_lt (by omega) hlt]
      · right
        rw [hrw, show i % (2 * m) + m = (i % (2 * m) - m) + 2 * m by ring, Int.add_emod_right,
          Int.emod_eq_of_lt (by omega) (by omega)]
    refine ⟨?_, by omega⟩
    by_cases hin : i < 0 ∨ i ≥ n
    · rw [if_pos hin, if_neg (by omega), Math.remainderI_eq_emod _ _ (by omega)]
      by_cases hw : i % (2 * m) ≥ n
      · rw [if_pos hw, Math.remainderI_eq_emod _ _ (by omega)]
        congr 1
        have : i % (2 * m) % (n : Int) = i % (2 * m) - n := by
          rw [show i % (2 * m) = (i % (2 * m) - n) + n by ring, Int.add_emod_right,
            Int.emod_eq_of_lt (by omega) (by omega)]
          ring
        rw [this]
        omega
      · rw [if_neg hw, Math.remainderI_eq_emod _ _ (by omega), Int.emod_eq_of_lt h1 (by omega)]
        congr 1
        omega
    · rw [if_neg hin]
      congr 1
      have hi0 : 0 ≤ i := by omega
      have hi1 : i < 2 * m := by omega
      rw [Int.emod_eq_of_lt hi0 hi1] at key
      omega

theorem frameSize_eq {nx : Nat} (h : nx < 2 ^ 31) : frameSize nx = 2 * nx + 1 := by
  unfold frameSize; omega

theorem frameIndex_eq (i n half : Nat) (angle : Bool) (hh : half < 2 ^ 31)
    (hn : if angle then 1 ≤ n else 2 ≤ n) :
    frameIndex i n angle (frameSize half) = .ok ((windowCells angle n half i).map fun k => ((k : Nat) : Int)) := by
  unfold frameIndex windowCells
  rw [frameSize_eq hh, show (2 * half + 1) / 2 = half by omega, List.map_map]
  exact Interp.mapM_ok _ _ _ fun k _ => (frameOne_eq n angle _ hn).1

theorem windowCells_lt {angle : Bool} {n half i k : Nat} (hn : if angle then 1 ≤ n else 2 ≤ n)
    (hk : k ∈ windowCells angle n half i) : k < n := by
  unfold windowCells at hk
  obtain ⟨j, -, rfl⟩ := List.mem_map.1 hk
  exact (frameOne_eq n angle _ hn).2

theorem windowCells_self {angle : Bool} {n half i : Nat} (hi : i < n) (hn : if angle then 1 ≤ n else 2 ≤ n) :
    i ∈ windowCells angle n half i := by
  unfold windowCells
  refine List.mem_map.2 ⟨half, List.mem_range.2 (by omega), ?_⟩
  rw [show (i : Int) - (half : Int) + (half : Int) = i by ring]
  have := (frameOne_eq n angle i hn).1
  cases angle with
  | true =>
    unfold cellAt
    simp only [if_true]
    rw [Int.emod_eq_of_lt (by omega) (by omega)]
    omega
  | false =>
    unfold frameOne at this
    simp only [Bool.false_eq_true, if_false] at this
    rw [if_neg (by omega)] at this
    injection this with this
    omega

/-- `normalize_angle(x, base, 360)` -/
theorem normalizeAngleF_eq (x base : K) : Math.normalizeAngleF x base 360 = onTurn base x := by
  unfold Math.normalizeAngleF onTurn
  obtain ⟨h0, h1, k, hk⟩ := Math.remainderF_spec (x - base) (360 : K) (by norm_num)
  have : ⌊(x - base) / 360⌋ = -k := by
    rw [Int.floor_eq_iff]
    have e : (x - base) / 360 = Math.remainderF (x - base) 360 / 360 - k := by
      rw [hk]; field_simp; ring
    rw [e]
    push_cast
    constructor
    · have : 0 ≤ Math.remainderF (x - base) 360 / 360 := div_nonneg h0 (by norm_num)
      linarith
    · have : Math.remainderF (x - base) 360 / 360 < 1 := by rw [div_lt_one (by norm_num)]; exact h1
      linarith
  rw [this, hk]
  push_cast
  ring

theorem getD_eq {l : List K} {i : Nat} (h : i < l.length) : l.getD i 0 = l[i] := by
  simp [List.getD, List.getElem?_eq_getElem h]

theorem coord_getD {a : Axis K} {l : List K} (h : Stores a.cont l) {i : Nat} (hi : i < l.length) :
    a.cont.coord (i : Int) = .ok (l.getD i 0) := by
  rw [h.coord_eq i hi, getD_eq hi]

theorem weight_eq (sqrt : K → K) (nx ny : Nat) (dx dy : K) :
    weight sqrt nx ny dx dy = tricube (sqrt ((dx / (nx : K)) ^ 2 + (dy / (ny : K)) ^ 2)) := by
  unfold weight tricube
  simp only [sq]

theorem xPart_eq {a : Axis K} {lx : List K} (h : Stores a.cont lx) {nx i : Nat} (hnx : nx < 2 ^ 31)
    (hi : i < lx.length) (hn : if a.isAngle then 1 ≤ lx.length else 2 ≤ lx.length) :
    xPart a nx i = .ok ((windowCells a.isAngle lx.length nx i).map (fun k => ((k : Nat) : Int)),
      lx.getD ((windowCells a.isAngle lx.length nx i).getD 0 0) 0,
      xPos a.isAngle lx ((windowCells a.isAngle lx.length nx i).getD 0 0) i) := by
  unfold xPart
  have hsz : a.size = (lx.length : Int) := h.size_eq
  rw [hsz, coord_getD h hi, frameIndex_eq i lx.length nx a.isAngle hnx hn]
  have hwc : ∀ k ∈ windowCells a.isAngle lx.length nx i, k < lx.length := fun k hk => windowCells_lt hn hk
  generalize hw : windowCells a.isAngle lx.length nx i = w at *
  cases w with
  | nil => exact absurd hw (by simp [windowCells, List.range_succ])
  | cons f w =>
    have hf : f < lx.length := hwc f (by simp)
    simp only [bind, Except.bind, pure, Except.pure, List.map_cons, rd, List.getD_cons_zero,
      Int.toNat_zero, List.getElem?_cons_zero, lt_irrefl, if_false, coord_getD h hf]
    congr 3
    unfold xPos
    split
    · rw [normalizeAngleF_eq]
    · rfl

theorem fold_eq (sqrt : K → K) (nx ny : Nat) {ax ay : Axis K} {lx ly : List K} (hx : Stores ax.cont lx)
    (hy : Stores ay.cont ly) (val : Int → Int → Out (Option K)) (z : Nat → Nat → Option K)
    (hval : ∀ i j : Nat, i < lx.length → j < ly.length → val i j = .ok (z i j))
    (first i j : Nat) (l : List (Nat × Nat))
    (hl : ∀ c ∈ l, c.1 < lx.length ∧ c.2 < ly.length) (acc : K × K) :
    let s := l.filterMap fun c => (z c.1 c.2).map fun v =>
      (tricube (sqrt (((xPos ax.isAngle lx first c.1 - xPos ax.isAngle lx first i) / (nx : K)) ^ 2 +
        ((ly.getD c.2 0 - ly.getD j 0) / (ny : K)) ^ 2)), v)
    (l.map fun c => (((c.1 : Nat) : Int), ((c.2 : Nat) : Int))).foldlM
      (accumulate sqrt nx ny ax ay val (lx.getD first 0) (xPos ax.isAngle lx first i) (ly.getD j 0)) acc =
    .ok (acc.1 + (s.map fun p => p.1 * p.2).sum, acc.2 + (s.map Prod.fst).sum) := by
  induction l generalizing acc with
  | nil => simp [pure, Except.pure]
  | cons c l ih =>
    obtain ⟨h1, h2⟩ := hl c (by simp)
    have hx' : (if ax.isAngle = true then Math.normalizeAngleF (lx.getD c.1 0) (lx.getD first 0) 360
        else lx.getD c.1 0) = xPos ax.isAngle lx first c.1 := by
      unfold xPos; split
      · rw [normalizeAngleF_eq]
      · rfl
    have hstep : accumulate sqrt nx ny ax ay val (lx.getD first 0) (xPos ax.isAngle lx first i) (ly.getD j 0)
        acc (((c.1 : Nat) : Int), ((c.2 : Nat) : Int)) = .ok (match z c.1 c.2 with
          | some v => (acc.1 + tricube (sqrt (((xPos ax.isAngle lx first c.1 - xPos ax.isAngle lx first i) / (nx : K)) ^ 2 +
        ((ly.getD c.2 0 - ly.getD j 0) / (ny : K)) ^ 2)) * v, acc.2 + tricube (sqrt (((xPos ax.isAngle lx first c.1 - xPos ax.isAngle lx first i) / (nx : K)) ^ 2 +
        ((ly.getD c.2 0 - ly.getD j 0) / (ny : K)) ^ 2)))
          | none => acc) := by
      unfold accumulate
      simp only [coord_getD hx h1, coord_getD hy h2, hval _ _ h1 h2, bind, Except.bind, pure, Except.pure, hx',
        weight_eq]
      cases z c.1 c.2 <;> rfl
    dsimp only at ih ⊢
    rw [List.map_cons, List.foldlM_cons, hstep]
    simp only [bind, Except.bind]
    rw [ih (fun d hd => hl d (by simp [hd]))]
    rw [List.filterMap_cons]
    cases hz : z c.1 c.2 with
    | none => simp
    | some v => simp [add_assoc]

theorem product_map {α β γ δ : Type} (f : α → γ) (g : β → δ) (l : List α) (m : List β) :
    (l.map f).product (m.map g) = (l.product m).map fun c => (f c.1, g c.2) := by
  simp [List.product, List.flatMap_map, List.map_flatMap, List.map_map, Function.comp_def]

/-- The value computed for a cell. -/
theorem cell_eq (sqrt : K → K) (nx ny : Nat) (hny : ny < 2 ^ 31) (vt : ValueType) {ax ay : Axis K}
    {lx ly : List K} (hx : Stores ax.cont lx)
    (hy : Stores ay.cont ly) (hnx : if ax.isAngle then 1 ≤ lx.length else 2 ≤ lx.length)
    (h2y : 2 ≤ ly.length) (val : Int → Int → Out (Option K)) (z : Nat → Nat → Option K)
    (hval : ∀ i j : Nat, i < lx.length → j < ly.length → val i j = .ok (z i j)) {i j : Nat}
    (hi : i < lx.length) (hj : j < ly.length) :
    let wx := windowCells ax.isAngle lx.length nx i
    let s := loessSamples sqrt nx ny ax.isAngle lx ly z i j
    cell sqrt nx ny vt ax ay val (wx.map fun k => ((k : Nat) : Int)) (lx.getD (wx.getD 0 0) 0)
      (xPos ax.isAngle lx (wx.getD 0 0) i) i j =
    .ok (if selected vt (z i j).isNone = true then
      (if (s.map Prod.fst).sum ≠ 0 then some ((s.map fun p => p.1 * p.2).sum / (s.map Prod.fst).sum) else z i j)
      else z i j) := by
  intro wx s
  unfold cell
  rw [hval i j hi hj]
  simp only [bind, Except.bind, pure, Except.pure]
  by_cases hs : selected vt (z i j).isNone = true
  · rw [if_pos hs, if_pos hs]
    rw [coord_getD hy hj, show ay.size = (ly.length : Int) from hy.size_eq,
      frameIndex_eq j ly.length ny false hny (by simpa using h2y)]
    simp only
    rw [product_map]
    have := fold_eq sqrt nx ny hx hy val z hval (wx.getD 0 0) i j
      (wx.product (windowCells false ly.length ny j)) (by
        rintro ⟨a, b⟩ hc
        rw [List.product, List.mem_flatMap] at hc
        obtain ⟨a', ha, hb⟩ := hc
        obtain ⟨b', hb', e⟩ := List.mem_map.1 hb
        cases e
        exact ⟨windowCells_lt hnx ha, windowCells_lt (by simpa using h2y) hb'⟩) (0, 0)
    dsimp only at this
    rw [this]
    simp only [zero_add]
    rfl
  · rw [if_neg hs, if_neg hs]

theorem tricube_nonneg {d : K} (h : 0 ≤ d) : 0 ≤ tricube d := by
  unfold tricube
  split
  · have : d ^ 3 ≤ 1 := pow_le_one₀ h ‹_›
    exact pow_nonneg (by linarith) 3
  · exact le_refl _

theorem tricube_eq_zero {d : K} (h : 0 ≤ d) : tricube d = 0 ↔ 1 ≤ d := by
  unfold tricube
  split
  · rename_i h1
    rw [pow_eq_zero_iff (by norm_num), sub_eq_zero]
    constructor
    · intro e
      by_contra hlt
      push Not at hlt
      exact absurd e.symm (pow_lt_one₀ h hlt (by norm_num)).ne
    · intro e
      rw [le_antisymm h1 e]; norm_num
  · rename_i h1
    simp only [true_iff]
    linarith [not_le.1 h1]

end Pyinterp.Loess
