import Verif.Lemmas.Container
import Mathlib.Algebra.Order.Ring.Abs
import Mathlib.Tactic.NormNum

namespace Pyinterp
open Spec

set_option linter.unusedSectionVars false

/-- What the proofs use about the two instantiations of the axis templates. -/
class LawfulAxisNum (T : Type) [CommRing T] [LinearOrder T] [IsStrictOrderedRing T] [AxisNum T] :
    Prop where
  mulInt_eq : ∀ (i : Int) (s : T), AxisNum.mulInt i s = (i : T) * s
  rem_spec : ∀ x y : T, 0 < y → 0 ≤ AxisNum.remainder x y ∧ AxisNum.remainder x y < y ∧
    ∃ k : ℤ, AxisNum.remainder x y = x + (k : T) * y
  ofInt_eq : ∀ n : Int, (AxisNum.ofInt n : T) = (n : T)

instance : LawfulAxisNum Int where
  mulInt_eq i s := by simp [AxisNum.mulInt]
  rem_spec x y hy := by
    simp only [AxisNum.remainder]
    rw [Math.remainderI_eq_emod _ _ hy]
    refine ⟨Int.emod_nonneg _ (by omega), Int.emod_lt_of_pos _ hy, -(x / y), ?_⟩
    have := Int.mul_ediv_add_emod x y
    simp only [Int.cast_id]
    linarith
  ofInt_eq n := by simp [AxisNum.ofInt]

instance {K : Type} [Field K] [LinearOrder K] [IsStrictOrderedRing K] [FloorRing K] :
    LawfulAxisNum K where
  mulInt_eq i s := rfl
  rem_spec x y hy := Math.remainderF_spec x y hy
  ofInt_eq n := rfl

section
variable {T : Type} [CommRing T] [LinearOrder T] [IsStrictOrderedRing T]

/-- coordinates of a regular axis -/
def regCoords (start step : T) (n : Nat) : List T :=
  (List.range n).map (fun i : Nat => start + (i : T) * step)

@[simp] theorem regCoords_length (start step : T) (n : Nat) : (regCoords start step n).length = n := by
  simp [regCoords]

theorem regCoords_getElem (start step : T) (n i : Nat) (h : i < (regCoords start step n).length) :
    (regCoords start step n)[i] = start + (i : T) * step := by
  simp [regCoords]

theorem mem_regCoords (start step : T) (n : Nat) (v : T) :
    v ∈ regCoords start step n ↔ ∃ i : Nat, i < n ∧ v = start + (i : T) * step := by
  simp only [regCoords, List.mem_map, List.mem_range]
  exact ⟨fun ⟨i, h, e⟩ => ⟨i, h, e.symm⟩, fun ⟨i, h, e⟩ => ⟨i, h, e.symm⟩⟩

theorem regCoords_asc (start step : T) (n : Nat) (h : 0 < step) :
    (regCoords start step n).Pairwise (· < ·) := by
  rw [List.pairwise_iff_getElem]
  intro i j hi hj hij
  rw [regCoords_getElem, regCoords_getElem]
  have : (i : T) < (j : T) := by exact_mod_cast hij
  nlinarith

theorem regCoords_desc (start step : T) (n : Nat) (h : step < 0) :
    (regCoords start step n).Pairwise (· > ·) := by
  rw [List.pairwise_iff_getElem]
  intro i j hi hj hij
  rw [regCoords_getElem, regCoords_getElem]
  have : (i : T) < (j : T) := by exact_mod_cast hij
  nlinarith

/-- If `idx` is within half a step of the coordinate then no other node is nearer. -/
theorem half_step_nearest (c start step : T) (idx j : Int) (hs : step ≠ 0)
    (h : 2 * |c - (start + (idx : T) * step)| ≤ |step|) :
    |c - (start + (idx : T) * step)| ≤ |c - (start + (j : T) * step)| := by
  by_cases hj : j = idx
  · rw [hj]
  · have h1 : |((j - idx : Int) : T) * step| ≥ |step| := by
      rw [abs_mul]
      have : (1 : T) ≤ |((j - idx : Int) : T)| := by
        rw [← Int.cast_abs]
        have : 1 ≤ |j - idx| := Int.one_le_abs (by omega)
        exact_mod_cast this
      nlinarith [abs_nonneg step]
    have h2 : ((j - idx : Int) : T) * step =
        (c - (start + (idx : T) * step)) - (c - (start + (j : T) * step)) := by
      push_cast; ring
    have h3 := abs_sub (c - (start + (idx : T) * step)) (c - (start + (j : T) * step))
    rw [← h2] at h3
    linarith

/-- Post-processing of the raw index by `find_index` of a regular container: with
an index within half a step, the answer is the nearest node or `-1` outside. -/
theorem regular_post (c start step : T) (n : Nat) (idx : Int) (b : Bool) (hs : step ≠ 0) (hn : 0 < n)
    (h : 2 * |c - (start + (idx : T) * step)| ≤ |step|) (res : Int)
    (hres : res = if idx < 0 then (if b then 0 else -1)
      else if idx ≥ n then (if b then (n : Int) - 1 else -1) else idx) :
    (res = -1 ∧ b = false ∧ Outside (regCoords start step n) c) ∨
      Nearest (regCoords start step n) c res := by
  have hlen : (regCoords start step n).length = n := regCoords_length _ _ _
  -- position of c when the index is out of range
  have hout : ∀ i : Int, (idx < 0 → 0 ≤ i → (0 < step → c < start + (i : T) * step) ∧ (step < 0 → start + (i : T) * step < c)) ∧
      (i < idx → (0 < step → start + (i : T) * step < c) ∧ (step < 0 → c < start + (i : T) * step)) := by
    intro i
    constructor
    · intro h1 h2
      have hi : ((idx : T)) + 1 ≤ (i : T) := by exact_mod_cast (show idx + 1 ≤ i by omega)
      constructor
      · intro hp
        rw [abs_of_pos hp] at h
        have := le_abs_self (c - (start + (idx : T) * step))
        nlinarith
      · intro hp
        rw [abs_of_neg hp] at h
        have := neg_abs_le (c - (start + (idx : T) * step))
        nlinarith
    · intro h1
      have hi : (i : T) + 1 ≤ (idx : T) := by exact_mod_cast (show i + 1 ≤ idx by omega)
      constructor
      · intro hp
        rw [abs_of_pos hp] at h
        have := neg_abs_le (c - (start + (idx : T) * step))
        nlinarith
      · intro hp
        rw [abs_of_neg hp] at h
        have := le_abs_self (c - (start + (idx : T) * step))
        nlinarith
  by_cases h1 : idx < 0
  · simp only [h1, if_true] at hres
    cases b
    · left
      refine ⟨by simpa using hres, rfl, ?_⟩
      rcases lt_or_gt_of_ne hs with hp | hp
      · right
        intro v hv
        obtain ⟨i, _, rfl⟩ := (mem_regCoords _ _ _ _).mp hv
        have := ((hout i).1 h1 (by omega)).2 hp
        simpa using this
      · left
        intro v hv
        obtain ⟨i, _, rfl⟩ := (mem_regCoords _ _ _ _).mp hv
        have := ((hout i).1 h1 (by omega)).1 hp
        simpa using this
    · right
      simp only [if_true] at hres
      refine ⟨start, by omega, ?_, ?_⟩
      · rw [hres]; simp [regCoords, hn]
      · intro w hw
        obtain ⟨i, _, rfl⟩ := (mem_regCoords _ _ _ _).mp hw
        have h0 := (hout 0).1 h1 (by omega)
        have hii : (0 : T) ≤ (i : T) := by positivity
        simp only [Int.cast_zero, zero_mul, add_zero] at h0
        rcases lt_or_gt_of_ne hs with hp | hp
        · have e := h0.2 hp
          rw [abs_of_pos (by linarith), abs_of_pos (by nlinarith)]
          nlinarith
        · have e := h0.1 hp
          rw [abs_of_neg (by linarith), abs_of_neg (by nlinarith)]
          nlinarith
  · simp only [h1, if_false] at hres
    by_cases h2 : idx ≥ n
    · simp only [h2, if_true] at hres
      cases b
      · left
        refine ⟨by simpa using hres, rfl, ?_⟩
        rcases lt_or_gt_of_ne hs with hp | hp
        · left
          intro v hv
          obtain ⟨i, hi, rfl⟩ := (mem_regCoords _ _ _ _).mp hv
          have := ((hout i).2 (by omega)).2 hp
          simpa using this
        · right
          intro v hv
          obtain ⟨i, hi, rfl⟩ := (mem_regCoords _ _ _ _).mp hv
          have := ((hout i).2 (by omega)).1 hp
          simpa using this
      · right
        simp only [if_true] at hres
        refine ⟨start + ((n - 1 : Nat) : T) * step, by omega, ?_, ?_⟩
        · rw [hres, Int.toNat_ofNat_sub_one n hn]; simp [regCoords, hn]
        · intro w hw
          obtain ⟨i, hi, rfl⟩ := (mem_regCoords _ _ _ _).mp hw
          have h0 := (hout ((n - 1 : Nat) : Int)).2 (by omega)
          have hii : (i : T) ≤ ((n - 1 : Nat) : T) := by exact_mod_cast (by omega : i ≤ n - 1)
          rw [Int.cast_natCast] at h0
          rcases lt_or_gt_of_ne hs with hp | hp
          · have e := h0.2 hp
            rw [abs_of_neg (by linarith), abs_of_neg (by nlinarith)]
            nlinarith
          · have e := h0.1 hp
            rw [abs_of_pos (by linarith), abs_of_pos (by nlinarith)]
            nlinarith
    · simp only [h2, if_false] at hres
      right
      subst hres
      refine ⟨start + (res : T) * step, by omega, ?_, ?_⟩
      · have hlt : res.toNat < n := by omega
        have : ((res.toNat : Nat) : T) = (res : T) := by
          rw [← Int.cast_natCast, Int.toNat_of_nonneg (by omega)]
        simp [regCoords, hlt, this]
      · intro w hw
        obtain ⟨i, hi, rfl⟩ := (mem_regCoords _ _ _ _).mp hw
        have := half_step_nearest c start step res (i : Int) hs h
        simpa using this

variable [AxisNum T] [LawfulAxisNum T]

/-- The raw index of a regular container is within half a step of the coordinate. -/
def HalfStep (r : RegData T) : Prop :=
  ∀ c, ∃ idx, AxisNum.regIndex r c = .ok idx ∧ 2 * |c - (r.start + (idx : T) * r.step)| ≤ |r.step|

theorem regular_stores (r : RegData T) (hn : 0 < r.size) (hasc : r.asc = true → 0 < r.step ∨ r.size = 1)
    (hdesc : r.asc = false → r.step < 0 ∨ r.size = 1) :
    Stores (Container.regular r) (regCoords r.start r.step r.size.toNat) := by
  have hone : ∀ R : T → T → Prop, r.size = 1 →
      (regCoords r.start r.step r.size.toNat).Pairwise R := by
    intro R h; rw [h]; simp [regCoords]
  refine ⟨?_, ?_, ?_, ?_, ?_⟩
  · rw [← List.length_pos_iff, regCoords_length]; omega
  · rw [regCoords_length]; simp only [Container.size]; omega
  · intro i h
    simp only [Container.coord]
    rw [regCoords_getElem, LawfulAxisNum.mulInt_eq]
    simp
  · intro h
    rcases hasc h with h | h
    · exact regCoords_asc _ _ _ h
    · exact hone _ h
  · intro h
    rcases hdesc h with h | h
    · exact regCoords_desc _ _ _ h
    · exact hone _ h

theorem regular_find (r : RegData T) (hn : 0 < r.size) (hs : r.step ≠ 0) (hh : HalfStep r) :
    FindOk (Container.regular r) (regCoords r.start r.step r.size.toNat) := by
  intro c b
  obtain ⟨idx, h1, h2⟩ := hh c
  simp only [Container.findIndex, h1, bind, Except.bind, pure, Except.pure]
  have key := fun res hres => regular_post c r.start r.step r.size.toNat idx b hs (by omega) h2 res hres
  by_cases ha : idx < 0
  · simp only [ha, if_true]
    exact ⟨_, rfl, key _ (by simp [ha])⟩
  · simp only [ha, if_false]
    by_cases hb : idx ≥ r.size
    · simp only [hb, if_true]
      have hb' : idx ≥ (r.size.toNat : Int) := by omega
      refine ⟨_, rfl, key _ ?_⟩
      simp only [ha, hb', if_true, if_false]
      cases b <;> simp
      omega
    · simp only [hb, if_false]
      have hb' : ¬ (idx ≥ (r.size.toNat : Int)) := by omega
      refine ⟨_, rfl, key _ ?_⟩
      simp only [ha, hb', if_false]

end

/-- Floating point regular containers satisfy the half-step condition as long as
`inv_step_ = 1 / step_`. -/
theorem halfStep_float {K : Type} [Field K] [LinearOrder K] [IsStrictOrderedRing K] [FloorRing K]
    (r : RegData K) (hs : r.step ≠ 0) (haux : r.aux = 1 / r.step) : HalfStep r := by
  intro c
  refine ⟨_, rfl, ?_⟩
  rw [haux]
  have h := Math.roundAway_near ((c - r.start) * (1 / r.step))
  set idx := Math.roundAway ((c - r.start) * (1 / r.step)) with hidx
  have e : c - (r.start + (idx : K) * r.step) = ((c - r.start) * (1 / r.step) - (idx : K)) * r.step := by
    field_simp; ring
  rw [e, abs_mul]
  nlinarith [abs_nonneg r.step]

/-- Integral regular containers satisfy it when `step_2_` is half of the absolute
value of the step. -/
theorem halfStep_int (r : RegData Int) (hs : r.step ≠ 0) (haux : r.aux = |r.step| / 2) :
    HalfStep r := by
  intro c
  simp only [AxisNum.regIndex, hs, if_false]
  refine ⟨_, rfl, ?_⟩
  rw [haux]
  simp only [Int.cast_id]
  have hdiv : ∀ m s : Int, 0 ≤ m → 0 < s → ∃ q rr, (m + s / 2).tdiv s = q ∧ m + s / 2 = s * q + rr ∧
      0 ≤ rr ∧ rr < s := by
    intro m s hm hs'
    refine ⟨_, (m + s / 2) % s, rfl, ?_, Int.emod_nonneg _ (by omega), Int.emod_lt_of_pos _ hs'⟩
    rw [Int.tdiv_eq_ediv_of_nonneg (by omega)]
    exact (Int.mul_ediv_add_emod _ _).symm
  have habs : ∀ x y : Int, (-y ≤ x ∧ x ≤ y) → |x| ≤ y := fun x y h => abs_le.mpr h
  have key : ∀ (m s : Int), 0 ≤ m → 0 < s → 2 * |m - (m + s / 2).tdiv s * s| ≤ s := by
    intro m s hm hs'
    obtain ⟨q, rr, h1, h2, h3, h4⟩ := hdiv m s hm hs'
    rw [h1]
    have : m - q * s = rr - s / 2 := by linarith
    rw [this]
    have := abs_le (a := rr - s / 2) (b := s / 2)
    rcases abs_cases (rr - s / 2) with h | h <;> omega
  rcases lt_or_gt_of_ne hs with hneg | hpos
  · rw [abs_of_neg hneg]
    split
    · rename_i hnum
      have hk := key (c - r.start) (-r.step) (by omega) (by omega)
      rw [Int.tdiv_neg] at hk
      have e : c - r.start - -(c - r.start + -r.step / 2).tdiv r.step * -r.step =
        c - (r.start + (c - r.start + -r.step / 2).tdiv r.step * r.step) := by ring
      rwa [e] at hk
    · rename_i hnum
      have hk := key (-(c - r.start)) (-r.step) (by omega) (by omega)
      have e1 : -(c - r.start) + -r.step / 2 = -(c - r.start - -r.step / 2) := by ring
      rw [e1, Int.neg_tdiv_neg] at hk
      have e : -(c - r.start) - (c - r.start - -r.step / 2).tdiv r.step * -r.step =
        -(c - (r.start + (c - r.start - -r.step / 2).tdiv r.step * r.step)) := by ring
      rwa [e, abs_neg] at hk
  · rw [abs_of_pos hpos]
    split
    · rename_i hnum
      have hk := key (c - r.start) r.step (by omega) (by omega)
      have e : c - r.start - (c - r.start + r.step / 2).tdiv r.step * r.step =
        c - (r.start + (c - r.start + r.step / 2).tdiv r.step * r.step) := by ring
      rwa [e] at hk
    · rename_i hnum
      have hk := key (-(c - r.start)) r.step (by omega) (by omega)
      have e1 : -(c - r.start) + r.step / 2 = -(c - r.start - r.step / 2) := by ring
      rw [e1, Int.neg_tdiv] at hk
      have e : -(c - r.start) - -(c - r.start - r.step / 2).tdiv r.step * r.step =
        -(c - (r.start + (c - r.start - r.step / 2).tdiv r.step * r.step)) := by ring
      rwa [e, abs_neg] at hk

end Pyinterp
