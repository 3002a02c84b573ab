import Verif.Lemmas.Coordinates
import Mathlib.Data.Rat.Floor
import Mathlib.Tactic.FieldSimp

/-!
C58 – the coordinates of an axis are the values it was built from (up to the
tolerance for values recognised as evenly spaced), angles being unwrapped by at
most one turn.
-/
namespace Pyinterp
open Spec
set_option linter.unusedVariables false
set_option linter.unusedSectionVars false

/-- `w` is `v` where each value may have been moved by one turn, all in the same
direction; nothing moves when the axis does not hold angles. -/
def Spec.SameAngles {T : Type} [CommRing T] (ang : Bool) (v w : List T) : Prop :=
  (ang = false → w = v) ∧
  (List.Forall₂ (fun x y => y = x ∨ y = x + 360) v w ∨
   List.Forall₂ (fun x y => y = x ∨ y = x - 360) v w)

section
variable {T : Type} [CommRing T] [LinearOrder T] [IsStrictOrderedRing T] [AxisNum T] [LawfulAxisNum T]

theorem forall₂_refl_or (v : List T) (c : T) : List.Forall₂ (fun x y => y = x ∨ y = x + c) v v := by
  induction v with
  | nil => exact List.Forall₂.nil
  | cons x v ih => exact List.Forall₂.cons (Or.inl rfl) ih

theorem unwrapFrom_forall₂ (asc : Bool) (circle : T) (prev : T) (cross : Bool) (v : List T) :
    List.Forall₂ (fun x y => y = x ∨ y = x + (if asc then circle else -circle)) v
      (unwrapFrom asc circle prev cross v) := by
  induction v generalizing prev cross with
  | nil => exact List.Forall₂.nil
  | cons x v ih =>
    unfold unwrapFrom
    refine List.Forall₂.cons ?_ (ih _ _)
    generalize (if (!cross) = true then (if asc = true then decide (prev > x) else decide (prev < x))
      else cross) = b
    cases b
    · exact Or.inl rfl
    · exact Or.inr rfl

theorem sameAngles_refl (ang : Bool) (v : List T) : SameAngles ang v v :=
  ⟨fun _ => rfl, Or.inl (forall₂_refl_or v 360)⟩

theorem sameAngles_normalize {v w : List T} (h : normalizeLongitude (360 : T) v = some w) :
    SameAngles true v w := by
  refine ⟨by simp, ?_⟩
  unfold normalizeLongitude at h
  simp only at h
  split at h
  · cases h
  · cases v with
    | nil => cases h
    | cons x l =>
      simp only [Option.some.injEq] at h
      subst h
      have := unwrapFrom_forall₂ (isAscendingList (x :: l)) (360 : T) x false l
      cases hb : isAscendingList (x :: l)
      · rw [hb] at this
        right
        refine List.Forall₂.cons (Or.inl rfl) ?_
        simpa [sub_eq_add_neg] using this
      · rw [hb] at this
        left
        refine List.Forall₂.cons (Or.inl rfl) ?_
        simpa using this

theorem initialize_cases {it : Bool} {circle : Option T} {w : List T} {eps : T} {a : Axis T}
    (h : initializeFromValues it circle w eps = .ok a) :
    (a.isRegular = false ∧ contList a.cont = w) ∨
    (a.isRegular = true ∧ ∃ x y, w = x :: y ∧ 2 ≤ w.length ∧
      evenlyLoop (AxisNum.divInt (y.getLastD x - x) ((w.length : Int) - 1)) eps w = true ∧
      contList a.cont = regCoords x (AxisNum.divInt (y.getLastD x - x) ((w.length : Int) - 1)) w.length) := by
  unfold initializeFromValues at h
  split at h
  · rename_i inc x y he
    right
    simp only [bind, Except.bind] at h
    split at h
    · cases h
    · rename_i k hk
      have hc := (computeProperties_ok h).1
      have hlen : 2 ≤ (x :: y).length := by
        cases y with
        | nil => simp [isEvenlySpaced] at he
        | cons z zs => simp
      refine ⟨?_, x, y, rfl, hlen, ?_, ?_⟩
      · unfold mkRegular at hk
        split at hk
        · cases hk
        · split at hk
          · cases hk
          · split at hk
            · cases hk
            · cases hk
              simp [Axis.isRegular, hc]
      · cases y with
        | nil => simp at hlen
        | cons z zs =>
          unfold isEvenlySpaced at he
          simp only at he
          split at he
          · cases he
          · split at he
            · assumption
            · cases he
      · unfold mkRegular at hk
        split at hk
        · cases hk
        · split at hk
          · cases hk
          · split at hk
            · cases hk
            · cases hk
              rw [hc]
              have : ¬ (((x :: y).length : Int) = 1) := by omega
              simp only [contList, this, if_false, Int.toNat_natCast]
  · left
    simp only [bind, Except.bind] at h
    split at h
    · cases h
    · rename_i k hk
      have hc := (computeProperties_ok h).1
      obtain ⟨_, hk2⟩ := mkIrregular_ok hk
      rw [hk2] at hc
      exact ⟨by simp [Axis.isRegular, hc], by simp [contList, hc]⟩

theorem mkAxis_cases {it ang : Bool} {v : List T} {eps : T} {a : Axis T}
    (h : mkAxis it v eps ang = .ok a) :
    ∃ w, SameAngles ang v w ∧
      initializeFromValues it (if ang then some (AxisNum.ofInt 360) else none) w eps = .ok a := by
  unfold mkAxis at h
  cases ang
  · exact ⟨v, sameAngles_refl _ v, by simpa using h⟩
  · simp only [if_true] at h
    rw [ofInt360] at h
    split at h
    · rename_i w hw
      exact ⟨w, sameAngles_normalize hw, by simpa [ofInt360] using h⟩
    · exact ⟨v, sameAngles_refl _ v, by simpa [ofInt360] using h⟩

theorem evenly_bound (inc eps δ : T) (hδ : ∀ d, AxisNum.isSame d inc eps = true → |d - inc| ≤ δ)
    (x : T) (l : List T) (h : evenlyLoop inc eps (x :: l) = true) (i : Nat)
    (hi : i < (x :: l).length) : |(x + (i : T) * inc) - (x :: l)[i]| ≤ (i : T) * δ := by
  induction l generalizing x i with
  | nil =>
    have : i = 0 := by simpa using hi
    subst this; simp
  | cons y l ih =>
    simp only [evenlyLoop, Bool.and_eq_true] at h
    cases i with
    | zero => simp
    | succ i =>
      have h1 := hδ _ h.1
      have hi2 : i < (y :: l).length := by simpa using hi
      have h2 := ih y h.2 i hi2
      simp only [List.getElem_cons_succ]
      have e : x + ((i + 1 : Nat) : T) * inc - (y :: l)[i] =
          (y + (i : T) * inc - (y :: l)[i]) - (y - x - inc) := by push_cast; ring
      rw [e]
      calc |(y + (i : T) * inc - (y :: l)[i]) - (y - x - inc)|
          ≤ |y + (i : T) * inc - (y :: l)[i]| + |y - x - inc| := abs_sub _ _
        _ ≤ (i : T) * δ + δ := add_le_add h2 h1
        _ = ((i + 1 : Nat) : T) * δ := by push_cast; ring

end

section
variable {K : Type} [Field K] [LinearOrder K] [IsStrictOrderedRing K] [FloorRing K]

/-- **C58** Floating point axis built from values with a tolerance `0 ≤ eps < 1`:
there are as many coordinates as values; up to at most one turn for angles, the
coordinates of an irregular axis are the given values, and coordinate `i` of a
regular axis differs from the given value by at most `i` times
`eps * max(1, step / (1 - eps))`; in all cases the first coordinate is the first
value. -/
theorem C58_values (v l : List K) (eps : K) (h0 : 0 ≤ eps) (h1 : eps < 1) (ang : Bool) (a : Axis K)
    (h : mkAxis false v eps ang = .ok a) (hl : Coordinates a l) :
    ∃ w, SameAngles ang v w ∧ l.length = w.length ∧
      (a.isRegular = false → l = w) ∧
      ∀ i (hi : i < l.length) (hi' : i < w.length) (hn : 1 < l.length),
        |l[i] - w[i]| ≤ (i : K) * (eps * max (1 : K) (|l[1] - l[0]| / (1 - eps))) := by
  have hreach : Reach false a := .values v eps ang a h0 h
  have hcl := coordinates_eq_contList hreach hl
  obtain ⟨w, hw, hinit⟩ := mkAxis_cases h
  have heps : 0 < 1 - eps := by linarith
  have hnn : ∀ t : K, 0 ≤ eps * max 1 t := fun t => mul_nonneg h0 (le_trans zero_le_one (le_max_left _ _))
  refine ⟨w, hw, ?_⟩
  rcases initialize_cases hinit with ⟨_, hc⟩ | ⟨hr, x, y, e1, e2, e3, e4⟩
  · rw [hc] at hcl
    subst hcl
    refine ⟨rfl, fun _ => rfl, fun i hi hi' hn => ?_⟩
    rw [sub_self, abs_zero]
    exact mul_nonneg (Nat.cast_nonneg _) (hnn _)
  · have hlen : l.length = w.length := by rw [hcl, e4]; simp
    generalize hinc : AxisNum.divInt (y.getLastD x - x) ((w.length : Int) - 1) = inc at e3 e4
    have hδ : ∀ d, AxisNum.isSame d inc eps = true → |d - inc| ≤ eps * max 1 (|inc| / (1 - eps)) := by
      intro d hd
      simp only [AxisNum.isSame, Bool.or_eq_true, decide_eq_true_eq] at hd
      rcases hd with hd | hd
      · refine le_trans hd ?_
        exact le_mul_of_one_le_right h0 (le_max_left _ _)
      · have hm : max |d| |inc| ≤ |inc| + |d - inc| := by
          apply max_le
          · calc |d| = |inc + (d - inc)| := by ring_nf
              _ ≤ |inc| + |d - inc| := abs_add_le _ _
          · linarith [abs_nonneg (d - inc)]
        have h2 : |d - inc| ≤ (|inc| + |d - inc|) * eps :=
          le_trans hd.le (mul_le_mul_of_nonneg_right hm h0)
        have h3 : |d - inc| ≤ eps * (|inc| / (1 - eps)) := by
          rw [← mul_div_assoc, le_div_iff₀ heps]; nlinarith
        exact le_trans h3 (mul_le_mul_of_nonneg_left (le_max_right _ _) h0)
    refine ⟨hlen, ?_, ?_⟩
    · intro hirr
      rw [hr] at hirr; cases hirr
    · intro i hi hi' hn
      have hstep : l[1] - l[0] = inc := by
        have a1 : l[1] = x + ((1 : Nat) : K) * inc := by
          simp only [hcl, e4]; rw [regCoords_getElem]
        have a0 : l[0] = x + ((0 : Nat) : K) * inc := by
          simp only [hcl, e4]; rw [regCoords_getElem]
        rw [a1, a0]; push_cast; ring
      rw [hstep]
      have hli : l[i] = x + (i : K) * inc := by
        simp only [hcl, e4]; rw [regCoords_getElem]
      rw [hli]
      subst e1
      exact evenly_bound inc eps _ hδ x y e3 i hi'


/-- **C58** With a null tolerance the coordinates are exactly the given values. -/
theorem C58_values_exact (v l : List K) (ang : Bool) (a : Axis K)
    (h : mkAxis false v 0 ang = .ok a) (hl : Coordinates a l) : SameAngles ang v l := by
  obtain ⟨w, hw, h1, h2, h3⟩ := C58_values v l 0 (le_refl _) zero_lt_one ang a h hl
  have : l = w := by
    by_cases hn : 1 < l.length
    · apply List.ext_getElem h1
      intro i hi hi'
      have := h3 i hi hi' hn
      rw [zero_mul, mul_zero] at this
      exact sub_eq_zero.1 (abs_eq_zero.1 (le_antisymm this (abs_nonneg _)))
    · apply h2
      rcases initialize_cases (mkAxis_cases h).choose_spec.2 with ⟨hr, _⟩ | ⟨hr, x, y, e1, e2, e3, e4⟩
      · exact hr
      · exfalso
        have hcl := coordinates_eq_contList (.values v 0 ang a (le_refl _) h) hl
        rw [hcl, e4] at hn
        simp at hn; omega
  rw [this]; exact hw
end

/-- **C58** Integer axis with a null tolerance (`TemporalAxis`, `AxisInt64` with
`epsilon = 0`): the coordinates are exactly the given values. -/
theorem C58_values_int (v l : List Int) (ang : Bool) (a : Axis Int)
    (h : mkAxis true v 0 ang = .ok a) (hl : Coordinates a l) : SameAngles ang v l := by
  have hinv : AxisInv AuxW a :=
    mkAxis_inv (fun _ _ _ _ k h1 h2 hk => mkRegular_int (le_refl _) h1 h2 hk) h
  have hcl : l = contList a.cont := coordinates_unique hl hinv.1.stores.coordinates
  obtain ⟨w, hw, hinit⟩ := mkAxis_cases h
  have : l = w := by
    rcases initialize_cases hinit with ⟨_, hc⟩ | ⟨hr, x, y, e1, e2, e3, e4⟩
    · rw [hcl, hc]
    · generalize hinc : AxisNum.divInt (y.getLastD x - x) ((w.length : Int) - 1) = inc at e3 e4
      rw [hcl, e4]
      apply List.ext_getElem (by simp)
      intro i hi hi'
      rw [regCoords_getElem]
      subst e1
      have := evenly_bound inc 0 0 (by intro d hd; simpa [AxisNum.isSame] using hd) x y e3 i hi'
      rw [mul_zero] at this
      exact sub_eq_zero.1 (abs_eq_zero.1 (le_antisymm this (abs_nonneg _)))
  rw [this]; exact hw

/-! ### angles that cross the origin -/
section
variable {T : Type} [CommRing T] [LinearOrder T] [IsStrictOrderedRing T] [AxisNum T] [LawfulAxisNum T]

theorem unwrapFrom_true (asc : Bool) (c prev : T) (l : List T) :
    unwrapFrom asc c prev true l = l.map (fun x => x + (if asc then c else -c)) := by
  induction l generalizing prev with
  | nil => rfl
  | cons x l ih => simp [unwrapFrom, ih]

theorem unwrapFrom_asc (c prev : T) (A : List T) (b : T) (B : List T)
    (hA : (prev :: A).Pairwise (· < ·)) (hb : ∀ x ∈ prev :: A, b < x) :
    unwrapFrom true c prev false (A ++ b :: B) = A ++ (b :: B).map (· + c) := by
  induction A generalizing prev with
  | nil =>
    have := hb prev (by simp)
    simp [unwrapFrom, this, unwrapFrom_true]
  | cons x A ih =>
    have hA' := List.pairwise_cons.1 hA
    have hlt : ¬ (prev > x) := not_lt.2 (hA'.1 x (by simp)).le
    have := ih x hA'.2 (fun y hy => hb y (by simp [List.mem_cons.1 hy]))
    simp [unwrapFrom, hlt] at this ⊢
    exact this

theorem unwrapFrom_desc (c prev : T) (A : List T) (b : T) (B : List T)
    (hA : (prev :: A).Pairwise (· > ·)) (hb : ∀ x ∈ prev :: A, x < b) :
    unwrapFrom false c prev false (A ++ b :: B) = A ++ (b :: B).map (· - c) := by
  induction A generalizing prev with
  | nil =>
    have := hb prev (by simp)
    simp [unwrapFrom, this, unwrapFrom_true, sub_eq_add_neg]
  | cons x A ih =>
    have hA' := List.pairwise_cons.1 hA
    have hlt : ¬ (prev < x) := not_lt.2 (le_of_lt (hA'.1 x (by simp)))
    have := ih x hA'.2 (fun y hy => hb y (by simp [List.mem_cons.1 hy]))
    simp [unwrapFrom, hlt] at this ⊢
    exact this

theorem not_strictlyMonotonic_asc (x : T) (A : List T) (b : T) (B : List T)
    (hb : ∀ y ∈ x :: A, b < y) : strictlyMonotonic true (x :: A ++ b :: B) = false := by
  induction A generalizing x with
  | nil =>
    have := hb x (by simp)
    simp [strictlyMonotonic, this.le]
  | cons y A ih =>
    have := ih y (fun z hz => hb z (by simp [List.mem_cons.1 hz]))
    simp only [List.cons_append] at this ⊢
    simp [strictlyMonotonic, this]

theorem not_strictlyMonotonic_desc (x : T) (A : List T) (b : T) (B : List T)
    (hb : ∀ y ∈ x :: A, y < b) : strictlyMonotonic false (x :: A ++ b :: B) = false := by
  induction A generalizing x with
  | nil =>
    have := hb x (by simp)
    simp [strictlyMonotonic, this.le]
  | cons y A ih =>
    have := ih y (fun z hz => hb z (by simp [List.mem_cons.1 hz]))
    simp only [List.cons_append] at this ⊢
    simp [strictlyMonotonic, this]

/-- **C58** Increasing longitudes that cross the origin once (`A` then `B`, the
values of `B` being in the turn below): the second part is moved one turn up and
the axis that is built holds strictly increasing values. -/
theorem C58_unwrap_increasing (x y : T) (A B : List T) (b : T)
    (hA : (x :: y :: A).Pairwise (· < ·)) (hB : (b :: B).Pairwise (· < ·))
    (hlow : ∀ u ∈ x :: y :: A, ∀ w ∈ b :: B, w < u ∧ u < w + 360) :
    normalizeLongitude (360 : T) ((x :: y :: A) ++ (b :: B)) =
      some ((x :: y :: A) ++ (b :: B).map (· + 360)) ∧
    ((x :: y :: A) ++ (b :: B).map (· + 360)).Pairwise (· < ·) := by
  have hxy : x < y := (List.pairwise_cons.1 hA).1 y (by simp)
  have hb : ∀ u ∈ x :: y :: A, b < u := fun u hu => (hlow u hu b (by simp)).1
  constructor
  · have h1 := not_strictlyMonotonic_asc x (y :: A) b B hb
    have h2 := unwrapFrom_asc (360 : T) x (y :: A) b B hA hb
    unfold normalizeLongitude
    have h3 : isAscendingList ((x :: y :: A) ++ (b :: B)) = true := by
      simp [isAscendingList, hxy]
    simp only [h3]
    rw [h1]
    simp only [Bool.false_eq_true, if_false, List.cons_append]
    rw [← List.cons_append, h2]
    rfl
  · rw [List.pairwise_append]
    refine ⟨hA, ?_, ?_⟩
    · rw [List.pairwise_map]
      exact hB.imp (fun h => by linarith)
    · intro u hu w hw
      obtain ⟨w', hw', rfl⟩ := List.mem_map.1 hw
      exact (hlow u hu w' hw').2

/-- **C58** The same for decreasing longitudes: the second part is moved one turn
down. -/
theorem C58_unwrap_decreasing (x y : T) (A B : List T) (b : T)
    (hA : (x :: y :: A).Pairwise (· > ·)) (hB : (b :: B).Pairwise (· > ·))
    (hhigh : ∀ u ∈ x :: y :: A, ∀ w ∈ b :: B, u < w ∧ w - 360 < u) :
    normalizeLongitude (360 : T) ((x :: y :: A) ++ (b :: B)) =
      some ((x :: y :: A) ++ (b :: B).map (· - 360)) ∧
    ((x :: y :: A) ++ (b :: B).map (· - 360)).Pairwise (· > ·) := by
  have hxy : y < x := (List.pairwise_cons.1 hA).1 y (by simp)
  have hb : ∀ u ∈ x :: y :: A, u < b := fun u hu => (hhigh u hu b (by simp)).1
  constructor
  · have h1 := not_strictlyMonotonic_desc x (y :: A) b B hb
    have h2 := unwrapFrom_desc (360 : T) x (y :: A) b B hA hb
    unfold normalizeLongitude
    have h3 : isAscendingList ((x :: y :: A) ++ (b :: B)) = false := by
      simp [isAscendingList, hxy.le]
    simp only [h3]
    rw [h1]
    simp only [Bool.false_eq_true, if_false, List.cons_append]
    rw [← List.cons_append, h2]
    rfl
  · rw [List.pairwise_append]
    refine ⟨hA, ?_, ?_⟩
    · rw [List.pairwise_map]
      exact hB.imp (fun h => by simpa using h)
    · intro u hu w hw
      obtain ⟨w', hw', rfl⟩ := List.mem_map.1 hw
      exact (hhigh u hu w' hw').2
end

-- Longitudes 350, 355, 0, 5, 11: unwrapped to 350, 355, 360, 365, 371.
example : normalizeLongitude (360 : ℚ) [350, 355, 0, 5, 11] = some [350, 355, 360, 365, 371] := by
  decide +kernel
example : normalizeLongitude (360 : ℚ) [5, 0, 355, 350] = some [5, 0, -5, -10] := by decide +kernel
example : ∃ a, mkAxis false [(350 : ℚ), 355, 0, 5, 11] (1/1000000) true = .ok a ∧
    Coordinates a [(350 : ℚ), 355, 360, 365, 371] :=
  ⟨⟨false, some 360, .irregular [350, 355, 360, 365, 371] true⟩, by decide +kernel, rfl,
    by decide +kernel⟩

/-- Two values are not enough to find the direction: the axis built from the
increasing longitudes 355, 0 (0 is 360) is the decreasing axis 355, 0. -/
theorem C58_witness_two_values :
    ∃ a, mkAxis false [(355 : ℚ), 0] (1/1000000) true = .ok a ∧ Coordinates a [(355 : ℚ), 0] :=
  ⟨⟨false, some 360, .regular ⟨2, 355, -355, -1/355, false⟩⟩, by decide +kernel, rfl,
    by decide +kernel⟩

end Pyinterp
