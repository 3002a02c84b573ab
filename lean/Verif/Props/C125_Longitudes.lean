import Verif.Props.C125_CircleDouble
import Verif.Props.C58_Values
import Verif.Lemmas.DoubleStats

/-
C125, continued: the construction of an axis of longitudes in doubles: values that cross the origin, and the recognition of a
complete circle.
-/
namespace Pyinterp.Double

open Spec Pyinterp

theorem ax_unwrap_true (asc : Bool) (prev : ℚ) (l : List ℚ) :
    Ax.unwrapFrom asc prev true l = l.map (fun x => add x (if asc then 360 else -360)) := by
  induction l generalizing prev with
  | nil => rfl
  | cons x l ih => simp [Ax.unwrapFrom, ih]

theorem ax_unwrap_asc (prev : ℚ) (A : List ℚ) (b : ℚ) (B : List ℚ) (hA : (prev :: A).Pairwise (· < ·))
    (hb : ∀ x ∈ prev :: A, b < x) :
    Ax.unwrapFrom true prev false (A ++ b :: B) = A ++ (b :: B).map (fun w => add w 360) := by
  induction A generalizing prev with
  | nil =>
    have := hb prev (by simp)
    simp [Ax.unwrapFrom, this, ax_unwrap_true]
  | cons x A ih =>
    have hA' := List.pairwise_cons.1 hA
    have hlt : ¬ (prev > x) := not_lt.2 (hA'.1 x (by simp)).le
    have := ih x hA'.2 (fun y hy => hb y (by simp [List.mem_cons.1 hy]))
    simp [Ax.unwrapFrom, hlt] at this ⊢
    exact this

theorem ax_unwrap_desc (prev : ℚ) (A : List ℚ) (b : ℚ) (B : List ℚ) (hA : (prev :: A).Pairwise (· > ·))
    (hb : ∀ x ∈ prev :: A, x < b) :
    Ax.unwrapFrom false prev false (A ++ b :: B) = A ++ (b :: B).map (fun w => add w (-360)) := by
  induction A generalizing prev with
  | nil =>
    have := hb prev (by simp)
    simp [Ax.unwrapFrom, this, ax_unwrap_true]
  | cons x A ih =>
    have hA' := List.pairwise_cons.1 hA
    have hlt : ¬ (prev < x) := not_lt.2 (le_of_lt (hA'.1 x (by simp)))
    have := ih x hA'.2 (fun y hy => hb y (by simp [List.mem_cons.1 hy]))
    simp [Ax.unwrapFrom, hlt] at this ⊢
    exact this

theorem monotonic_asc {l : List ℚ} (h : l.Pairwise (· < ·)) : strictlyMonotonic true l = true := by
  induction l with
  | nil => rfl
  | cons x l ih =>
    cases l with
    | nil => rfl
    | cons y l =>
      have h' := List.pairwise_cons.1 h
      simp [strictlyMonotonic, h'.1 y (by simp), ih h'.2]

theorem monotonic_desc {l : List ℚ} (h : l.Pairwise (· > ·)) : strictlyMonotonic false l = true := by
  induction l with
  | nil => rfl
  | cons x l ih =>
    cases l with
    | nil => rfl
    | cons y l =>
      have h' := List.pairwise_cons.1 h
      have : y < x := h'.1 y (by simp)
      simp [strictlyMonotonic, this, ih h'.2]

theorem ascending_of_pairwise {l : List ℚ} (h : l.Pairwise (· < ·)) : isAscendingList l = true := by
  match l, h with
  | [], _ => rfl
  | [_], _ => rfl
  | a :: b :: l, h => simpa [isAscendingList] using (List.pairwise_cons.1 h).1 b (by simp)

theorem descending_of_pairwise {l : List ℚ} (h2 : 2 ≤ l.length) (h : l.Pairwise (· > ·)) : isAscendingList l = false := by
  match l, h with
  | [], _ => simp at h2
  | [_], _ => simp at h2
  | a :: b :: l, h => simpa [isAscendingList] using le_of_lt ((List.pairwise_cons.1 h).1 b (by simp))

/-- Longitudes in strict order are kept as they are. -/
theorem ordered_kept {l : List ℚ} (h2 : 2 ≤ l.length) (h : l.Pairwise (· < ·) ∨ l.Pairwise (· > ·)) :
    Ax.normalizeLongitude l = none := by
  unfold Ax.normalizeLongitude
  rcases h with h | h
  · simp [ascending_of_pairwise h, monotonic_asc h]
  · simp [descending_of_pairwise h2 h, monotonic_desc h]

theorem ofValues_unwrapped {l l' : List ℚ} (h : Ax.normalizeLongitude l = some l') (h2 : 2 ≤ l'.length)
    (hl : l'.Pairwise (· < ·) ∨ l'.Pairwise (· > ·)) (eps : ℚ) : Ax.ofValues l eps true = Ax.ofValues l' eps true := by
  unfold Ax.ofValues
  rw [h, ordered_kept h2 hl]
  rfl

/-- **C125**: increasing longitudes that cross the origin once (`A`, then `B` in the turn below): the axis is the one of `A` and of
the values of `B` plus 360, rounded. These are in increasing order, strictly if no two of them are rounded to the same one. -/
theorem C125_unwrap_increasing {x y b : ℚ} {A B : List ℚ} (dA : ∀ u ∈ x :: y :: A, IsDouble u)
    (hA : (x :: y :: A).Pairwise (· < ·)) (hB : (b :: B).Pairwise (· < ·))
    (hlow : ∀ u ∈ x :: y :: A, ∀ w ∈ b :: B, w < u ∧ u < w + 360) :
    let l := (x :: y :: A) ++ (b :: B).map (fun w => fl (w + 360))
    l.Pairwise (· ≤ ·) ∧
    (l.Pairwise (· ≠ ·) → ∀ eps, Ax.ofValues ((x :: y :: A) ++ (b :: B)) eps true = Ax.ofValues l eps true) := by
  intro l
  have hxy : x < y := (List.pairwise_cons.1 hA).1 y (by simp)
  have hb : ∀ u ∈ x :: y :: A, b < u := fun u hu => (hlow u hu b (by simp)).1
  have ord : l.Pairwise (· ≤ ·) := by
    rw [List.pairwise_append]
    refine ⟨hA.imp le_of_lt, ?_, ?_⟩
    · rw [List.pairwise_map]
      exact hB.imp (fun h => fl_mono (by linarith))
    · intro u hu w hw
      obtain ⟨w', hw', rfl⟩ := List.mem_map.1 hw
      exact le_fl_of_double (dA u hu) (hlow u hu w' hw').2.le
  refine ⟨ord, fun hne eps => ofValues_unwrapped ?_ (by simp [l]) (Or.inl ?_) eps⟩
  · have h1 := not_strictlyMonotonic_asc x (y :: A) b B hb
    have h2 := ax_unwrap_asc x (y :: A) b B hA hb
    unfold Ax.normalizeLongitude
    have h3 : isAscendingList ((x :: y :: A) ++ (b :: B)) = true := by simp [isAscendingList, hxy]
    simp only [h3]
    rw [h1]
    simp only [Bool.false_eq_true, if_false, List.cons_append]
    rw [← List.cons_append, h2]
    rfl
  · exact (ord.and hne).imp (fun h => lt_of_le_of_ne h.1 h.2)

/-- **C125**: the same for decreasing longitudes: 360 is subtracted from the second part. -/
theorem C125_unwrap_decreasing {x y b : ℚ} {A B : List ℚ} (dA : ∀ u ∈ x :: y :: A, IsDouble u)
    (hA : (x :: y :: A).Pairwise (· > ·)) (hB : (b :: B).Pairwise (· > ·))
    (hhigh : ∀ u ∈ x :: y :: A, ∀ w ∈ b :: B, u < w ∧ w - 360 < u) :
    let l := (x :: y :: A) ++ (b :: B).map (fun w => fl (w - 360))
    l.Pairwise (· ≥ ·) ∧
    (l.Pairwise (· ≠ ·) → ∀ eps, Ax.ofValues ((x :: y :: A) ++ (b :: B)) eps true = Ax.ofValues l eps true) := by
  intro l
  have hxy : y < x := (List.pairwise_cons.1 hA).1 y (by simp)
  have hb : ∀ u ∈ x :: y :: A, u < b := fun u hu => (hhigh u hu b (by simp)).1
  have ord : l.Pairwise (· ≥ ·) := by
    rw [List.pairwise_append]
    refine ⟨hA.imp le_of_lt, ?_, ?_⟩
    · rw [List.pairwise_map]
      exact hB.imp (fun h => fl_mono (by linarith))
    · intro u hu w hw
      obtain ⟨w', hw', rfl⟩ := List.mem_map.1 hw
      exact fl_le_of_double (dA u hu) (hhigh u hu w' hw').2.le
  refine ⟨ord, fun hne eps => ofValues_unwrapped ?_ (by simp [l]) (Or.inr ?_) eps⟩
  · have h1 := not_strictlyMonotonic_desc x (y :: A) b B hb
    have h2 := ax_unwrap_desc x (y :: A) b B hA hb
    unfold Ax.normalizeLongitude
    have h3 : isAscendingList ((x :: y :: A) ++ (b :: B)) = false := by simp [isAscendingList, hxy.le]
    simp only [h3]
    rw [h1]
    simp only [Bool.false_eq_true, if_false, List.cons_append]
    rw [← List.cons_append, h2]
    simp only [l, add, sub_eq_add_neg]
    rfl
  · exact (ord.and hne).imp (fun h => lt_of_le_of_ne h.1 h.2.symm)

/- The hypotheses on longitudes of which the second part is rounded when 360 is added. -/
example : Ax.ofValues [350, 355, 1 / 10, 5, 11] (1 / 2 ^ 20) true =
    Ax.ofValues [350, 355, fl (360 + 1 / 10), 365, 371] (1 / 2 ^ 20) true ∧
    (∃ a, Ax.ofValues [350, 355, 1 / 10, 5, 11] (1 / 2 ^ 20) true = .ok a) ∧ fl (360 + 1 / 10) ≠ 360 + 1 / 10 := by
  refine ⟨by decide +kernel, ?_, by decide +kernel⟩
  exact ⟨{ isCircle := false, angle := true, cont := .irregular [350, 355, fl (360 + 1 / 10), 365, 371] true }, by decide +kernel⟩

example : Ax.ofValues [11, 5, 1, 359, 350] (1 / 2 ^ 20) true =
    .ok { isCircle := false, angle := true, cont := .irregular [11, 5, 1, -1, -10] false } := by decide +kernel

/-- C125, what is false: longitudes in strict order that cross the origin are not always accepted: 0 and 2^-60 are both 360 once
rounded. -/
theorem C125_unwrap_false :
    ∃ A B : List ℚ, (∀ u ∈ A ++ B, IsDouble u) ∧ A.Pairwise (· < ·) ∧ B.Pairwise (· < ·) ∧
      (∀ u ∈ A, ∀ w ∈ B, w < u ∧ u < w + 360) ∧ Ax.ofValues (A ++ B) (1 / 2 ^ 20) true = .error .exn := by
  refine ⟨[350, 355], [0, 1 / 2 ^ 60], ?_, by norm_num, by norm_num, ?_, by decide +kernel⟩
  · intro u hu
    have h : u = ((350 : ℤ) : ℚ) ∨ u = ((355 : ℤ) : ℚ) ∨ u = ((0 : ℤ) : ℚ) ∨ u = 1 / 2 ^ 60 := by simpa using hu
    rcases h with rfl | rfl | rfl | rfl
    · exact isDouble_int (by norm_num)
    · exact isDouble_int (by norm_num)
    · exact isDouble_int (by norm_num)
    · exact ⟨1, -60, by norm_num, by norm_num, by norm_num⟩
  · intro u hu w hw
    simp only [List.mem_cons, List.not_mem_nil, or_false] at hu hw
    rcases hu with rfl | rfl <;> rcases hw with rfl | rfl <;> norm_num

/-! ### the recognition of a complete circle -/

/-- The flag of an irregular axis of longitudes. -/
theorem circle_flag {values : List ℚ} {eps : ℚ} {a : Ax} {l : List ℚ} {asc : Bool} (hd : ∀ x ∈ values, IsDouble x)
    (h2 : 2 ≤ values.length) (e : Ax.ofValues values eps true = .ok a) (hk : a.cont = .irregular l asc) {fr bk : ℚ}
    (h0 : a.cont.coord 0 = .ok fr) (h1 : a.cont.coord (a.cont.size - 1) = .ok bk) :
    a.isCircle = decide (|sub (sub (max fr bk) (min fr bk)) 360| ≤ div (sub bk fr) (a.cont.size - 1 : ℤ)) ∧
      IsDouble fr ∧ IsDouble bk ∧ (asc = true → fr < bk) ∧ (asc = false → bk < fr) := by
  have hb : Built a := .values hd h2 e (by intro r hr; rw [hk] at hr; cases hr)
  obtain ⟨⟨n, f, C⟩, -⟩ := built_coords hb
  have two := C.two
  have hasc : a.cont.asc = asc := by rw [hk]; rfl
  obtain ⟨rfl, rfl, -⟩ := C.ends h0 h1 C.min_eq
  have hlt : (asc = true → f 0 < f (n - 1)) ∧ (asc = false → f (n - 1) < f 0) :=
    ⟨fun h => C.up (hasc.trans h) 0 (n - 1) le_rfl (by omega) (by omega),
     fun h => C.down (hasc.trans h) 0 (n - 1) le_rfl (by omega) (by omega)⟩
  refine ⟨?_, C.double 0 le_rfl (by omega), C.double (n - 1) (by omega) (by omega), hlt.1, hlt.2⟩
  unfold Ax.ofValues at e
  rw [if_pos rfl] at e
  unfold Ax.initializeFromValues at e
  split at e
  · obtain ⟨r, -, e⟩ := bind_okD e
    obtain ⟨e1, -⟩ := compute_cont e
    rw [hk] at e1; cases e1
  · split at e
    · cases e
    obtain ⟨e1, -⟩ := compute_cont e
    unfold Ax.computeProperties at e
    rw [← e1, hk] at e
    rw [hk] at C h0 h1
    have hsz := C.size
    simp only [hsz, if_neg (show ¬ n = 0 by omega), if_neg (show ¬ n = 1 by omega), C.max_eq, C.min_eq,
      C.coord 0 le_rfl (by omega), C.coord (n - 1) (by omega) (by omega), bind, Except.bind, pure, Except.pure, Bool.not_true,
      Bool.false_eq_true, if_false] at e
    split at e
    · cases e
    cases e
    simp only [hsz]
    cases asc
    · rw [max_eq_left (hlt.2 rfl).le, min_eq_right (hlt.2 rfl).le]; rfl
    · rw [max_eq_right (hlt.1 rfl).le, min_eq_left (hlt.1 rfl).le]; rfl

theorem abs_sub_sub_le {a b c : ℚ} : |(|a - c| - |b - c|)| ≤ |a - b| := by
  have := abs_abs_sub_abs_le (a - c) (b - c)
  simpa using this

/-- **C125**: an irregular axis of increasing longitudes is a complete circle if the distance from the last to the first of the
next turn is at most the mean step, and is not if it is more, up to 2^-40 degrees. -/
theorem C125_circle_irregular {values : List ℚ} {eps : ℚ} {a : Ax} {l : List ℚ} (hd : ∀ x ∈ values, IsDouble x)
    (h2 : 2 ≤ values.length) (e : Ax.ofValues values eps true = .ok a) (hk : a.cont = .irregular l true) {fr bk : ℚ}
    (h0 : a.cont.coord 0 = .ok fr) (h1 : a.cont.coord (a.cont.size - 1) = .ok bk) (hw : bk - fr ≤ 2 ^ 10) :
    let gap := |bk - fr - 360|
    let step := (bk - fr) / (a.cont.size - 1 : ℤ)
    (gap + 2 ^ (-40 : ℤ) ≤ step → a.isCircle = true) ∧ (step + 2 ^ (-40 : ℤ) < gap → a.isCircle = false) := by
  intro gap step
  obtain ⟨hc, -, -, hlt, -⟩ := circle_flag hd h2 e hk h0 h1
  have hlt := hlt rfl
  rw [max_eq_right hlt.le, min_eq_left hlt.le] at hc
  have hn : (2 : ℤ) ≤ a.cont.size := by
    obtain ⟨⟨n, f, C⟩, -⟩ := built_coords (.values hd h2 e (by intro r hr; rw [hk] at hr; cases hr))
    rw [C.size]; exact C.two
  have hn' : (1 : ℚ) ≤ ((a.cont.size - 1 : ℤ) : ℚ) := by exact_mod_cast (by omega : (1 : ℤ) ≤ a.cont.size - 1)
  have big : ∀ m : ℕ, (2 : ℚ) ^ (-1022 : ℤ) ≤ 2 ^ m := fun m =>
    (zpow_le_one_of_nonpos₀ (by norm_num) (by norm_num)).trans (one_le_pow₀ (by norm_num))
  set W := sub bk fr with hW
  have eW : |W - (bk - fr)| ≤ 2 ^ 10 * 2 ^ (-53 : ℤ) := fl_rel (by rw [abs_of_pos (by linarith)]; exact hw) (big 10)
  have bW := abs_le.1 eW
  have W0 : 0 ≤ W := fl_nonneg (by linarith)
  have eg : |sub W 360 - (W - 360)| ≤ 2 ^ 11 * 2 ^ (-53 : ℤ) := by
    refine fl_rel ?_ (big 11)
    rw [abs_le]
    norm_num at bW ⊢
    constructor <;> linarith
  have es : |div W (a.cont.size - 1 : ℤ) - W / (a.cont.size - 1 : ℤ)| ≤ 2 ^ 11 * 2 ^ (-53 : ℤ) := by
    refine fl_rel ?_ (big 11)
    rw [abs_of_nonneg (div_nonneg W0 (by linarith)), div_le_iff₀ (by linarith)]
    have : W ≤ 2 ^ 11 := by norm_num at bW hw ⊢; linarith [bW.2]
    exact this.trans (le_mul_of_one_le_right (by norm_num) hn')
  have e1 : |W / (a.cont.size - 1 : ℤ) - step| ≤ 2 ^ 10 * 2 ^ (-53 : ℤ) := by
    have : W / (a.cont.size - 1 : ℤ) - step = (W - (bk - fr)) / (a.cont.size - 1 : ℤ) := by simp only [step]; ring
    rw [this, abs_div, abs_of_pos (by linarith : (0 : ℚ) < (a.cont.size - 1 : ℤ)), div_le_iff₀ (by linarith)]
    refine eW.trans ?_
    have : (0 : ℚ) ≤ 2 ^ 10 * 2 ^ (-53 : ℤ) := by norm_num
    nlinarith
  have e2 : |(|sub W 360| - |W - 360|)| ≤ 2 ^ 11 * 2 ^ (-53 : ℤ) := (abs_abs_sub_abs_le _ _).trans eg
  have e3 : |(|W - 360| - gap)| ≤ 2 ^ 10 * 2 ^ (-53 : ℤ) := abs_sub_sub_le.trans eW
  have b1 := abs_le.1 e1
  have b2 := abs_le.1 e2
  have b3 := abs_le.1 e3
  have b4 := abs_le.1 es
  rw [hc]
  norm_num at b1 b2 b3 b4 ⊢
  constructor
  · intro h; linarith [b1.1, b2.2, b3.2, b4.1]
  · intro h; linarith [b1.2, b2.1, b3.1, b4.2]

/-- **C125**: an irregular axis of decreasing longitudes is never recognised as a circle. -/
theorem C125_circle_descending {values : List ℚ} {eps : ℚ} {a : Ax} {l : List ℚ} (hd : ∀ x ∈ values, IsDouble x)
    (h2 : 2 ≤ values.length) (e : Ax.ofValues values eps true = .ok a) (hk : a.cont = .irregular l false)
    (hn : a.cont.size ≤ 2 ^ 60) : a.isCircle = false := by
  have hb : Built a := .values hd h2 e (by intro r hr; rw [hk] at hr; cases hr)
  obtain ⟨⟨n, f, C⟩, -⟩ := built_coords hb
  have two := C.two
  obtain ⟨hc, d0, d1, -, hlt⟩ := circle_flag hd h2 e hk (C.coord 0 le_rfl (by omega))
    (by rw [C.size]; exact C.coord (n - 1) (by omega) (by omega))
  have hlt := hlt rfl
  rw [max_eq_left hlt.le, min_eq_right hlt.le] at hc
  rw [hc]
  simp only [decide_eq_false_iff_not, not_le]
  rw [C.size] at hn ⊢
  have hn1 : (1 : ℚ) ≤ ((n - 1 : ℤ) : ℚ) := by exact_mod_cast (by omega : (1 : ℤ) ≤ n - 1)
  have hn2 : ((n - 1 : ℤ) : ℚ) ≤ 2 ^ 60 := by exact_mod_cast (by omega : (n - 1 : ℤ) ≤ 2 ^ 60)
  have hs := sub_lt d1 d0 hlt
  have hq : sub (f (n - 1)) (f 0) / ((n - 1 : ℤ) : ℚ) < 0 := div_neg_of_neg_of_pos hs (by linarith)
  have hdle : div (sub (f (n - 1)) (f 0)) ((n - 1 : ℤ) : ℚ) ≤ 0 := fl_nonpos hq.le
  rcases (abs_nonneg (sub (sub (f 0) (f (n - 1))) 360)).eq_or_lt with h0 | h0
  · -- the width is exactly 360
    have hw : sub (f 0) (f (n - 1)) = 360 := by
      have h360 : IsDouble (360 : ℚ) := isDouble_int (n := 360) (by norm_num)
      exact (sub_zero_iff (isDouble_fl _) h360).1 (abs_eq_zero.1 h0.symm)
    rw [← h0, sub_antisymm, hw]
    refine lt_of_le_of_lt (fl_le_of_double (d := -(2 ^ (-60 : ℤ))) ⟨-1, -60, by norm_num, by norm_num, by norm_num⟩ ?_)
      (by norm_num)
    rw [div_le_iff₀ (by linarith)]
    norm_num at hn2 ⊢
    linarith
  · linarith

/- Longitudes that are not evenly spaced and make a circle, the same in decreasing order, and a part of a circle. -/
example : (∃ a, Ax.ofValues [0, 100, 180, 270] (1 / 2 ^ 20) true = .ok a ∧ a.isCircle = true ∧ a.cont.size = 4) ∧
    (∃ a, Ax.ofValues [270, 180, 100, 0] (1 / 2 ^ 20) true = .ok a ∧ a.isCircle = false) ∧
    (∃ a, Ax.ofValues [0, 100, 180, 260] (1 / 2 ^ 20) true = .ok a ∧ a.isCircle = false) := by
  refine ⟨⟨{ isCircle := true, angle := true, cont := .irregular [0, 100, 180, 270] true }, by decide +kernel, rfl, rfl⟩,
    ⟨{ isCircle := false, angle := true, cont := .irregular [270, 180, 100, 0] false }, by decide +kernel, rfl⟩,
    ⟨{ isCircle := false, angle := true, cont := .irregular [0, 100, 180, 260] true }, by decide +kernel, rfl⟩⟩

/-- **C125**: a regular axis of longitudes is a complete circle if its number of values times its step is 360 up to `eps`, and is
not if the difference is more than `eps` times the greatest of the two, up to 2^-37 degrees. -/
theorem C125_circle_regular {start stop eps : ℚ} {num : ℤ} {a : Ax} (h : Spacing start stop num)
    (e : Ax.ofRange start stop num eps true = .ok a) (he0 : 0 ≤ eps) (he1 : eps ≤ 1) (hw : |stop - start| ≤ 2 ^ 10) :
    let turn := |stop - start| / (num - 1 : ℤ) * num
    (|turn - 360| + 2 ^ (-38 : ℤ) ≤ eps → a.isCircle = true) ∧
    (eps * max turn 360 + 2 ^ (-37 : ℤ) < |turn - 360| → a.isCircle = false) := by
  intro turn
  have two := h.two_le
  have hn1 : (1 : ℚ) ≤ ((num - 1 : ℤ) : ℚ) := by exact_mod_cast (by omega : (1 : ℤ) ≤ num - 1)
  have hn2 : (num : ℚ) ≤ 2 * ((num - 1 : ℤ) : ℚ) := by exact_mod_cast (by omega : num ≤ 2 * (num - 1))
  have hn0 : (0 : ℚ) ≤ (num : ℚ) := by exact_mod_cast (by omega : (0 : ℤ) ≤ num)
  have big : ∀ m : ℕ, (2 : ℚ) ^ (-1022 : ℤ) ≤ 2 ^ m := fun m =>
    (zpow_le_one_of_nonpos₀ (by norm_num) (by norm_num)).trans (one_le_pow₀ (by norm_num))
  obtain ⟨r, hr, e⟩ := bind_okD e
  have hne : start ≠ stop := by
    rintro rfl
    have := h.range_ge
    rw [sub_self, abs_zero] at this
    exact absurd (two_zpow_pos (-900)) (not_lt.2 this)
  have hst : r.step = div (sub stop start) (num - 1 : ℤ) ∧ r.size = num := by
    unfold Reg.mk' at hr
    rw [if_neg (by omega), if_neg hne, if_neg (show ¬ num = 1 by omega)] at hr
    cases hr
    exact ⟨rfl, rfl⟩
  have hc : a.isCircle = isSame |mul r.step (r.size : ℚ)| 360 eps := by
    unfold Ax.computeProperties at e
    simp only [Bool.not_true, Bool.false_eq_true, if_false] at e
    split at e
    · cases e
    split at e
    · cases e
    cases e
    rfl
  rw [hst.1, hst.2] at hc
  set D := sub stop start with hD
  have eD : |D - (stop - start)| ≤ 2 ^ 10 * 2 ^ (-53 : ℤ) := fl_rel hw (big 10)
  have hwD : |D| ≤ 2 ^ 11 := by
    have := abs_sub_abs_le_abs_sub D (stop - start)
    norm_num at eD hw this ⊢
    linarith
  set m : ℚ := ((num - 1 : ℤ) : ℚ) with hm
  set S := div D m with hS
  -- relative error of the quotient
  have eS : |S - D / m| ≤ 2 ^ 11 / m * 2 ^ (-53 : ℤ) := by
    refine fl_rel ?_ ?_
    · rw [abs_div, abs_of_pos (by linarith : 0 < m)]
      exact div_le_div_of_nonneg_right hwD (by linarith)
    · rw [le_div_iff₀ (by linarith)]
      have : m ≤ 2 ^ 47 := by
        rw [hm]; exact_mod_cast (by have := h.num_le; omega : num - 1 ≤ 2 ^ 47)
      calc (2 : ℚ) ^ (-1022 : ℤ) * m ≤ 2 ^ (-60 : ℤ) * 2 ^ 47 :=
            mul_le_mul (zpow_le_zpow_right₀ (by norm_num) (by norm_num)) this (by linarith) (by norm_num)
        _ ≤ _ := by norm_num
  have e1 : |S * num - D / m * num| ≤ 2 ^ 12 * 2 ^ (-53 : ℤ) := by
    rw [← sub_mul, abs_mul, abs_of_nonneg hn0]
    calc _ ≤ 2 ^ 11 / m * 2 ^ (-53 : ℤ) * (2 * m) := mul_le_mul eS hn2 hn0 (by positivity)
      _ = 2 ^ 12 * 2 ^ (-53 : ℤ) := by
        have : m ≠ 0 := by linarith
        field_simp
  have e2 : |D / m * num - (stop - start) / m * num| ≤ 2 ^ 11 * 2 ^ (-53 : ℤ) := by
    rw [← sub_mul, ← sub_div, abs_mul, abs_div, abs_of_nonneg hn0, abs_of_pos (by linarith : 0 < m)]
    calc _ ≤ 2 ^ 10 * 2 ^ (-53 : ℤ) / m * (2 * m) :=
          mul_le_mul (div_le_div_of_nonneg_right eD (by linarith)) hn2 hn0 (by positivity)
      _ = 2 ^ 11 * 2 ^ (-53 : ℤ) := by
        have : m ≠ 0 := by linarith
        field_simp
  have ht : |(stop - start) / m * num| = turn := by
    rw [abs_mul, abs_div, abs_of_nonneg hn0, abs_of_pos (by linarith : 0 < m)]
  have t0 : 0 ≤ turn := by rw [← ht]; exact abs_nonneg _
  have t1 : turn ≤ 2 ^ 11 := by
    simp only [turn]
    rw [div_mul_eq_mul_div, div_le_iff₀ (by linarith)]
    calc _ ≤ 2 ^ 10 * (2 * m) := mul_le_mul hw hn2 hn0 (by norm_num)
      _ = _ := by ring
  have bS : |S * num| ≤ 2 ^ 12 := by
    have a1 := abs_sub_abs_le_abs_sub (S * num) (D / m * num)
    have a2 := abs_sub_abs_le_abs_sub (D / m * num) ((stop - start) / m * num)
    rw [ht] at a2
    norm_num at a1 a2 e1 e2 t1 ⊢
    linarith
  have eP : |mul S num - S * num| ≤ 2 ^ 12 * 2 ^ (-53 : ℤ) := fl_rel bS (big 12)
  set P := |mul S num| with hP
  have eT : |P - turn| ≤ 2 ^ 14 * 2 ^ (-53 : ℤ) := by
    have a0 := abs_abs_sub_abs_le (mul S num) ((stop - start) / m * num)
    rw [ht] at a0
    refine a0.trans ?_
    have : mul S num - (stop - start) / m * num =
      (mul S num - S * num) + (S * num - D / m * num) + (D / m * num - (stop - start) / m * num) := by ring
    rw [this]
    refine (abs_add_three _ _ _).trans ?_
    norm_num at eP e1 e2 ⊢
    linarith
  have bT := abs_le.1 eT
  have eQ : |sub P 360 - (P - 360)| ≤ 2 ^ 13 * 2 ^ (-53 : ℤ) := by
    refine fl_rel ?_ (big 13)
    rw [abs_le]
    norm_num at bT t1 ⊢
    constructor <;> linarith [bT.1, bT.2]
  have b5 := abs_le.1 ((abs_abs_sub_abs_le (sub P 360) (P - 360)).trans eQ)
  have b6 := abs_le.1 ((abs_sub_sub_le (a := P) (b := turn) (c := 360)).trans eT)
  rw [hc]
  unfold isSame
  simp only [Bool.or_eq_true, decide_eq_true_eq, Bool.or_eq_false_iff, decide_eq_false_iff_not, not_le, not_lt]
  constructor
  · intro hh
    left
    norm_num at b5 b6 hh ⊢
    linarith [b5.1, b5.2, b6.1, b6.2]
  · intro hh
    have hmax : eps * max turn 360 ≥ eps := by
      have := le_max_right turn 360
      nlinarith
    have hP0 : 0 ≤ P := abs_nonneg _
    have bm : max |P| |(360 : ℚ)| ≤ max turn 360 + 2 ^ (-38 : ℤ) := by
      rw [abs_of_nonneg hP0, abs_of_pos (by norm_num : (0 : ℚ) < 360)]
      refine max_le ?_ ?_
      · have := le_max_left turn 360
        norm_num at bT ⊢
        linarith [bT.1, bT.2]
      · have := le_max_right turn 360
        norm_num
        linarith
    have bm2 : max turn 360 ≤ 2 ^ 11 := by
      refine max_le t1 (by norm_num)
    have hb : |max |P| |(360 : ℚ)| * eps| ≤ 2 ^ 12 := by
      rw [abs_of_nonneg (mul_nonneg ((abs_nonneg _).trans (le_max_left _ _)) he0)]
      have m0 : 0 ≤ max |P| |(360 : ℚ)| := (abs_nonneg _).trans (le_max_left _ _)
      calc _ ≤ max |P| |(360 : ℚ)| * 1 := mul_le_mul_of_nonneg_left he1 m0
        _ = max |P| |(360 : ℚ)| := mul_one _
        _ ≤ _ := bm.trans ((add_le_add_left bm2 _).trans (by norm_num))
    have eR := abs_le.1 (fl_rel hb (big 12))
    have key : max |P| |(360 : ℚ)| * eps ≤ eps * max turn 360 + 2 ^ (-38 : ℤ) := by
      calc _ ≤ (max turn 360 + 2 ^ (-38 : ℤ)) * eps := mul_le_mul_of_nonneg_right bm he0
        _ = eps * max turn 360 + 2 ^ (-38 : ℤ) * eps := by ring
        _ ≤ _ := by
          have : (2 : ℚ) ^ (-38 : ℤ) * eps ≤ 2 ^ (-38 : ℤ) * 1 := mul_le_mul_of_nonneg_left he1 (by norm_num)
          linarith
    constructor
    · norm_num at b5 b6 hh ⊢
      linarith [b5.1, b5.2, b6.1, b6.2]
    · unfold mul
      norm_num at b5 b6 hh eR key ⊢
      linarith [b5.1, b5.2, b6.1, b6.2, eR.1, eR.2]

/- The longitudes 0, 45, ..., 315 make a circle; 0, 45, ..., 360 and 0, 45, ..., 270 do not. -/
example : (∃ a, Ax.ofRange 0 315 8 (1 / 2 ^ 20) true = .ok a ∧ a.isCircle = true) ∧
    (∃ a, Ax.ofRange 0 360 9 (1 / 2 ^ 20) true = .ok a ∧ a.isCircle = false) ∧
    (∃ a, Ax.ofRange 270 0 7 (1 / 2 ^ 20) true = .ok a ∧ a.isCircle = false) ∧
    (∃ a, Ax.ofRange 315 0 8 (1 / 2 ^ 20) true = .ok a ∧ a.isCircle = true) := by
  refine ⟨⟨exCircle, by decide +kernel, rfl⟩,
    ⟨{ isCircle := false, angle := true, cont := .regular ⟨9, 0, 45, div 1 45, true⟩ }, by decide +kernel, rfl⟩,
    ⟨{ isCircle := false, angle := true, cont := .regular ⟨7, 270, -45, div 1 (-45), false⟩ }, by decide +kernel, rfl⟩,
    ⟨{ isCircle := true, angle := true, cont := .regular ⟨8, 315, -45, div 1 (-45), false⟩ }, by decide +kernel, rfl⟩⟩

end Pyinterp.Double
