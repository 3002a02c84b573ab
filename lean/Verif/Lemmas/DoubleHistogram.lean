import Verif.Spec.HistogramDouble
import Verif.Lemmas.DoubleInterp
import Verif.Lemmas.DoubleStats
import Mathlib.Tactic.FieldSimp

/-
The bins of a streaming histogram with the rounding of every operation.
-/
namespace Pyinterp.Double

open Spec Pyinterp

namespace Histo

/-- A binary search returns an index below the end when the last element does not satisfy the predicate, and the element at that
index does not satisfy it. -/
theorem lowerBound_weak (p : ℕ → Bool) (first len : ℕ) :
    (lowerBound p first len = first + len ∨ p (lowerBound p first len) = false) ∧
      (lowerBound p first len = first ∨ p (lowerBound p first len - 1) = true) ∧
      first ≤ lowerBound p first len ∧ lowerBound p first len ≤ first + len := by
  induction len using Nat.strongRecOn generalizing first with
  | _ len ih =>
    unfold lowerBound
    by_cases h0 : len = 0
    · simp [h0]
    · simp only [h0, dif_neg, not_false_eq_true]
      by_cases hp : p (first + len / 2) = true
      · simp only [hp, if_pos]
        obtain ⟨a, b, c, d⟩ := ih (len - len / 2 - 1) (by omega) (first + len / 2 + 1)
        refine ⟨?_, ?_, by omega, by omega⟩
        · rcases a with a | a
          · left; omega
          · right; exact a
        · rcases b with b | b
          · right; rw [b]; simpa using hp
          · right; exact b
      · simp only [hp, if_neg, Bool.false_eq_true, not_false_eq_true]
        obtain ⟨a, b, c, d⟩ := ih (len / 2) (by omega) first
        refine ⟨?_, b, c, by omega⟩
        rcases a with a | a
        · right; rw [a]; simpa using hp
        · right; exact a

/-- `update_bins` inserts the bin somewhere. -/
theorem updateBins_perm (l : List HBin) (v w : ℚ) : ∃ l', updateBins l v w = .ok l' ∧ l'.Perm (⟨v, w⟩ :: l) := by
  unfold updateBins
  split
  · exact ⟨_, rfl, .refl _⟩
  · rename_i front tl
    split
    · exact ⟨_, rfl, .refl _⟩
    · split
      · exact ⟨_, rfl, List.perm_append_singleton _ _⟩
      · rename_i h1 h2
        set p : ℕ → Bool := fun i => match (front :: tl)[i]? with | some b => decide (b.value ≤ v) | none => false with hp
        obtain ⟨a, b, _, d⟩ := lowerBound_weak p 0 (front :: tl).length
        set ix := lowerBound p 0 (front :: tl).length
        have hlt : ix < (front :: tl).length := by
          rcases Nat.lt_or_ge ix (front :: tl).length with h | h
          · exact h
          · exfalso
            have e : ix = (front :: tl).length := by omega
            rcases b with b | b
            · rw [b] at e; simp at e
            · apply h2
              rw [e] at b
              simp only [hp] at b
              rw [List.getLast_eq_getElem]
              rw [List.getElem?_eq_getElem (by simp)] at b
              simpa using b
        have hne : ¬ ((front :: tl)[ix]).value ≤ v := by
          rcases a with a | a
          · omega
          · simp only [hp] at a
            rw [List.getElem?_eq_getElem hlt] at a
            simpa using a
        dsimp only
        split
        · rename_i h0
          have h0' : (front :: tl)[ix]? = none := h0
          rw [List.getElem?_eq_getElem hlt] at h0'
          simp at h0'
        · rename_i b' h0
          have h0' : (front :: tl)[ix]? = some b' := h0
          rw [List.getElem?_eq_getElem hlt] at h0'
          have e : (front :: tl)[ix] = b' := by simpa using h0'
          rw [e] at hne
          rw [if_neg (fun h => hne (le_of_eq h))]
          exact ⟨_, rfl, List.perm_insertIdx _ _ (show ix ≤ _ by omega)⟩

theorem updateAll_perm (o : List HBin) : ∀ l : List HBin,
    ∃ l', o.foldlM (fun bins b => updateBins bins b.value b.weight) l = .ok l' ∧ l'.Perm (l ++ o) := by
  induction o with
  | nil => exact fun l => ⟨l, rfl, by simp⟩
  | cons b o ih =>
    intro l
    obtain ⟨l₁, e₁, p₁⟩ := updateBins_perm l b.value b.weight
    obtain ⟨l₂, e₂, p₂⟩ := ih l₁
    refine ⟨l₂, ?_, ?_⟩
    · rw [List.foldlM_cons, e₁]; exact e₂
    · refine p₂.trans ((p₁.append_right o).trans ?_)
      exact (List.perm_middle (a := b) (l₁ := l) (l₂ := o)).symm

/-- The weights are positive integers; the values are doubles near the samples, and so is the weighted sum: `t` is the number of
merges done so far, `δ` the error of one of them. -/
structure Inv (lo hi δ : ℚ) (xs : List ℚ) (t : ℕ) (l : List HBin) : Prop where
  weight : ∀ b ∈ l, ∃ k : ℕ, 1 ≤ k ∧ b.weight = k
  total : (l.map (·.weight)).sum = xs.length
  value : ∀ b ∈ l, IsDouble b.value ∧ lo - t * δ ≤ b.value ∧ b.value ≤ hi + t * δ
  sum : |(l.map fun b => b.value * b.weight).sum - xs.sum| ≤ t * xs.length * δ
  size : t + l.length ≤ xs.length

theorem Inv.perm {lo hi δ : ℚ} {xs : List ℚ} {t : ℕ} {l l' : List HBin} (h : Inv lo hi δ xs t l) (p : l'.Perm l) :
    Inv lo hi δ xs t l' where
  weight b hb := h.weight b (p.mem_iff.1 hb)
  total := by rw [(p.map _).sum_eq]; exact h.total
  value b hb := h.value b (p.mem_iff.1 hb)
  sum := by rw [(p.map _).sum_eq]; exact h.sum
  size := by rw [p.length_eq]; exact h.size

theorem Inv.cons {lo hi δ : ℚ} (hδ : 0 ≤ δ) {xs : List ℚ} {t : ℕ} {l : List HBin} (h : Inv lo hi δ xs t l) {x : ℚ} (hx : IsDouble x)
    (h1 : lo ≤ x) (h2 : x ≤ hi) : Inv lo hi δ (xs ++ [x]) t (⟨x, 1⟩ :: l) where
  weight b hb := by
    rcases List.mem_cons.1 hb with rfl | hb
    · exact ⟨1, le_rfl, by simp⟩
    · exact h.weight b hb
  total := by
    rw [List.map_cons, List.sum_cons, h.total]
    push_cast [List.length_append, List.length_singleton]
    ring
  value b hb := by
    rcases List.mem_cons.1 hb with rfl | hb
    · have : 0 ≤ t * δ := mul_nonneg (Nat.cast_nonneg _) hδ
      exact ⟨hx, by dsimp only; linarith, by dsimp only; linarith⟩
    · exact h.value b hb
  sum := by
    have e : (List.map (fun b : HBin => b.value * b.weight) (⟨x, 1⟩ :: l)).sum - (xs ++ [x]).sum =
        (l.map fun b => b.value * b.weight).sum - xs.sum := by
      rw [List.map_cons, List.sum_cons, List.sum_append, List.sum_singleton]; ring
    rw [e]
    refine h.sum.trans ?_
    push_cast [List.length_append, List.length_singleton]
    have : 0 ≤ t * δ := mul_nonneg (Nat.cast_nonneg _) hδ
    nlinarith
  size := by
    have := h.size
    simp only [List.length_cons, List.length_append, List.length_nil]
    omega

theorem Inv.append {lo hi δ : ℚ} (hδ : 0 ≤ δ) {xs ys : List ℚ} {t s : ℕ} {l m : List HBin} (h : Inv lo hi δ xs t l)
    (k : Inv lo hi δ ys s m) : Inv lo hi δ (xs ++ ys) (t + s) (l ++ m) where
  weight b hb := by
    rcases List.mem_append.1 hb with hb | hb
    · exact h.weight b hb
    · exact k.weight b hb
  total := by
    rw [List.map_append, List.sum_append, h.total, k.total, List.length_append]
    push_cast; rfl
  value b hb := by
    have a1 : 0 ≤ t * δ := mul_nonneg (Nat.cast_nonneg _) hδ
    have a2 : 0 ≤ s * δ := mul_nonneg (Nat.cast_nonneg _) hδ
    push_cast
    rw [add_mul]
    rcases List.mem_append.1 hb with hb | hb
    · obtain ⟨d, e, f⟩ := h.value b hb; exact ⟨d, by linarith, by linarith⟩
    · obtain ⟨d, e, f⟩ := k.value b hb; exact ⟨d, by linarith, by linarith⟩
  sum := by
    rw [List.map_append, List.sum_append, List.sum_append]
    have e : ∀ a b c d : ℚ, a + b - (c + d) = (a - c) + (b - d) := fun a b c d => by ring
    rw [e]
    refine (abs_add_le _ _).trans ((add_le_add h.sum k.sum).trans ?_)
    rw [List.length_append]
    push_cast
    have a1 : (0 : ℚ) ≤ t * ys.length * δ := by positivity
    have a2 : (0 : ℚ) ≤ s * xs.length * δ := by positivity
    nlinarith
  size := by
    have := h.size
    have := k.size
    simp only [List.length_append]
    omega

theorem nat_add {j k : ℕ} (h : j + k ≤ 2 ^ 53) : add (j : ℚ) k = ((j + k : ℕ) : ℚ) := by
  unfold add
  rw [← Nat.cast_add]
  have : IsDouble (((j + k : ℕ) : ℤ) : ℚ) := isDouble_int (by rw [abs_of_nonneg (by positivity)]; exact_mod_cast h)
  exact fl_double (by exact_mod_cast this)

theorem nat_half {j : ℕ} (h : j ≤ 2 ^ 53) : mul (j : ℚ) (1 / 2) = (j : ℚ) / 2 := by
  unfold mul
  have : IsDouble ((j : ℚ) / 2) :=
    ⟨j, -1, by rw [abs_of_nonneg (by positivity)]; exact_mod_cast h, by norm_num, by push_cast; rw [zpow_neg_one]; rfl⟩
  rw [show (j : ℚ) * (1 / 2) = j / 2 by ring]
  exact fl_double this

/-- The bin that replaces two bins is nearly their weighted mean. -/
theorem mergeBins_err {a b : HBin} {j k : ℕ} {M : ℚ} (hM : 2 ^ (-1000 : ℤ) ≤ M) (hj : 1 ≤ j) (hk : 1 ≤ k) (wa : a.weight = j)
    (wb : b.weight = k) (hn : j + k ≤ 2 ^ 53) (va : |a.value| ≤ 2 * M) (vb : |b.value| ≤ 2 * M) :
    (mergeBins a b).weight = ((j + k : ℕ) : ℚ) ∧ IsDouble (mergeBins a b).value ∧
      |(mergeBins a b).value - (a.value * j + b.value * k) / ((j + k : ℕ) : ℚ)| ≤ 16 * (M * 2 ^ (-53 : ℤ)) := by
  have hM' : (2 : ℚ) ^ (-1022 : ℤ) ≤ M := le_trans (zpow_le_zpow_right₀ (by norm_num) (by norm_num)) hM
  have hM0 : 0 < M := lt_of_lt_of_le (two_zpow_pos _) hM
  have hu : (2 : ℚ) ^ (-53 : ℤ) ≤ 1 / 16 := by norm_num
  have hu0 : (0 : ℚ) < 2 ^ (-53 : ℤ) := two_zpow_pos _
  have hw : (mergeBins a b).weight = ((j + k : ℕ) : ℚ) := by
    unfold mergeBins; dsimp only; rw [wa, wb]; exact nat_add hn
  refine ⟨hw, isDouble_fl _, ?_⟩
  have hJ : (1 : ℚ) ≤ j := by exact_mod_cast hj
  have hK : (1 : ℚ) ≤ k := by exact_mod_cast hk
  unfold mergeBins
  dsimp only
  rw [wa, wb, nat_add hn]
  push_cast
  set J : ℚ := (j : ℚ)
  set K : ℚ := (k : ℚ)
  have ba : |a.value * J| ≤ 2 * M * J := by rw [abs_mul, abs_of_nonneg (by linarith : 0 ≤ J)]; gcongr
  have bb : |b.value * K| ≤ 2 * M * K := by rw [abs_mul, abs_of_nonneg (by linarith : 0 ≤ K)]; gcongr
  have e1 : |mul a.value J - a.value * J| ≤ 2 * M * J * 2 ^ (-53 : ℤ) := fl_rel ba (by nlinarith)
  have e2 : |mul b.value K - b.value * K| ≤ 2 * M * K * 2 ^ (-53 : ℤ) := fl_rel bb (by nlinarith)
  set p := mul a.value J
  set q := mul b.value K
  set u : ℚ := 2 ^ (-53 : ℤ) with hu'
  clear_value u
  set A := a.value * J
  set B := b.value * K
  have hpq : |p + q| ≤ 4 * M * (J + K) := by
    have : p + q = (p - A) + (q - B) + A + B := by ring
    rw [this]
    refine (abs_add_le _ _).trans ?_
    refine (add_le_add_left ((abs_add_le _ _).trans (add_le_add_left (abs_add_le _ _) _)) _).trans ?_
    have : 2 * M * J * u + 2 * M * K * u ≤ 2 * M * (J + K) := by
      have h0 : 0 ≤ 2 * M * (J + K) := by positivity
      have h1 : 2 * M * (J + K) * u ≤ 2 * M * (J + K) * 1 := mul_le_mul_of_nonneg_left (by linarith) h0
      linarith
    linarith
  have e3 : |add p q - (p + q)| ≤ 4 * M * (J + K) * u := by rw [hu']; exact fl_rel hpq (by nlinarith)
  set s := add p q
  have es : |s - (A + B)| ≤ 6 * M * (J + K) * u := by
    have : s - (A + B) = (s - (p + q)) + ((p - A) + (q - B)) := by ring
    rw [this]
    refine (abs_add_le _ _).trans ((add_le_add e3 ((abs_add_le _ _).trans (add_le_add e1 e2))).trans ?_)
    nlinarith
  have hJK : 0 < J + K := by linarith
  have eq : |s / (J + K) - (A + B) / (J + K)| ≤ 6 * M * u := by
    rw [← sub_div, abs_div, abs_of_pos hJK, div_le_iff₀ hJK]
    linarith [es]
  have hAB : |(A + B) / (J + K)| ≤ 2 * M := by
    rw [abs_div, abs_of_pos hJK, div_le_iff₀ hJK]
    exact (abs_add_le _ _).trans (by linarith)
  have hs : |s / (J + K)| ≤ 3 * M := by
    have : s / (J + K) = (s / (J + K) - (A + B) / (J + K)) + (A + B) / (J + K) := by ring
    rw [this]
    refine (abs_add_le _ _).trans ((add_le_add eq hAB).trans ?_)
    have : M * u ≤ M * (1 / 16) := mul_le_mul_of_nonneg_left hu hM0.le
    linarith
  have e4 : |div s (J + K) - s / (J + K)| ≤ 3 * M * u := by rw [hu']; exact fl_rel hs (by linarith)
  have : div s (J + K) - (A + B) / (J + K) = (div s (J + K) - s / (J + K)) + (s / (J + K) - (A + B) / (J + K)) := by ring
  rw [this]
  refine (abs_add_le _ _).trans ((add_le_add e4 eq).trans ?_)
  have : 0 ≤ M * u := by positivity
  nlinarith

/-- The search of the closest bins returns an index with a successor. -/
theorem minDifference_mem (l : List HBin) : ∀ (prev : HBin) (ix : ℕ) (diff : ℚ) (index : Option ℕ),
    minDifference prev l ix diff index = index ∨
      ∃ j, minDifference prev l ix diff index = some j ∧ ix ≤ j ∧ j < ix + l.length := by
  induction l with
  | nil => exact fun _ _ _ _ => .inl rfl
  | cons b l ih =>
    intro prev ix diff index
    unfold minDifference
    dsimp only
    split
    · rcases ih b (ix + 1) (sub b.value prev.value) (some ix) with h | ⟨j, h, h1, h2⟩
      · exact .inr ⟨ix, h, le_rfl, by simp⟩
      · exact .inr ⟨j, h, by omega, by simp only [List.length_cons]; omega⟩
    · rcases ih b (ix + 1) diff index with h | ⟨j, h, h1, h2⟩
      · exact .inl h
      · exact .inr ⟨j, h, by omega, by simp only [List.length_cons]; omega⟩

theorem minIndex_ok {a b : HBin} {l : List HBin} (h : sub b.value a.value < maxDouble) :
    ∃ j, minIndex (a :: b :: l) = .ok (some j) ∧ j + 1 < (a :: b :: l).length := by
  unfold minIndex minDifference
  dsimp only
  rw [if_pos h]
  rcases minDifference_mem l b (0 + 1) (sub b.value a.value) (some 0) with h | ⟨j, h, h1, h2⟩
  · exact ⟨0, by rw [h], by simp⟩
  · exact ⟨j, by rw [h], by simp only [List.length_cons]; omega⟩

theorem mergeAt_ok (l : List HBin) : ∀ j, j + 1 < l.length → (∀ b ∈ l, ∃ k : ℕ, 1 ≤ k ∧ b.weight = k) →
    (l.map (·.weight)).sum ≤ 2 ^ 53 →
    ∃ pre a b post, l = pre ++ a :: b :: post ∧ mergeAt j l = .ok (pre ++ mergeBins a b :: post) := by
  induction l with
  | nil => intro j h; simp at h
  | cons a l ih =>
    intro j h hw hs
    cases j with
    | zero =>
      cases l with
      | nil => simp at h
      | cons b l =>
        refine ⟨[], a, b, l, rfl, ?_⟩
        unfold mergeAt
        obtain ⟨i, i1, ei⟩ := hw a (by simp)
        obtain ⟨k, k1, ek⟩ := hw b (by simp)
        have hl : 0 ≤ (l.map (·.weight)).sum := List.sum_nonneg (by
          intro x hx
          obtain ⟨c, hc, rfl⟩ := List.mem_map.1 hx
          obtain ⟨m, _, em⟩ := hw c (by simp [hc])
          rw [em]; positivity)
        simp only [List.map_cons, List.sum_cons] at hs
        have : i + k ≤ 2 ^ 53 := by
          have : (i : ℚ) + k ≤ 2 ^ 53 := by rw [← ei, ← ek]; linarith
          exact_mod_cast this
        rw [if_neg]
        · rfl
        · rw [ei, ek, nat_add this]
          have : i + k ≠ 0 := by omega
          exact_mod_cast this
    | succ j =>
      obtain ⟨k, k1, ek⟩ := hw a (by simp)
      obtain ⟨pre, c, d, post, e, m⟩ := ih j (by simpa using h) (fun b hb => hw b (by simp [hb])) (by
        simp only [List.map_cons, List.sum_cons] at hs
        have : (0 : ℚ) ≤ a.weight := by rw [ek]; positivity
        linarith)
      refine ⟨a :: pre, c, d, post, by rw [e]; rfl, ?_⟩
      unfold mergeAt
      rw [m]
      rfl

/-- A weighted mean lies between its two values. -/
theorem wmean_between {x y J K lo hi : ℚ} (hJ : 0 < J) (hK : 0 < K) (hx : lo ≤ x ∧ x ≤ hi) (hy : lo ≤ y ∧ y ≤ hi) :
    lo ≤ (x * J + y * K) / (J + K) ∧ (x * J + y * K) / (J + K) ≤ hi := by
  have : 0 < J + K := by linarith
  rw [le_div_iff₀ this, div_le_iff₀ this]
  constructor <;> nlinarith

/-- The merge of two bins keeps the invariant. -/
theorem Inv.mergeStep {lo hi M : ℚ} (hr : Range lo hi M) {xs : List ℚ} {t : ℕ} {pre post : List HBin} {a b : HBin}
    (hn : xs.length ≤ 2 ^ 48) (h : Inv lo hi (16 * (M * 2 ^ (-53 : ℤ))) xs t (pre ++ a :: b :: post)) :
    Inv lo hi (16 * (M * 2 ^ (-53 : ℤ))) xs (t + 1) (pre ++ mergeBins a b :: post) := by
  have hM0 : 0 < M := lt_of_lt_of_le (two_zpow_pos _) hr.M_ge
  have hu0 : (0 : ℚ) < 2 ^ (-53 : ℤ) := two_zpow_pos _
  have ht : (t : ℚ) ≤ 2 ^ 48 := by
    have := h.size
    exact_mod_cast (by omega : t ≤ 2 ^ 48)
  have hδ : t * (16 * (M * 2 ^ (-53 : ℤ))) ≤ M := by
    have : (2 : ℚ) ^ (-53 : ℤ) = 1 / 2 ^ 53 := by norm_num
    rw [this]
    have : (t : ℚ) * (16 * (M * (1 / 2 ^ 53))) = M * (t * (16 / 2 ^ 53)) := by ring
    rw [this]
    have : (t : ℚ) * (16 / 2 ^ 53) ≤ 1 := by nlinarith
    nlinarith
  set δ : ℚ := 16 * (M * 2 ^ (-53 : ℤ)) with hδ'
  have hδ0 : 0 ≤ δ := by positivity
  have bound : ∀ c ∈ pre ++ a :: b :: post, |c.value| ≤ 2 * M := by
    intro c hc
    obtain ⟨_, h1, h2⟩ := h.value c hc
    have := abs_le.1 hr.lo_le
    have := abs_le.1 hr.hi_le
    rw [abs_le]
    constructor <;> linarith
  have ma : a ∈ pre ++ a :: b :: post := by simp
  have mb : b ∈ pre ++ a :: b :: post := by simp
  obtain ⟨j, j1, ej⟩ := h.weight a ma
  obtain ⟨k, k1, ek⟩ := h.weight b mb
  have tot := h.total
  simp only [List.map_append, List.map_cons, List.sum_append, List.sum_cons] at tot
  have pos : ∀ l : List HBin, (∀ c ∈ l, c ∈ pre ++ a :: b :: post) → 0 ≤ (l.map (·.weight)).sum := by
    intro l hl
    refine List.sum_nonneg ?_
    intro x hx
    obtain ⟨c, hc, rfl⟩ := List.mem_map.1 hx
    obtain ⟨m, _, em⟩ := h.weight c (hl c hc)
    rw [em]; positivity
  have p1 := pos pre (by intro c hc; simp [hc])
  have p2 := pos post (by intro c hc; simp [hc])
  have hjk : (j : ℚ) + k ≤ xs.length := by rw [← ej, ← ek]; linarith
  have hjk' : j + k ≤ xs.length := by exact_mod_cast hjk
  obtain ⟨mw, mv, me⟩ := mergeBins_err hr.M_ge j1 k1 ej ek (by omega) (bound a ma) (bound b mb)
  rw [← hδ'] at me
  have hJ : (0 : ℚ) < j := by exact_mod_cast (by omega : 0 < j)
  have hK : (0 : ℚ) < k := by exact_mod_cast (by omega : 0 < k)
  constructor
  · intro c hc
    rcases List.mem_append.1 hc with hc | hc
    · exact h.weight c (by simp [hc])
    · rcases List.mem_cons.1 hc with rfl | hc
      · exact ⟨j + k, by omega, mw⟩
      · exact h.weight c (by simp [hc])
  · simp only [List.map_append, List.map_cons, List.sum_append, List.sum_cons]
    rw [mw]; push_cast; rw [← ej, ← ek]; linarith
  · intro c hc
    have old : ∀ c ∈ pre ++ a :: b :: post, IsDouble c.value ∧ lo - ((t + 1 : ℕ) : ℚ) * δ ≤ c.value ∧
        c.value ≤ hi + ((t + 1 : ℕ) : ℚ) * δ := by
      intro c hc
      obtain ⟨d, h1, h2⟩ := h.value c hc
      push_cast
      exact ⟨d, by linarith, by linarith⟩
    rcases List.mem_append.1 hc with hc | hc
    · exact old c (by simp [hc])
    · rcases List.mem_cons.1 hc with rfl | hc
      · refine ⟨mv, ?_⟩
        obtain ⟨_, a1, a2⟩ := h.value a ma
        obtain ⟨_, b1, b2⟩ := h.value b mb
        obtain ⟨w1, w2⟩ := wmean_between hJ hK ⟨a1, a2⟩ ⟨b1, b2⟩
        push_cast at me ⊢
        have := abs_le.1 me
        constructor <;> linarith
      · exact old c (by simp [hc])
  · have e := h.sum
    simp only [List.map_append, List.map_cons, List.sum_append, List.sum_cons] at e ⊢
    rw [mw]
    have hne : ((j + k : ℕ) : ℚ) ≠ 0 := by exact_mod_cast (by omega : j + k ≠ 0)
    have e2 : |(mergeBins a b).value * ((j + k : ℕ) : ℚ) - (a.value * j + b.value * k)| ≤ xs.length * δ := by
      have : (mergeBins a b).value * ((j + k : ℕ) : ℚ) - (a.value * j + b.value * k) =
          ((mergeBins a b).value - (a.value * j + b.value * k) / ((j + k : ℕ) : ℚ)) * ((j + k : ℕ) : ℚ) := by
        field_simp
      rw [this, abs_mul, abs_of_nonneg (by positivity : (0 : ℚ) ≤ ((j + k : ℕ) : ℚ)), mul_comm]
      push_cast at me ⊢
      gcongr
    rw [ej, ek] at e
    set S1 := (List.map (fun b : HBin => b.value * b.weight) pre).sum
    set S2 := (List.map (fun b : HBin => b.value * b.weight) post).sum
    have : S1 + ((mergeBins a b).value * ((j + k : ℕ) : ℚ) + S2) - xs.sum =
        ((mergeBins a b).value * ((j + k : ℕ) : ℚ) - (a.value * j + b.value * k)) +
          (S1 + (a.value * j + (b.value * k + S2)) - xs.sum) := by ring
    rw [this]
    refine (abs_add_le _ _).trans ((add_le_add e2 e).trans ?_)
    push_cast
    nlinarith
  · have := h.size
    simp only [List.length_append, List.length_cons] at this ⊢
    omega

theorem trimLoop_ok {lo hi M : ℚ} (hr : Range lo hi M) {xs : List ℚ} (hn : xs.length ≤ 2 ^ 48) :
    ∀ (excess : ℕ) (t : ℕ) (l : List HBin), excess < l.length ∨ excess = 0 →
      Inv lo hi (16 * (M * 2 ^ (-53 : ℤ))) xs t l →
      ∃ l', trimLoop excess l = .ok l' ∧ l'.length + excess = l.length ∧
        Inv lo hi (16 * (M * 2 ^ (-53 : ℤ))) xs (t + excess) l' := by
  intro excess
  induction excess with
  | zero => exact fun t l _ h => ⟨l, rfl, rfl, h⟩
  | succ e ih =>
    intro t l hl h
    match l, hl, h with
    | [], hl, h => simp at hl
    | [a], hl, h => simp at hl
    | a :: b :: l, hl, h =>
      have hM0 : 0 < M := lt_of_lt_of_le (two_zpow_pos _) hr.M_ge
      have ht : (t : ℚ) ≤ 2 ^ 48 := by
        have := h.size
        exact_mod_cast (by omega : t ≤ 2 ^ 48)
      have hδ : t * (16 * (M * 2 ^ (-53 : ℤ))) ≤ M := by
        have : (2 : ℚ) ^ (-53 : ℤ) = 1 / 2 ^ 53 := by norm_num
        rw [this]
        have : (t : ℚ) * (16 * (M * (1 / 2 ^ 53))) = M * (t * (16 / 2 ^ 53)) := by ring
        rw [this]
        have : (t : ℚ) * (16 / 2 ^ 53) ≤ 1 := by nlinarith
        nlinarith
      have hd : sub b.value a.value < maxDouble := by
        obtain ⟨_, a1, a2⟩ := h.value a (by simp)
        obtain ⟨_, b1, b2⟩ := h.value b (by simp)
        have := abs_le.1 hr.lo_le
        have := abs_le.1 hr.hi_le
        have hle : b.value - a.value ≤ 2 ^ (902 : ℤ) := by
          have : (2 : ℚ) ^ (902 : ℤ) = 4 * 2 ^ (900 : ℤ) := by decide +kernel
          rw [this]
          have := hr.M_le
          linarith
        have : sub b.value a.value ≤ 2 ^ (902 : ℤ) :=
          fl_le_of_double ⟨1, 902, by norm_num, by norm_num, by simp⟩ hle
        refine lt_of_le_of_lt this ?_
        decide +kernel
      obtain ⟨j, ej, hj⟩ := minIndex_ok (l := l) hd
      have htot : ((a :: b :: l).map (·.weight)).sum ≤ (2 : ℚ) ^ 53 := by
        rw [h.total]
        exact_mod_cast hn.trans (by norm_num)
      obtain ⟨pre, c, d, post, e1, e2⟩ := mergeAt_ok (a :: b :: l) j hj h.weight htot
      have h' := h
      rw [e1] at h'
      have hs := h'.mergeStep hr hn
      have hlen : (a :: b :: l).length = (pre ++ mergeBins c d :: post).length + 1 := by
        rw [e1]; simp only [List.length_append, List.length_cons]; omega
      obtain ⟨l', r1, r2, r3⟩ := ih (t + 1) (pre ++ mergeBins c d :: post) (by omega) hs
      refine ⟨l', ?_, by omega, by rw [show t + (e + 1) = t + 1 + e by omega]; exact r3⟩
      unfold trimLoop
      rw [ej]
      change (mergeAt j (a :: b :: l)).bind _ = _
      rw [e2]
      exact r1

/-- The state of a histogram that has received the samples `xs`. -/
structure Good (lo hi δ : ℚ) (xs : List ℚ) (cap : ℕ) (h : Histo) : Prop where
  cap_eq : h.binCount = cap
  cap_pos : 1 ≤ cap
  count : h.count = xs.length
  size : h.bins.length ≤ cap
  nonempty : xs ≠ [] → h.bins ≠ []
  inv : ∃ t, Inv lo hi δ xs t h.bins
  mem : ∀ x ∈ xs, IsDouble x ∧ lo ≤ x ∧ x ≤ hi
  min_le : ∀ x ∈ xs, h.min ≤ x
  min_mem : h.min ∈ xs ∨ xs = [] ∧ h.min = maxDouble
  max_ge : ∀ x ∈ xs, x ≤ h.max
  max_pos : minDouble ≤ h.max
  max_mem : h.max ∈ xs ∨ h.max = minDouble

theorem trim_ok {lo hi M : ℚ} (hr : Range lo hi M) {xs : List ℚ} (hn : xs.length ≤ 2 ^ 48) {h : Histo} (hc : 1 ≤ h.binCount)
    {t : ℕ} (hi' : Inv lo hi (16 * (M * 2 ^ (-53 : ℤ))) xs t h.bins) :
    ∃ l', trim h = .ok { h with bins := l' } ∧ l'.length ≤ h.binCount ∧ (h.bins ≠ [] → l' ≠ []) ∧
      ∃ s, Inv lo hi (16 * (M * 2 ^ (-53 : ℤ))) xs s l' := by
  obtain ⟨l', e, hl, hi''⟩ := trimLoop_ok hr hn (h.bins.length - h.binCount) t h.bins (by omega) hi'
  refine ⟨l', ?_, by omega, ?_, _, hi''⟩
  · unfold trim; rw [e]; rfl
  · intro hne e'
    rw [e'] at hl
    have := List.length_pos_of_ne_nil hne
    simp at hl
    omega

theorem good_make (lo hi δ : ℚ) {n : ℕ} (h : 1 ≤ n) : Good lo hi δ [] n (make n) where
  cap_eq := rfl
  cap_pos := h
  count := rfl
  size := by simp [make]
  nonempty := fun h => absurd rfl h
  inv := ⟨0, by constructor <;> simp [make]⟩
  mem := by simp
  min_le := by simp
  min_mem := .inr ⟨rfl, rfl⟩
  max_ge := by simp
  max_pos := le_rfl
  max_mem := .inr rfl

theorem below_max {lo hi M x : ℚ} (hr : Range lo hi M) (h : x ≤ hi) : x < maxDouble := by
  have h1 := (abs_le.1 hr.hi_le).2
  have h2 := hr.M_le
  have : (2 : ℚ) ^ (900 : ℤ) < maxDouble := by decide +kernel
  linarith

theorem good_push {lo hi M : ℚ} (hr : Range lo hi M) {xs : List ℚ} {cap : ℕ} {h : Histo}
    (g : Good lo hi (16 * (M * 2 ^ (-53 : ℤ))) xs cap h) {x : ℚ} (hx : IsDouble x) (h1 : lo ≤ x) (h2 : x ≤ hi)
    (hn : xs.length + 1 ≤ 2 ^ 48) :
    ∃ h', h.push x 1 = .ok h' ∧ Good lo hi (16 * (M * 2 ^ (-53 : ℤ))) (xs ++ [x]) cap h' := by
  have hM0 : 0 < M := lt_of_lt_of_le (two_zpow_pos _) hr.M_ge
  obtain ⟨t, ht⟩ := g.inv
  obtain ⟨l, e, p⟩ := updateBins_perm h.bins x 1
  have hi' := (ht.cons (by positivity) hx h1 h2).perm p
  have wv : mul 1 x = x := by unfold mul; rw [one_mul]; exact fl_double hx
  obtain ⟨l', e', s', n', i'⟩ := trim_ok hr (by simpa using hn)
    (h := { h with
      count := h.count + 1
      min := if mul 1 x < h.min then mul 1 x else h.min
      max := if h.max < mul 1 x then mul 1 x else h.max
      bins := l }) (by show 1 ≤ h.binCount; rw [g.cap_eq]; exact g.cap_pos) hi'
  refine ⟨{ h with
      count := h.count + 1
      min := if mul 1 x < h.min then mul 1 x else h.min
      max := if h.max < mul 1 x then mul 1 x else h.max
      bins := l' }, ?_, ?_⟩
  · unfold push
    rw [e]
    exact e'
  · rw [wv]
    constructor
    · exact g.cap_eq
    · exact g.cap_pos
    · show h.count + 1 = _
      rw [g.count]; simp
    · rw [← g.cap_eq]; exact s'
    · intro _
      apply n'
      show l ≠ []
      intro e0
      rw [e0] at p
      simpa using p.length_eq
    · exact i'
    · intro y hy
      rcases List.mem_append.1 hy with hy | hy
      · exact g.mem y hy
      · rw [List.mem_singleton.1 hy]; exact ⟨hx, h1, h2⟩
    · intro y hy
      show (if x < h.min then x else h.min) ≤ y
      rcases List.mem_append.1 hy with hy | hy
      · have := g.min_le y hy
        split <;> linarith
      · rw [List.mem_singleton.1 hy]
        split <;> linarith
    · left
      show (if x < h.min then x else h.min) ∈ _
      split
      · simp
      · rename_i hlt
        rcases g.min_mem with hm | ⟨_, hm⟩
        · simp [hm]
        · exact absurd (by rw [hm]; exact below_max hr h2) hlt
    · intro y hy
      show y ≤ (if h.max < x then x else h.max)
      rcases List.mem_append.1 hy with hy | hy
      · have := g.max_ge y hy
        split <;> linarith
      · rw [List.mem_singleton.1 hy]
        split <;> linarith
    · show _ ≤ (if h.max < x then x else h.max)
      have := g.max_pos
      split <;> linarith
    · show (if h.max < x then x else h.max) ∈ _ ∨ (if h.max < x then x else h.max) = _
      split
      · left; simp
      · rcases g.max_mem with hm | hm
        · left; simp [hm]
        · right; exact hm

theorem good_merge {lo hi M : ℚ} (hr : Range lo hi M) {xs ys : List ℚ} {cap cap' : ℕ} {h o : Histo}
    (g : Good lo hi (16 * (M * 2 ^ (-53 : ℤ))) xs cap h) (k : Good lo hi (16 * (M * 2 ^ (-53 : ℤ))) ys cap' o)
    (hn : xs.length + ys.length ≤ 2 ^ 48) :
    ∃ h', h.merge o = .ok h' ∧ Good lo hi (16 * (M * 2 ^ (-53 : ℤ))) (xs ++ ys) cap h' := by
  have hM0 : 0 < M := lt_of_lt_of_le (two_zpow_pos _) hr.M_ge
  obtain ⟨t, ht⟩ := g.inv
  obtain ⟨s, hs⟩ := k.inv
  obtain ⟨l, e, p⟩ := updateAll_perm o.bins h.bins
  have hi' := (ht.append (by positivity) hs).perm p
  obtain ⟨l', e', s', n', i'⟩ := trim_ok hr (by simpa using hn)
    (h := { h with
      count := h.count + o.count
      min := if o.min < h.min then o.min else h.min
      max := if h.max < o.max then o.max else h.max
      bins := l }) (by show 1 ≤ h.binCount; rw [g.cap_eq]; exact g.cap_pos) hi'
  refine ⟨{ h with
      count := h.count + o.count
      min := if o.min < h.min then o.min else h.min
      max := if h.max < o.max then o.max else h.max
      bins := l' }, ?_, ?_⟩
  · unfold merge
    rw [e]
    exact e'
  · constructor
    · exact g.cap_eq
    · exact g.cap_pos
    · show h.count + o.count = _
      rw [g.count, k.count]; simp
    · rw [← g.cap_eq]; exact s'
    · intro hne
      apply n'
      show l ≠ []
      intro e0
      rw [e0] at p
      have := p.length_eq
      simp only [List.length_nil, List.length_append] at this
      have hx : xs ≠ [] ∨ ys ≠ [] := by
        by_contra hc
        push Not at hc
        exact hne (by rw [hc.1, hc.2]; rfl)
      rcases hx with hx | hx
      · have := List.length_pos_of_ne_nil (g.nonempty hx); omega
      · have := List.length_pos_of_ne_nil (k.nonempty hx); omega
    · exact i'
    · intro y hy
      rcases List.mem_append.1 hy with hy | hy
      · exact g.mem y hy
      · exact k.mem y hy
    · intro y hy
      show (if o.min < h.min then o.min else h.min) ≤ y
      rcases List.mem_append.1 hy with hy | hy
      · have := g.min_le y hy
        split <;> linarith
      · have := k.min_le y hy
        split <;> linarith
    · show (if o.min < h.min then o.min else h.min) ∈ _ ∨ _ ∧ (if o.min < h.min then o.min else h.min) = _
      split
      · rename_i hlt
        rcases k.min_mem with hm | ⟨hy, hm⟩
        · left; simp [hm]
        · exfalso
          rcases g.min_mem with hm' | ⟨_, hm'⟩
          · have := below_max hr (g.mem _ hm').2.2
            linarith
          · linarith
      · rename_i hlt
        rcases g.min_mem with hm | ⟨hx, hm⟩
        · left; simp [hm]
        · rcases k.min_mem with hm' | ⟨hy, hm'⟩
          · exact absurd (by rw [hm]; exact below_max hr (k.mem _ hm').2.2) hlt
          · right; exact ⟨by simp [hx, hy], hm⟩
    · intro y hy
      show y ≤ (if h.max < o.max then o.max else h.max)
      rcases List.mem_append.1 hy with hy | hy
      · have := g.max_ge y hy
        split <;> linarith
      · have := k.max_ge y hy
        split <;> linarith
    · show _ ≤ (if h.max < o.max then o.max else h.max)
      have := g.max_pos
      split <;> linarith
    · show (if h.max < o.max then o.max else h.max) ∈ _ ∨ (if h.max < o.max then o.max else h.max) = _
      split
      · rcases k.max_mem with hm | hm
        · left; simp [hm]
        · right; exact hm
      · rcases g.max_mem with hm | hm
        · left; simp [hm]
        · right; exact hm

theorem good_resize {lo hi M : ℚ} (hr : Range lo hi M) {xs : List ℚ} {cap n : ℕ} {h : Histo}
    (g : Good lo hi (16 * (M * 2 ^ (-53 : ℤ))) xs cap h) (hn : xs.length ≤ 2 ^ 48) (h1 : 1 ≤ n) :
    ∃ h', h.resize n = .ok h' ∧ Good lo hi (16 * (M * 2 ^ (-53 : ℤ))) xs n h' := by
  obtain ⟨t, ht⟩ := g.inv
  obtain ⟨l', e', s', n', i'⟩ := trim_ok hr hn (h := { h with binCount := n }) h1 ht
  exact ⟨_, e', rfl, h1, g.count, s', fun hx => n' (g.nonempty hx), i', g.mem, g.min_le, g.min_mem, g.max_ge, g.max_pos, g.max_mem⟩

/-- Every history of calls ends in a good state. -/
theorem good_run {lo hi M : ℚ} (hr : Range lo hi M) : ∀ c : Calls, c.Within lo hi (2 ^ 48) →
    c.samples.length ≤ 2 ^ 48 ∧
      ∃ h, c.run = .ok h ∧ Good lo hi (16 * (M * 2 ^ (-53 : ℤ))) c.samples c.capacity h := by
  intro c
  induction c with
  | make n => exact fun h => ⟨by simp [Calls.samples], _, rfl, good_make _ _ _ h⟩
  | push c x ih =>
    rintro ⟨hw, hx, h1, h2, hn⟩
    obtain ⟨_, h, e, g⟩ := ih hw
    obtain ⟨h', e', g'⟩ := good_push hr g hx h1 h2 hn
    exact ⟨by simpa [Calls.samples] using hn, h', by unfold Calls.run; rw [e]; exact e', g'⟩
  | merge c d ihc ihd =>
    rintro ⟨hc, hd, hn⟩
    obtain ⟨_, h, e, g⟩ := ihc hc
    obtain ⟨_, o, eo, go⟩ := ihd hd
    obtain ⟨h', e', g'⟩ := good_merge hr g go hn
    exact ⟨by simpa [Calls.samples] using hn, h', by unfold Calls.run; rw [e, eo]; exact e', g'⟩
  | resize c n ih =>
    rintro ⟨hc, hn⟩
    obtain ⟨hl, h, e, g⟩ := ih hc
    obtain ⟨h', e', g'⟩ := good_resize hr g hl hn
    exact ⟨hl, h', by unfold Calls.run; rw [e]; exact e', g'⟩
  | clear c ih =>
    intro hc
    obtain ⟨_, h, e, g⟩ := ih hc
    refine ⟨by simp [Calls.samples], make h.binCount, by unfold Calls.run; rw [e]; rfl, ?_⟩
    rw [g.cap_eq]
    exact good_make _ _ _ g.cap_pos

end Histo

end Pyinterp.Double
