import Verif.Lemmas.DoubleInterp
import Verif.Lemmas.Container
import Verif.Model.DoubleCircle

/-
Axes of doubles, whatever their container.
-/
namespace Pyinterp.Double

open Spec

/-- What the search needs to know of a container: `n` coordinates `f 0, ..., f (n - 1)`, in strict order. -/
structure Coords (k : Cont) (n : ℤ) (f : ℤ → ℚ) : Prop where
  two : 2 ≤ n
  size : k.size = n
  coord : ∀ i, 0 ≤ i → i < n → k.coord i = .ok (f i)
  double : ∀ i, 0 ≤ i → i < n → IsDouble (f i)
  up : k.asc = true → ∀ i j, 0 ≤ i → i < j → j < n → f i < f j
  down : k.asc = false → ∀ i j, 0 ≤ i → i < j → j < n → f j < f i
  inside : ∀ c, IsDouble c → Btw (f 0) c (f (n - 1)) → ∀ b, ∃ i, k.findIndex c b = .ok i ∧ 0 ≤ i ∧ i < n ∧
    ∀ j, 0 ≤ j → j < n → (f i < c → f j ≤ f i ∨ c ≤ f j) ∧ (c < f i → f i ≤ f j ∨ f j ≤ c)
  after : ∀ c, IsDouble c → |c - f 0| ≤ 2 ^ 60 * |f 1 - f 0| →
    (f (n - 1) < c ∧ f 0 < f (n - 1)) ∨ (c < f (n - 1) ∧ f (n - 1) < f 0) →
    k.findIndex c false = .ok (-1) ∨ k.findIndex c false = .ok (n - 1)
  before : ∀ c, IsDouble c → |c - f 0| ≤ 2 ^ 60 * |f 1 - f 0| →
    (c < f 0 ∧ f 0 < f (n - 1)) ∨ (f 0 < c ∧ f (n - 1) < f 0) →
    k.findIndex c false = .ok (-1) ∨ k.findIndex c false = .ok 0

namespace Coords

variable {k : Cont} {n : ℤ} {f : ℤ → ℚ}

theorem min_eq (h : Coords k n f) : k.minValue = .ok (if k.asc then f 0 else f (n - 1)) := by
  have := h.two
  unfold Cont.minValue
  rw [h.size]
  cases k.asc
  · simpa using h.coord (n - 1) (by omega) (by omega)
  · simpa using h.coord 0 le_rfl (by omega)

theorem max_eq (h : Coords k n f) : k.maxValue = .ok (if k.asc then f (n - 1) else f 0) := by
  have := h.two
  unfold Cont.maxValue
  rw [h.size]
  cases k.asc
  · simpa using h.coord 0 le_rfl (by omega)
  · simpa using h.coord (n - 1) (by omega) (by omega)

/-- The choice of the second index, inside of the axis. -/
theorem around_inside (h : Coords k n f) {c : ℚ} (hc : IsDouble c) (hb : Btw (f 0) c (f (n - 1))) {i : ℤ} (i0 : 0 ≤ i)
    (i1 : i < n) (hi : ∀ j, 0 ≤ j → j < n → (f i < c → f j ≤ f i ∨ c ≤ f j) ∧ (c < f i → f i ≤ f j ∨ f j ≤ c)) (ci : Bool) :
    ∃ a b : ℤ, Ax.around ci k.asc n i (sub c (f i)) = some (a, b) ∧ (0 ≤ a ∧ a < n) ∧ (0 ≤ b ∧ b < n) ∧
      (b = a + 1 ∨ a = b + 1) ∧ Btw (f a) c (f b) ∧ (a = i ∨ b = i) ∧ (f a ≤ c ∨ (k.asc = false ∧ c = f (n - 1))) := by
  have htwo := h.two
  have hfi := h.double i i0 i1
  have rem : ∀ {m : ℤ}, 0 ≤ m → m < n → (if ci = true then Math.remainderI m n else m) = m := by
    intro m h0 h1
    split
    · rw [Math.remainderI_eq_emod _ _ (by omega), Int.emod_eq_of_lt h0 h1]
    · rfl
  have fin : ∀ {a b : ℤ}, 0 ≤ a → a < n → 0 ≤ b → b < n →
      (if 0 ≤ a ∧ a < n ∧ 0 ≤ b ∧ b < n then some (a, b) else none) = some (a, b) := by
    intro a b a0 a1 b0 b1
    rw [if_pos ⟨a0, a1, b0, b1⟩]
  unfold Ax.around
  rcases lt_trichotomy c (f i) with hlt | heq | hgt
  · have hs : sub c (f i) < 0 := sub_lt hc hfi hlt
    simp only [if_neg hs.ne, if_pos hs]
    cases ha : k.asc
    · have hlast : i ≠ n - 1 := by
        rintro rfl
        rcases hb with ⟨b1, b2⟩ | ⟨b1, b2⟩ <;> [have := h.down ha 0 (n - 1) le_rfl (by omega) (by omega); skip] <;> linarith
      have hn : 0 ≤ i + 1 ∧ i + 1 < n := by omega
      have hd := h.down ha i (i + 1) i0 (by omega) hn.2
      simp only [Bool.false_eq_true, if_false, rem hn.1 hn.2, fin hn.1 hn.2 i0 i1]
      refine ⟨_, _, rfl, hn, ⟨i0, i1⟩, by omega, Or.inl ⟨?_, hlt.le⟩, Or.inr rfl, Or.inl ?_⟩ <;> rcases (hi (i + 1) hn.1 hn.2).2 hlt with e | e <;> linarith
    · have hfirst : i ≠ 0 := by
        rintro rfl
        rcases hb with ⟨b1, b2⟩ | ⟨b1, b2⟩ <;> [skip; have := h.up ha 0 (n - 1) le_rfl (by omega) (by omega)] <;> linarith
      have hn : 0 ≤ i - 1 ∧ i - 1 < n := by omega
      have hd := h.up ha (i - 1) i hn.1 (by omega) i1
      simp only [if_true, rem hn.1 hn.2, fin hn.1 hn.2 i0 i1]
      refine ⟨_, _, rfl, hn, ⟨i0, i1⟩, by omega, Or.inl ⟨?_, hlt.le⟩, Or.inr rfl, Or.inl ?_⟩ <;> rcases (hi (i - 1) hn.1 hn.2).2 hlt with e | e <;> linarith
  · have hs : sub c (f i) = 0 := (sub_zero_iff hc hfi).2 heq
    simp only [if_pos hs]
    by_cases hl : i = n - 1
    · simp only [if_pos hl, fin (show 0 ≤ i - 1 by omega) (by omega) i0 i1]
      refine ⟨_, _, rfl, by omega, ⟨i0, i1⟩, by omega, ?_, Or.inr rfl, ?_⟩
      swap
      · cases ha : k.asc
        · exact Or.inr ⟨rfl, by rw [heq, hl]⟩
        · exact Or.inl (by rw [heq]; exact (h.up ha (i - 1) i (by omega) (by omega) i1).le)
      rw [heq]
      rcases le_total (f (i - 1)) (f i) with e | e
      · exact Or.inl ⟨e, le_rfl⟩
      · exact Or.inr ⟨le_rfl, e⟩
    · simp only [if_neg hl, fin i0 i1 (show 0 ≤ i + 1 by omega) (by omega)]
      refine ⟨_, _, rfl, ⟨i0, i1⟩, by omega, by omega, ?_, Or.inl rfl, Or.inl heq.ge⟩
      rw [heq]
      rcases le_total (f i) (f (i + 1)) with e | e
      · exact Or.inl ⟨le_rfl, e⟩
      · exact Or.inr ⟨e, le_rfl⟩
  · have hs : 0 < sub c (f i) := by
      have := sub_lt hfi hc hgt
      rw [sub_antisymm] at this
      linarith
    simp only [if_neg hs.ne', if_neg hs.le.not_gt]
    cases ha : k.asc
    · have hfirst : i ≠ 0 := by
        rintro rfl
        rcases hb with ⟨b1, b2⟩ | ⟨b1, b2⟩ <;> [have := h.down ha 0 (n - 1) le_rfl (by omega) (by omega); skip] <;> linarith
      have hn : 0 ≤ i - 1 ∧ i - 1 < n := by omega
      have hd := h.down ha (i - 1) i hn.1 (by omega) i1
      simp only [Bool.false_eq_true, if_false, rem hn.1 hn.2, fin i0 i1 hn.1 hn.2]
      refine ⟨_, _, rfl, ⟨i0, i1⟩, hn, by omega, Or.inl ⟨hgt.le, ?_⟩, Or.inl rfl, Or.inl hgt.le⟩
      rcases (hi (i - 1) hn.1 hn.2).1 hgt with e | e <;> linarith
    · have hlast : i ≠ n - 1 := by
        rintro rfl
        rcases hb with ⟨b1, b2⟩ | ⟨b1, b2⟩ <;> [skip; have := h.up ha 0 (n - 1) le_rfl (by omega) (by omega)] <;> linarith
      have hn : 0 ≤ i + 1 ∧ i + 1 < n := by omega
      have hd := h.up ha i (i + 1) i0 (by omega) hn.2
      simp only [if_true, rem hn.1 hn.2, fin i0 i1 hn.1 hn.2]
      refine ⟨_, _, rfl, ⟨i0, i1⟩, hn, by omega, Or.inl ⟨hgt.le, ?_⟩, Or.inl rfl, Or.inl hgt.le⟩
      rcases (hi (i + 1) hn.1 hn.2).1 hgt with e | e <;> linarith

/-- On a circle the second index always exists. -/
theorem around_circle (htwo : 2 ≤ n) {i : ℤ} (i0 : 0 ≤ i) (i1 : i < n) (asc : Bool) (d : ℚ) :
    ∃ a b : ℤ, Ax.around true asc n i d = some (a, b) ∧ (0 ≤ a ∧ a < n) ∧ (0 ≤ b ∧ b < n) := by
  have rem : ∀ m : ℤ, 0 ≤ Math.remainderI m n ∧ Math.remainderI m n < n := by
    intro m
    rw [Math.remainderI_eq_emod _ _ (by omega)]
    exact ⟨Int.emod_nonneg _ (by omega), Int.emod_lt_of_pos _ (by omega)⟩
  unfold Ax.around
  by_cases h0 : d = 0
  · simp only [if_pos h0]
    by_cases hl : i = n - 1
    · simp only [if_pos hl]
      exact ⟨i - 1, i, if_pos (by omega), by omega, by omega⟩
    · simp only [if_neg hl]
      exact ⟨i, i + 1, if_pos (by omega), by omega, by omega⟩
  · simp only [if_neg h0]
    by_cases hn : d < 0
    · simp only [if_pos hn, if_true]
      obtain ⟨r0, r1⟩ := rem (if asc = true then i - 1 else i + 1)
      exact ⟨_, _, if_pos ⟨r0, r1, i0, i1⟩, ⟨r0, r1⟩, i0, i1⟩
    · simp only [if_neg hn, if_true]
      obtain ⟨r0, r1⟩ := rem (if asc = true then i + 1 else i - 1)
      exact ⟨_, _, if_pos ⟨i0, i1, r0, r1⟩, ⟨i0, i1⟩, r0, r1⟩

end Coords

/-! ### Irregular containers -/

/-- The relative error of a difference of doubles. -/
theorem sub_rel {a b : ℚ} (ha : IsDouble a) (hb : IsDouble b) : |sub a b - (a - b)| ≤ |a - b| * 2 ^ (-53 : ℤ) := by
  obtain ⟨n, rfl⟩ := double_unit ha
  obtain ⟨k, rfl⟩ := double_unit hb
  have hp := two_zpow_pos (-1074)
  have hy : (n : ℚ) * 2 ^ (-1074 : ℤ) - k * 2 ^ (-1074 : ℤ) = ((n - k : ℤ) : ℚ) * 2 ^ (-1074 : ℤ) := by push_cast; ring
  unfold sub
  rw [hy]
  set j := n - k with hj
  rcases le_or_gt |j| (2 ^ 53) with hs | hs
  · have hd : IsDouble ((j : ℚ) * 2 ^ (-1074 : ℤ)) := ⟨j, -1074, hs, le_rfl, rfl⟩
    rw [fl_double hd, sub_self, abs_zero]
    positivity
  · apply fl_rel le_rfl
    have h1 : (2 : ℚ) ^ (-1022 : ℤ) = 2 ^ (52 : ℤ) * 2 ^ (-1074 : ℤ) := by rw [← zpow_add₀ (by norm_num)]; norm_num
    rw [h1, abs_mul, abs_of_pos hp]
    apply mul_le_mul_of_nonneg_right _ hp.le
    have : ((2 ^ 53 : ℤ) : ℚ) ≤ ((|j| : ℤ) : ℚ) := by exact_mod_cast hs.le
    rw [Int.cast_abs] at this
    norm_num at this ⊢
    linarith

/-- If the rounded distances are in an order, the distances are in the same order up to two roundings. -/
theorem dist_le {a b c : ℚ} (ha : IsDouble a) (hb : IsDouble b) (hc : IsDouble c) (h : |sub c b| ≤ |sub c a|) :
    |c - b| ≤ |c - a| * (1 + 2 ^ (-51 : ℤ)) := by
  have e1 := sub_rel hc hb
  have e2 := sub_rel hc ha
  have t1 : |c - b| - |c - b| * 2 ^ (-53 : ℤ) ≤ |sub c b| := by
    have := abs_sub_abs_le_abs_sub (c - b) (sub c b)
    rw [abs_sub_comm (c - b) (sub c b)] at this
    linarith
  have t2 : |sub c a| ≤ |c - a| + |c - a| * 2 ^ (-53 : ℤ) := by
    have := abs_sub_abs_le_abs_sub (sub c a) (c - a)
    linarith
  have := abs_nonneg (c - a)
  have := abs_nonneg (c - b)
  generalize |c - b| = B at *
  generalize |c - a| = A at *
  norm_num at t1 t2 ⊢
  linarith

/-- The search in an irregular container. -/
theorem irregularFind_cases (R : ℚ → ℚ → Prop) [DecidableRel R] (l : List ℚ) (c : ℚ) (b : Bool)
    (htrans : ∀ x y z, R x y → R y z → R x z) (hirr : ∀ x, ¬ R x x) (htri : ∀ x y, R x y ∨ x = y ∨ R y x)
    (hl : l.Pairwise R) (hne : l ≠ []) :
    (∃ r : ℕ, ∃ h : r < l.length, ∃ hr : 0 < r, R l[r - 1] c ∧ (R c l[r] ∨ c = l[r]) ∧
      Cont.irregularFind l (fun a b => decide (R a b)) c b =
        .ok (if |sub c l[r - 1]| < |sub c l[r]| then (r : ℤ) - 1 else r)) ∨
    (∃ h : 0 < l.length, (R c l[0] ∧ Cont.irregularFind l (fun a b => decide (R a b)) c b = .ok (if b then 0 else -1)) ∨
      (c = l[0] ∧ Cont.irregularFind l (fun a b => decide (R a b)) c b = .ok 0)) ∨
    (∃ h : l.length - 1 < l.length, R l[l.length - 1] c ∧
      Cont.irregularFind l (fun a b => decide (R a b)) c b = .ok (if b then (l.length : ℤ) - 1 else -1)) := by
  have hlen : 0 < l.length := List.length_pos_iff.mpr hne
  have hget : ∀ i j (hi : i < l.length) (hj : j < l.length), i < j → R l[i] l[j] :=
    fun i j hi hj hij => List.pairwise_iff_getElem.mp hl i j hi hj hij
  obtain ⟨-, hr2, hr3, hr4⟩ := lowerBound_spec (fun i => match l[i]? with
    | some v => decide (R v c)
    | none => false) 0 l.length (by
      intro i j _ hij hj hpj
      have hj' : j < l.length := by omega
      have hi' : i < l.length := by omega
      simp only [hj', hi', List.getElem?_eq_getElem, decide_eq_true_eq] at hpj ⊢
      rcases Nat.lt_or_eq_of_le hij with h | h
      · exact htrans _ _ _ (hget i j hi' hj' h) hpj
      · subst h; exact hpj)
  unfold Cont.irregularFind
  simp only
  generalize hr : lowerBound (fun i => match l[i]? with
    | some v => decide (R v c)
    | none => false) 0 l.length = r at *
  have hbelow : ∀ i (hi : i < l.length), i < r → R l[i] c := by
    intro i hi hir
    have := hr3 i (Nat.zero_le _) hir
    simpa [hi] using this
  have habove : ∀ i (hi : i < l.length), r ≤ i → (R c l[i] ∨ c = l[i]) := by
    intro i hi hir
    have := hr4 i hir (by omega)
    simp [hi] at this
    rcases htri c l[i] with h | h | h
    · exact Or.inl h
    · exact Or.inr h
    · exact absurd h this
  by_cases h0 : r = 0
  · subst h0
    right; left
    refine ⟨hlen, ?_⟩
    have hrd : rd l 0 = .ok l[0] := rd_ok l 0 hlen
    simp only [Nat.cast_zero, if_true, hrd, bind, Except.bind, pure, Except.pure]
    rcases habove 0 hlen le_rfl with h | h
    · left; exact ⟨h, by simp [h]⟩
    · right; refine ⟨h, ?_⟩
      have : ¬ R c l[0] := by rw [h]; exact hirr _
      simp [this]
  · by_cases hlast : r = l.length
    · right; right
      refine ⟨by omega, hbelow _ _ (by omega), ?_⟩
      have hrd : rd l ((l.length : Int) - 1) = .ok l[l.length - 1] := by
        have := rd_ok l (l.length - 1) (by omega)
        rw [← this]; congr 1; omega
      have hne0 : ¬ ((l.length : ℤ) = 0) := by omega
      have hR := hbelow (l.length - 1) (by omega) (by omega)
      simp only [hlast, if_neg hne0, if_true, hrd, bind, Except.bind, pure, Except.pure, hR, decide_true]
    · left
      have hrl : r < l.length := by omega
      refine ⟨r, hrl, by omega, hbelow _ _ (by omega), habove _ hrl le_rfl, ?_⟩
      have hrd1 : rd l ((r : Int) - 1) = .ok l[r - 1] := by
        have := rd_ok l (r - 1) (by omega)
        rw [← this]; congr 1; omega
      have hrd2 : rd l (r : Int) = .ok l[r] := rd_ok l r hrl
      rw [if_neg (by omega), if_neg (by omega), hrd1, hrd2]
      rfl

theorem coords_irregular {l : List ℚ} {asc : Bool} (htwo : 2 ≤ l.length) (hd : ∀ x ∈ l, IsDouble x)
    (ha : asc = true → l.Pairwise (· < ·)) (hb : asc = false → l.Pairwise (· > ·)) :
    Coords (.irregular l asc) l.length (fun i => l.getD i.toNat 0) := by
  have hne : l ≠ [] := by rintro rfl; simp at htwo
  have hf : ∀ i : ℕ, ∀ h : i < l.length, l.getD ((i : ℤ).toNat) 0 = l[i] := by
    intro i h
    simp [List.getD_eq_getElem?_getD, h]
  have hf' : ∀ i : ℤ, 0 ≤ i → ∀ h : i.toNat < l.length, l.getD i.toNat 0 = l[i.toNat] := by
    intro i _ h
    simp [List.getD_eq_getElem?_getD, h]
  have hlast : l.getD ((l.length : ℤ) - 1).toNat 0 = l[l.length - 1] := by
    have : ((l.length : ℤ) - 1).toNat = l.length - 1 := by omega
    rw [this]
    simp [List.getD_eq_getElem?_getD, show l.length - 1 < l.length by omega]
  have h0 : l.getD ((0 : ℤ)).toNat 0 = l[0] := hf 0 (by omega)
  have hpairs : ∀ (R : ℚ → ℚ → Prop), l.Pairwise R → ∀ i j : ℤ, 0 ≤ i → i < j → j < l.length →
      R (l.getD i.toNat 0) (l.getD j.toNat 0) := by
    intro R hl i j i0 hij hj
    rw [hf' i i0 (by omega), hf' j (by omega) (by omega)]
    exact List.pairwise_iff_getElem.mp hl _ _ _ _ (by omega)
  have key : ∀ (R : ℚ → ℚ → Prop) [DecidableRel R], (∀ x y z, R x y → R y z → R x z) → (∀ x, ¬ R x x) →
      (∀ x y, R x y ∨ x = y ∨ R y x) → l.Pairwise R →
      (∀ c b, ¬ R c l[0] → ¬ R l[l.length - 1] c → ∃ i : ℤ, Cont.irregularFind l (fun a b => decide (R a b)) c b = .ok i ∧
        0 ≤ i ∧ i < l.length ∧ ∀ j : ℤ, 0 ≤ j → j < l.length →
          (R (l.getD i.toNat 0) c → (R (l.getD j.toNat 0) (l.getD i.toNat 0) ∨ l.getD j.toNat 0 = l.getD i.toNat 0) ∨
            (R c (l.getD j.toNat 0) ∨ c = l.getD j.toNat 0)) ∧
          (R c (l.getD i.toNat 0) → (R (l.getD i.toNat 0) (l.getD j.toNat 0) ∨ l.getD i.toNat 0 = l.getD j.toNat 0) ∨
            (R (l.getD j.toNat 0) c ∨ l.getD j.toNat 0 = c))) ∧
      (∀ c, R l[l.length - 1] c → Cont.irregularFind l (fun a b => decide (R a b)) c false = .ok (-1)) ∧
      (∀ c, R c l[0] → Cont.irregularFind l (fun a b => decide (R a b)) c false = .ok (-1)) := by
    intro R _ htr hirr htri hl
    have hle : ∀ i j : ℕ, ∀ (hi : i < l.length) (hj : j < l.length), i ≤ j → R l[i] l[j] ∨ l[i] = l[j] := by
      intro i j hi hj hij
      rcases Nat.lt_or_eq_of_le hij with h | h
      · exact Or.inl (List.pairwise_iff_getElem.mp hl _ _ _ _ h)
      · subst h; exact Or.inr rfl
    have htl : ∀ {x y z}, (R x y ∨ x = y) → R y z → R x z := by
      rintro x y z (h | rfl) h'
      · exact htr _ _ _ h h'
      · exact h'
    have htr' : ∀ {x y z}, R x y → (R y z ∨ y = z) → R x z := by
      rintro x y z h (h' | rfl)
      · exact htr _ _ _ h h'
      · exact h
    refine ⟨?_, ?_, ?_⟩
    · intro c b n1 n2
      rcases irregularFind_cases R l c b htr hirr htri hl hne with
        ⟨r, hr, hr0, c1, c2, e⟩ | ⟨_, ⟨c1, -⟩ | ⟨c1, e⟩⟩ | ⟨_, c1, -⟩
      · have fr : l.getD ((r : ℤ)).toNat 0 = l[r] := hf r hr
        have fr1 : l.getD ((r : ℤ) - 1).toNat 0 = l[r - 1] := by
          rw [hf' _ (by omega) (by omega)]
          congr 1
          omega
        rw [e]
        by_cases hcmp : |sub c l[r - 1]| < |sub c l[r]|
        · refine ⟨(r : ℤ) - 1, by rw [if_pos hcmp], by omega, by omega, ?_⟩
          intro j j0 j1
          rw [fr1, hf' j j0 (by omega)]
          refine ⟨fun _ => ?_, fun h => absurd (htr _ _ _ h c1) (hirr _)⟩
          rcases Nat.lt_or_ge j.toNat r with hj | hj
          · exact Or.inl (hle _ _ _ _ (by omega))
          · have := hle r j.toNat hr (by omega) hj
            rcases c2 with c2 | c2
            · exact Or.inr (Or.inl (htr' c2 this))
            · rcases this with h | h
              · exact Or.inr (Or.inl (by rw [c2]; exact h))
              · exact Or.inr (Or.inr (by rw [c2]; exact h))
        · refine ⟨(r : ℤ), by rw [if_neg hcmp], by omega, by omega, ?_⟩
          intro j j0 j1
          rw [fr, hf' j j0 (by omega)]
          refine ⟨fun h => ?_, fun _ => ?_⟩
          · rcases c2 with c2 | c2
            · exact absurd (htr _ _ _ h c2) (hirr _)
            · rw [← c2] at h; exact absurd h (hirr _)
          · rcases Nat.lt_or_ge j.toNat r with hj | hj
            · exact Or.inr (Or.inl (htl (hle _ (r - 1) _ (by omega) (by omega)) c1))
            · exact Or.inl (hle _ _ _ _ (by omega))
      · exact absurd c1 n1
      · refine ⟨0, e, le_rfl, by omega, ?_⟩
        intro j j0 j1
        rw [h0, ← c1]
        exact ⟨fun h => absurd h (hirr _), fun h => absurd h (hirr _)⟩
      · exact absurd c1 n2
    · intro c hc
      rcases irregularFind_cases R l c false htr hirr htri hl hne with
        ⟨r, hr, hr0, c1, c2, e⟩ | ⟨hp, ⟨c1, e⟩ | ⟨c1, e⟩⟩ | ⟨_, c1, e⟩
      · exfalso
        have := htl (hle r (l.length - 1) hr (by omega) (by omega)) hc
        rcases c2 with c2 | c2
        · exact hirr _ (htr _ _ _ c2 this)
        · rw [← c2] at this; exact hirr _ this
      · exact e
      · exfalso
        have := htl (hle 0 (l.length - 1) hp (by omega) (by omega)) hc
        rw [c1] at this; exact hirr _ this
      · exact e
    · intro c hc
      rcases irregularFind_cases R l c false htr hirr htri hl hne with
        ⟨r, hr, hr0, c1, c2, e⟩ | ⟨hp, ⟨c1, e⟩ | ⟨c1, e⟩⟩ | ⟨_, c1, e⟩
      · exfalso
        have := htr' hc (hle 0 (r - 1) (by omega) (by omega) (by omega))
        exact hirr _ (htr _ _ _ this c1)
      · exact e
      · exfalso
        rw [c1] at hc; exact hirr _ hc
      · exact e
  cases asc with
  | true =>
    have hl := ha rfl
    obtain ⟨k1, k2, k3⟩ := key (fun x y => x < y) (fun x y z => lt_trans) (fun x => lt_irrefl x)
      (fun x y => lt_trichotomy x y) hl
    have hup := hpairs _ hl
    have h0l : l[0] < l[l.length - 1] := by
      have := hup 0 ((l.length : ℤ) - 1) le_rfl (by omega) (by omega)
      rwa [h0, hlast] at this
    refine ⟨by exact_mod_cast htwo, rfl, ?_, ?_, fun _ => hup, fun h => (Bool.noConfusion h), ?_, ?_, ?_⟩
    · intro i i0 i1
      change rd l i = _
      rw [rd_ok' l i i0 (by omega)]
      simp [List.getD_eq_getElem?_getD, show i.toNat < l.length by omega]
    · intro i i0 i1
      simp only [hf' i i0 (by omega)]
      exact hd _ (List.getElem_mem _)
    · intro c hc hbt b
      simp only [h0, hlast] at hbt
      have hin : l[0] ≤ c ∧ c ≤ l[l.length - 1] := by
        rcases hbt with h | h
        · exact h
        · linarith [h.1, h.2]
      obtain ⟨i, e, i0, i1, hi⟩ := k1 c b (not_lt.2 hin.1) (not_lt.2 hin.2)
      refine ⟨i, by simpa [Cont.findIndex] using e, i0, i1, ?_⟩
      intro j j0 j1
      obtain ⟨g1, g2⟩ := hi j j0 j1
      exact ⟨fun h => (g1 h).imp le_iff_lt_or_eq.2 le_iff_lt_or_eq.2, fun h => (g2 h).imp le_iff_lt_or_eq.2 le_iff_lt_or_eq.2⟩
    · intro c hc _ hout
      simp only [h0, hlast] at hout
      left
      have : l[l.length - 1] < c := by
        rcases hout with h | h
        · exact h.1
        · exact absurd h.2 (not_lt.2 h0l.le)
      simpa [Cont.findIndex] using k2 c this
    · intro c hc _ hout
      simp only [h0, hlast] at hout
      left
      have : c < l[0] := by
        rcases hout with h | h
        · exact h.1
        · exact absurd h.2 (not_lt.2 h0l.le)
      simpa [Cont.findIndex] using k3 c this
  | false =>
    have hl := hb rfl
    obtain ⟨k1, k2, k3⟩ := key (fun x y => y < x) (fun x y z h1 h2 => lt_trans h2 h1) (fun x => lt_irrefl x)
      (fun x y => by rcases lt_trichotomy x y with h | h | h <;> simp [h]) hl
    have hup := hpairs _ hl
    have h0l : l[l.length - 1] < l[0] := by
      have := hup 0 ((l.length : ℤ) - 1) le_rfl (by omega) (by omega)
      rwa [h0, hlast] at this
    refine ⟨by exact_mod_cast htwo, rfl, ?_, ?_, fun h => (Bool.noConfusion h), fun _ => hup, ?_, ?_, ?_⟩
    · intro i i0 i1
      change rd l i = _
      rw [rd_ok' l i i0 (by omega)]
      simp [List.getD_eq_getElem?_getD, show i.toNat < l.length by omega]
    · intro i i0 i1
      simp only [hf' i i0 (by omega)]
      exact hd _ (List.getElem_mem _)
    · intro c hc hbt b
      simp only [h0, hlast] at hbt
      have hin : l[l.length - 1] ≤ c ∧ c ≤ l[0] := by
        rcases hbt with h | h
        · linarith [h.1, h.2]
        · exact h
      obtain ⟨i, e, i0, i1, hi⟩ := k1 c b (not_lt.2 hin.2) (not_lt.2 hin.1)
      refine ⟨i, by simpa [Cont.findIndex] using e, i0, i1, ?_⟩
      intro j j0 j1
      obtain ⟨g1, g2⟩ := hi j j0 j1
      refine ⟨fun h => (g2 h).imp ?_ ?_, fun h => (g1 h).imp ?_ ?_⟩ <;>
      · rintro (e | e)
        · exact e.le
        · exact e.ge
    · intro c hc _ hout
      simp only [h0, hlast] at hout
      left
      have : c < l[l.length - 1] := by
        rcases hout with h | h
        · exact absurd h.2 (not_lt.2 h0l.le)
        · exact h.1
      simpa [Cont.findIndex] using k2 c this
    · intro c hc _ hout
      simp only [h0, hlast] at hout
      left
      have : l[0] < c := by
        rcases hout with h | h
        · exact absurd h.2 (not_lt.2 h0l.le)
        · exact h.1
      simpa [Cont.findIndex] using k3 c this

/-! ### Regular containers -/

theorem round_side {r : Reg} (s : Sane 49 r) {c : ℚ} :
    ((0 < r.step ∧ c ≤ r.start) ∨ (r.step < 0 ∧ r.start ≤ c) → round (mul (sub c r.start) r.inv) ≤ 0) ∧
    ((0 < r.step ∧ r.back ≤ c) ∨ (r.step < 0 ∧ c ≤ r.back) → r.size - 1 ≤ round (mul (sub c r.start) r.inv)) := by
  have hsz := s.size_pos
  have hback : round (mul (sub r.back r.start) r.inv) = r.size - 1 := findIndex_coord s (by omega) (by omega)
  have r0 : round 0 = 0 := by unfold round; norm_num
  have neg : r.step < 0 → r.inv ≤ 0 := by
    intro hs
    rw [s.inv_eq]
    have := fl_nonneg (x := 1 / -r.step) (by apply div_nonneg <;> linarith)
    rw [div_neg, fl_neg] at this
    unfold div; linarith
  have pos : 0 < r.step → 0 ≤ r.inv := by
    intro hs
    rw [s.inv_eq]
    exact fl_nonneg (by positivity)
  have npos : ∀ {y : ℚ}, y ≤ 0 → fl y ≤ 0 := fun h => by
    have := fl_mono h
    rwa [fl_zero] at this
  constructor
  · rintro (⟨h1, h2⟩ | ⟨h1, h2⟩)
    · rw [← r0]
      exact round_mono (npos (mul_nonpos_of_nonpos_of_nonneg (npos (by linarith)) (pos h1)))
    · rw [← r0]
      exact round_mono (npos (mul_nonpos_of_nonneg_of_nonpos (fl_nonneg (by linarith)) (neg h1)))
  · rintro (⟨h1, h2⟩ | ⟨h1, h2⟩)
    · rw [← hback]
      exact round_mono (fl_mono (mul_le_mul_of_nonneg_right (fl_mono (by linarith)) (pos h1)))
    · rw [← hback]
      exact round_mono (fl_mono (mul_le_mul_of_nonpos_right (fl_mono (by linarith)) (neg h1)))

theorem round_lt {r : Reg} (s : Sane 49 r) {c : ℚ} (hb : |c - r.start| ≤ 2 ^ 61 * |r.step|) :
    |round (mul (sub c r.start) r.inv)| < 2 ^ 63 := by
  have hp := s.pos
  have q := s.quot_err (show (1 : ℚ) ≤ 2 ^ 61 by norm_num) hb
  have hre := round_err (mul (sub c r.start) r.inv)
  have hQB : |(c - r.start) / r.step| ≤ 2 ^ 61 := by rw [abs_div, div_le_iff₀ hp]; exact hb
  have hk : |((round (mul (sub c r.start) r.inv) : ℤ) : ℚ)| < 2 ^ 63 := by
    set y := mul (sub c r.start) r.inv
    calc |((round y : ℤ) : ℚ)| = |((round y : ℚ) - y) + ((y - (c - r.start) / r.step) + (c - r.start) / r.step)| := by ring_nf
      _ ≤ _ := abs_add_le _ _
      _ ≤ 1 / 2 + (2 ^ 61 * 2 ^ (-51 : ℤ) + 2 ^ 61) := add_le_add hre ((abs_add_le _ _).trans (add_le_add q hQB))
      _ < _ := by norm_num
  exact_mod_cast hk

theorem coords_regular {r : Reg} (s : Sane 49 r) (ha : r.asc = decide (0 < r.step)) :
    Coords (.regular r) r.size r.coord := by
  have hsz := s.size_pos
  have hz := coord_zero s
  have hne : r.step ≠ 0 := abs_pos.1 s.pos
  have hcmp := coord_lt s (i := 0) (j := r.size - 1) le_rfl (by omega) (by omega)
  have hup : r.asc = true → 0 < r.step := by rw [ha]; simp
  have hdn : r.asc = false → r.step < 0 := by
    rw [ha]
    simp only [decide_eq_false_iff_not, not_lt]
    exact fun h => lt_of_le_of_ne h hne
  have far : ∀ c, |c - r.coord 0| ≤ 2 ^ 60 * |r.coord 1 - r.coord 0| → |c - r.start| ≤ 2 ^ 61 * |r.step| := by
    intro c h
    rw [hz] at h
    have e := coord_err49 s (i := 1) (by omega) (by omega)
    have : |r.coord 1 - r.start| ≤ 2 * |r.step| := by
      have e2 : r.coord 1 - r.start = (r.coord 1 - (r.start + (1 : ℤ) * r.step)) + r.step := by push_cast; ring
      rw [e2]
      refine (abs_add_le _ _).trans ((add_le_add e le_rfl).trans ?_)
      linarith [s.pos]
    refine h.trans ?_
    linarith
  refine ⟨hsz, rfl, fun i _ _ => rfl, fun i _ _ => isDouble_fl _,
    fun h i j i0 hij hj => (coord_lt s i0 hij hj).1 (hup h), fun h i j i0 hij hj => (coord_lt s i0 hij hj).2 (hdn h), ?_, ?_, ?_⟩
  · intro c hc hb b
    have hb' : Btw r.start c r.back := by
      rw [hz] at hb
      exact hb
    obtain ⟨i0, i1, -⟩ := round_inside s hb'
    set i := round (mul (sub c r.start) r.inv) with hi
    have hf := fun b => findIndex_ok s (b := b) hi.symm i0 i1
    refine ⟨i, hf b, i0, i1, ?_⟩
    obtain ⟨p, q, e, ⟨p0, p1⟩, ⟨q0, q1⟩, hpq, hbt⟩ := findIndexes_frame s ha hc hb'
    rw [findIndexes_val (hf false) (by omega)] at e
    -- one of the two indexes is the one found
    have hmem : i = p ∨ i = q := by
      simp only [Except.ok.injEq] at e
      by_cases h1 : sub c (r.coord i) = 0
      · simp only [if_pos h1] at e
        by_cases h2 : i = r.size - 1
        · simp only [if_pos h2] at e
          split_ifs at e
          simp only [Option.some.injEq, Prod.mk.injEq] at e
          omega
        · simp only [if_neg h2] at e
          split_ifs at e
          simp only [Option.some.injEq, Prod.mk.injEq] at e
          omega
      · simp only [if_neg h1] at e
        by_cases h2 : sub c (r.coord i) < 0
        · simp only [if_pos h2] at e
          split_ifs at e <;> (simp only [Option.some.injEq, Prod.mk.injEq] at e; omega)
        · simp only [if_neg h2] at e
          split_ifs at e <;> (simp only [Option.some.injEq, Prod.mk.injEq] at e; omega)
    have mono : ∀ a b : ℤ, 0 ≤ a → a < r.size → 0 ≤ b → b < r.size → a ≤ b →
        (0 < r.step → r.coord a ≤ r.coord b) ∧ (r.step < 0 → r.coord b ≤ r.coord a) := by
      intro a b a0 _ _ b1 hab
      rcases lt_or_eq_of_le hab with h | h
      · exact ⟨fun hs => ((coord_lt s a0 h b1).1 hs).le, fun hs => ((coord_lt s a0 h b1).2 hs).le⟩
      · subst h; exact ⟨fun _ => le_rfl, fun _ => le_rfl⟩
    intro j j0 j1
    have cases : (j ≤ p ∧ j ≤ q) ∨ (p ≤ j ∧ q ≤ j) := by omega
    have mpq : Btw (r.coord p) c (r.coord q) := hbt
    rcases lt_or_gt_of_ne hne with hs | hs
    · rcases cases with ⟨g1, g2⟩ | ⟨g1, g2⟩
      · have a1 := (mono j p j0 j1 p0 p1 g1).2 hs
        have a2 := (mono j q j0 j1 q0 q1 g2).2 hs
        constructor
        · intro hlt
          right
          rcases hmem with h | h <;> rw [h] at hlt <;> rcases mpq with ⟨b1, b2⟩ | ⟨b1, b2⟩ <;> linarith
        · intro hlt
          left
          rcases hmem with h | h <;> rw [h] <;> assumption
      · have a1 := (mono p j p0 p1 j0 j1 g1).2 hs
        have a2 := (mono q j q0 q1 j0 j1 g2).2 hs
        constructor
        · intro hlt
          left
          rcases hmem with h | h <;> rw [h] <;> assumption
        · intro hlt
          right
          rcases hmem with h | h <;> rw [h] at hlt <;> rcases mpq with ⟨b1, b2⟩ | ⟨b1, b2⟩ <;> linarith
    · rcases cases with ⟨g1, g2⟩ | ⟨g1, g2⟩
      · have a1 := (mono j p j0 j1 p0 p1 g1).1 hs
        have a2 := (mono j q j0 j1 q0 q1 g2).1 hs
        constructor
        · intro hlt
          left
          rcases hmem with h | h <;> rw [h] <;> assumption
        · intro hlt
          right
          rcases hmem with h | h <;> rw [h] at hlt <;> rcases mpq with ⟨b1, b2⟩ | ⟨b1, b2⟩ <;> linarith
      · have a1 := (mono p j p0 p1 j0 j1 g1).1 hs
        have a2 := (mono q j q0 q1 j0 j1 g2).1 hs
        constructor
        · intro hlt
          right
          rcases hmem with h | h <;> rw [h] at hlt <;> rcases mpq with ⟨b1, b2⟩ | ⟨b1, b2⟩ <;> linarith
        · intro hlt
          left
          rcases hmem with h | h <;> rw [h] <;> assumption
  · intro c hc hfar hout
    have hu := abs_lt.1 (round_lt s (far c hfar))
    have hi : r.size - 1 ≤ round (mul (sub c r.start) r.inv) := by
      apply (round_side s).2
      rcases lt_or_gt_of_ne hne with hs | hs
      · right
        refine ⟨hs, ?_⟩
        have := hcmp.2 hs
        change c ≤ r.coord (r.size - 1)
        rcases hout with h | h
        · linarith [h.2]
        · exact h.1.le
      · left
        refine ⟨hs, ?_⟩
        have := hcmp.1 hs
        change r.coord (r.size - 1) ≤ c
        rcases hout with h | h
        · exact h.1.le
        · linarith [h.2]
    change r.findIndex c false = _ ∨ r.findIndex c false = _
    unfold Reg.findIndex
    generalize round (mul (sub c r.start) r.inv) = i at *
    simp only
    rw [if_neg (by omega), if_neg (by omega)]
    by_cases h : r.size ≤ i
    · left; rw [if_pos h]; rfl
    · right; rw [if_neg h]; congr 1; omega
  · intro c hc hfar hout
    have hu := abs_lt.1 (round_lt s (far c hfar))
    have hi : round (mul (sub c r.start) r.inv) ≤ 0 := by
      apply (round_side s).1
      rw [hz] at hout hcmp
      rcases lt_or_gt_of_ne hne with hs | hs
      · right
        refine ⟨hs, ?_⟩
        have := hcmp.2 hs
        rcases hout with h | h
        · linarith [h.2]
        · exact h.1.le
      · left
        refine ⟨hs, ?_⟩
        have := hcmp.1 hs
        rcases hout with h | h
        · exact h.1.le
        · linarith [h.2]
    change r.findIndex c false = _ ∨ r.findIndex c false = _
    unfold Reg.findIndex
    generalize round (mul (sub c r.start) r.inv) = i at *
    simp only
    rw [if_neg (by omega)]
    by_cases h : i < 0
    · left; rw [if_pos h]; rfl
    · right; rw [if_neg h, if_neg (by omega)]; congr 1; omega

end Pyinterp.Double
