import Verif.Lemmas.AxisReach
import Verif.Spec.Window

namespace Pyinterp
open Spec

theorem windowLoop_some (circ : Bool) (len : Int) (b : Boundary) (i0 i1 : Int) (B A : Int → Int)
    (n : Nat) : ∀ (shift : Int) (acc : List Int),
    (∀ s, shift ≤ s → s < shift + n → Axis.windowBefore circ len b (i0 - s) = some (B s) ∧
      Axis.windowAfter circ len b (i1 + s) = some (A s)) →
    Axis.windowLoop circ len b i0 i1 n shift acc =
      (List.range n).reverse.map (fun t : Nat => B (shift + t)) ++ acc ++
      (List.range n).map (fun t : Nat => A (shift + t)) := by
  induction n with
  | zero => intro shift acc _; simp [Axis.windowLoop]
  | succ n ih =>
    intro shift acc h
    obtain ⟨h1, h2⟩ := h shift (le_refl _) (by omega)
    simp only [Axis.windowLoop, h1, h2]
    rw [ih (shift + 1) _ (fun s hs1 hs2 => h s (by omega) (by push_cast; omega))]
    have e1 : (List.range (n + 1)).map (fun t : Nat => A (shift + t)) =
        A shift :: (List.range n).map (fun t : Nat => A (shift + 1 + t)) := by
      rw [List.range_succ_eq_map]
      simp only [List.map_cons, List.map_map]
      congr 1
      · simp
      · apply List.map_congr_left
        intro t _; simp only [Function.comp]; congr 1; push_cast; ring
    have e2 : (List.range (n + 1)).map (fun t : Nat => B (shift + t)) =
        B shift :: (List.range n).map (fun t : Nat => B (shift + 1 + t)) := by
      rw [List.range_succ_eq_map]
      simp only [List.map_cons, List.map_map]
      congr 1
      · simp
      · apply List.map_congr_left
        intro t _; simp only [Function.comp]; congr 1; push_cast; ring
    rw [e1, List.map_reverse, List.map_reverse, e2]
    simp

/-- a refused boundary empties the window -/
theorem windowLoop_none (circ : Bool) (len : Int) (b : Boundary) (i0 i1 : Int)
    (n : Nat) : ∀ (shift : Int) (acc : List Int) (s : Int), shift ≤ s → s < shift + n →
    (Axis.windowBefore circ len b (i0 - s) = none ∨ Axis.windowAfter circ len b (i1 + s) = none) →
    Axis.windowLoop circ len b i0 i1 n shift acc = [] := by
  induction n with
  | zero => intro shift acc s h1 h2; omega
  | succ n ih =>
    intro shift acc s h1 h2 h3
    simp only [Axis.windowLoop]
    split
    · rename_i x y hx hy
      rcases Int.lt_or_eq_of_le h1 with h | h
      · exact ih (shift + 1) _ s (by omega) (by push_cast at h2; omega) h3
      · subst h
        rw [hx, hy] at h3
        simp at h3
    · rfl

theorem emod_add_len (j len : Int) : (len + j) % len = j % len := Int.add_emod_left len j

/-- the two sides of one iteration agree with the specification -/
theorem windowBefore_eq (circ : Bool) (len : Int) (b : Boundary) (j : Int) (hlen : 0 < len)
    (hj : j < len) (hb : b = .sym → -len < j) :
    Axis.windowBefore circ len b j = windowIndex circ b len j := by
  unfold Axis.windowBefore windowIndex
  by_cases h : j < 0
  · have h' : ¬ (0 ≤ j ∧ j < len) := by omega
    simp only [h, h', if_true, if_false]
    cases circ
    · simp only [Bool.not_false, if_true, Bool.false_eq_true, if_false]
      cases b
      · rfl
      · simp only [Math.remainderI_eq_emod _ _ hlen, emod_add_len]
      · simp only [Math.remainderI_eq_emod _ _ hlen]
        rw [Int.emod_eq_of_lt (by omega) (by have := hb rfl; omega)]
      · rfl
    · simp [Math.remainderI_eq_emod _ _ hlen]
  · have h' : (0 ≤ j ∧ j < len) := by omega
    simp [h, h']

theorem windowAfter_eq (circ : Bool) (len : Int) (b : Boundary) (j : Int) (hlen : 0 < len)
    (hj : 0 ≤ j) (hb : b = .sym → j < 2 * len - 1) :
    Axis.windowAfter circ len b j = windowIndex circ b len j := by
  unfold Axis.windowAfter windowIndex
  by_cases h : j ≥ len
  · have h' : ¬ (0 ≤ j ∧ j < len) := by omega
    simp only [h, h', if_true, if_false]
    have hn : ¬ (j < 0) := by omega
    cases circ
    · simp only [Bool.not_false, if_true, Bool.false_eq_true, if_false]
      cases b
      · simp [hn]
      · simp only [Math.remainderI_eq_emod _ _ hlen]
      · simp only [Math.remainderI_eq_emod _ _ hlen, hn, if_false]
        rw [Int.emod_eq_of_lt (by omega) (by have := hb rfl; omega)]
        congr 1; ring
      · rfl
    · simp [Math.remainderI_eq_emod _ _ hlen]
  · have h' : (0 ≤ j ∧ j < len) := by omega
    simp [h, h']

theorem windowIndex_shift (b : Boundary) (len j : Int) (_hlen : 0 < len) :
    windowIndex true b len (j + len) = windowIndex true b len j := by
  unfold windowIndex
  simp only [if_true]
  have e : (j + len) % len = j % len := Int.add_emod_right j len
  rw [e]
  split <;> split
  · rename_i h1 h2; omega
  · rename_i h1 h2
    have : j % len = j + len := by
      rw [← e]; exact Int.emod_eq_of_lt (by omega) (by omega)
    rw [this]
  · rename_i h1 h2
    rw [Int.emod_eq_of_lt (by omega) (by omega)]
  · rfl

/-- In range when defined. -/
theorem windowIndex_range (circ : Bool) (b : Boundary) (len j r : Int) (hlen : 0 < len)
    (hb : b = .sym → -len < j ∧ j < 2 * len - 1)
    (h : windowIndex circ b len j = some r) : 0 ≤ r ∧ r < len := by
  unfold windowIndex at h
  have h1 := Int.emod_nonneg j (show len ≠ 0 by omega)
  have h2 := Int.emod_lt_of_pos j hlen
  split at h
  · have := Option.some.inj h; omega
  · split at h
    · have := Option.some.inj h; omega
    · cases b <;> simp only at h
      · have := Option.some.inj h
        split at this <;> omega
      · have := Option.some.inj h; omega
      · have h3 := Option.some.inj h
        have := hb rfl
        split at h3 <;> omega
      · cases h

/-- Assembly of the window. `i1 = i0 + 1`, or the wrapped pair of a circular axis. -/
theorem windowLoop_window (circ : Bool) (len : Int) (b : Boundary) (i0 i1 : Int) (n : Nat)
    (hn : 0 < n) (hlen : 0 < len) (h0 : 0 ≤ i0 ∧ i0 < len)
    (hpair : (i1 = i0 + 1 ∧ i1 < len) ∨ (circ = true ∧ i0 = len - 1 ∧ i1 = 0))
    (hsym : b = .sym → circ = false → (n : Int) ≤ len) :
    let w := (List.range (2 * n)).map (fun k : Nat => windowIndex circ b len (i0 + 1 - n + k))
    (none ∈ w → Axis.windowLoop circ len b i0 i1 (n - 1) 1 [i0, i1] = []) ∧
    (none ∉ w → (Axis.windowLoop circ len b i0 i1 (n - 1) 1 [i0, i1]).map some = w) := by
  intro w
  have hbef : ∀ s : Int, 1 ≤ s → s < n → Axis.windowBefore circ len b (i0 - s) =
      windowIndex circ b len (i0 - s) := by
    intro s h1 h2
    cases hc : circ
    · exact windowBefore_eq _ _ _ _ hlen (by omega) (fun hb => by have := hsym hb hc; omega)
    · unfold Axis.windowBefore windowIndex
      by_cases h : i0 - s < 0
      · have h' : ¬ (0 ≤ i0 - s ∧ i0 - s < len) := by omega
        rw [if_pos h, if_neg h']
        simp [Math.remainderI_eq_emod _ _ hlen]
      · have h' : (0 ≤ i0 - s ∧ i0 - s < len) := by omega
        rw [if_neg h, if_pos h']
  have haft : ∀ s : Int, 1 ≤ s → s < n → Axis.windowAfter circ len b (i1 + s) =
      windowIndex circ b len (i0 + 1 + s) := by
    intro s h1 h2
    rcases hpair with ⟨hp, hp'⟩ | ⟨hc, hp1, hp2⟩
    · subst hp
      cases hc : circ
      · exact windowAfter_eq _ _ _ _ hlen (by omega) (fun hb => by have := hsym hb hc; omega)
      · unfold Axis.windowAfter windowIndex
        by_cases h : i0 + 1 + s ≥ len
        · have h' : ¬ (0 ≤ i0 + 1 + s ∧ i0 + 1 + s < len) := by omega
          rw [if_pos h, if_neg h']
          simp [Math.remainderI_eq_emod _ _ hlen]
        · have h' : (0 ≤ i0 + 1 + s ∧ i0 + 1 + s < len) := by omega
          simp [h, h']
    · subst hc
      have e : i0 + 1 + s = s + len := by omega
      rw [e, windowIndex_shift _ _ _ hlen, hp2]
      unfold Axis.windowAfter windowIndex
      by_cases h : 0 + s ≥ len
      · have h' : ¬ (0 ≤ s ∧ s < len) := by omega
        simp only [h, h', if_true, if_false]
        simp [Math.remainderI_eq_emod _ _ hlen]
      · have h' : (0 ≤ s ∧ s < len) := by omega
        simp [h']
  have hi0 : windowIndex circ b len i0 = some i0 := by unfold windowIndex; simp [h0]
  have hi1 : windowIndex circ b len (i0 + 1) = some i1 := by
    rcases hpair with ⟨hp, hp'⟩ | ⟨hc, hp1, hp2⟩
    · subst hp; unfold windowIndex; rw [if_pos (by omega)]
    · subst hc
      have : i0 + 1 = 0 + len := by omega
      rw [this, windowIndex_shift _ _ _ hlen, hp2]; unfold windowIndex; simp [hlen]
  constructor
  · intro hnone
    obtain ⟨k, hk, hk'⟩ := List.mem_map.mp hnone
    rw [List.mem_range] at hk
    rcases Nat.lt_or_ge k (n - 1) with h | h
    · apply windowLoop_none circ len b i0 i1 (n - 1) 1 _ ((n : Int) - 1 - k) (by omega) (by omega)
      left
      rw [hbef _ (by omega) (by omega), ← hk']; congr 1; omega
    · rcases Nat.lt_or_ge k n with h2 | h2
      · have : i0 + 1 - (n : Int) + k = i0 := by omega
        rw [this, hi0] at hk'; cases hk'
      · rcases Nat.lt_or_ge k (n + 1) with h3 | h3
        · have : i0 + 1 - (n : Int) + k = i0 + 1 := by omega
          rw [this, hi1] at hk'; cases hk'
        · apply windowLoop_none circ len b i0 i1 (n - 1) 1 _ ((k : Int) - n) (by omega) (by omega)
          right
          rw [haft _ (by omega) (by omega), ← hk']; congr 1; omega
  · intro hnone
    have hsome : ∀ k : Nat, k < 2 * n → ∃ r, windowIndex circ b len (i0 + 1 - n + k) = some r := by
      intro k hk
      cases hr : windowIndex circ b len (i0 + 1 - n + k) with
      | some r => exact ⟨r, rfl⟩
      | none => exact absurd (List.mem_map.mpr ⟨k, List.mem_range.mpr hk, hr⟩) hnone
    rw [windowLoop_some circ len b i0 i1 (fun s => (windowIndex circ b len (i0 - s)).getD 0)
      (fun s => (windowIndex circ b len (i0 + 1 + s)).getD 0) (n - 1) 1 [i0, i1]]
    · apply List.ext_getElem
      · simp [w]; omega
      · intro k hk1 hk2
        simp only [w, List.getElem_map, List.getElem_range]
        have hk3 : k < 2 * n := by simpa [w] using hk2
        obtain ⟨r, hr⟩ := hsome k hk3
        rw [hr]
        congr 1
        rcases Nat.lt_or_ge k (n - 1) with h | h
        · rw [List.getElem_append_left (by simp; omega), List.getElem_append_left (by simp; omega)]
          simp only [List.getElem_map, List.getElem_reverse, List.getElem_range, List.length_range]
          have e : i0 - (1 + ((n - 1 - 1 - k : Nat) : Int)) = i0 + 1 - n + k := by omega
          rw [e, hr]; rfl
        · rcases Nat.lt_or_ge k (n + 1) with h2 | h2
          · rw [List.getElem_append_left (by simp; omega), List.getElem_append_right (by simp; omega)]
            simp only [List.length_map, List.length_reverse, List.length_range]
            rcases Nat.eq_or_lt_of_le h with h3 | h3
            · have e : i0 + 1 - (n : Int) + k = i0 := by omega
              rw [e, hi0] at hr
              have e2 : k - (n - 1) = 0 := by omega
              simp only [e2, List.getElem_cons_zero]
              exact Option.some.inj hr
            · have e : i0 + 1 - (n : Int) + k = i0 + 1 := by omega
              rw [e, hi1] at hr
              have e2 : k - (n - 1) = 1 := by omega
              simp only [e2, List.getElem_cons_succ, List.getElem_cons_zero]
              exact Option.some.inj hr
          · rw [List.getElem_append_right (by simp; omega)]
            simp only [List.length_append, List.length_map, List.length_reverse, List.length_range,
              List.length_cons, List.length_nil, List.getElem_map, List.getElem_range]
            have e : i0 + 1 + (1 + ((k - (n - 1 + (0 + 1 + 1)) : Nat) : Int)) = i0 + 1 - n + k := by omega
            rw [e, hr]; rfl
    · intro s hs1 hs2
      constructor
      · rw [hbef s hs1 (by omega)]
        obtain ⟨r, hr⟩ := hsome (n - 1 - s.toNat) (by omega)
        have e : i0 + 1 - (n : Int) + ((n - 1 - s.toNat : Nat) : Int) = i0 - s := by omega
        rw [e] at hr; rw [hr]; rfl
      · rw [haft s hs1 (by omega)]
        obtain ⟨r, hr⟩ := hsome (n + s.toNat) (by omega)
        have e : i0 + 1 - (n : Int) + ((n + s.toNat : Nat) : Int) = i0 + 1 + s := by omega
        rw [e] at hr; rw [hr]; rfl

end Pyinterp
