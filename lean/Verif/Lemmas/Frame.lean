import Verif.Model.Frame
import Verif.Spec.Frame
import Verif.Lemmas.Variate
import Verif.Props.C47_Grid2D
import Verif.Props.C06_Indexes

/-!
Windows of the axes of a grid.
-/
namespace Pyinterp.Interp
open Pyinterp Spec Variate
set_option linter.unusedSectionVars false
set_option linter.unusedVariables false
set_option linter.unusedSimpArgs false

section
variable {T : Type} [CommRing T] [LinearOrder T] [IsStrictOrderedRing T] [AxisNum T]
  [LawfulAxisNum T]

theorem lt_of_asc {l : List T} (hs : l.Pairwise (· < ·)) {i j : Nat} (hi : i < l.length)
    (hj : j < l.length) : l[i] < l[j] ↔ i < j := by
  constructor
  · intro h
    by_contra hn
    rcases Nat.lt_or_ge j i with h' | h'
    · exact lt_asymm h (List.pairwise_iff_getElem.mp hs j i hj hi h')
    · have : i = j := by omega
      subst this
      exact lt_irrefl _ h
  · exact fun h => List.pairwise_iff_getElem.mp hs i j hi hj h

theorem le_of_asc {l : List T} (hs : l.Pairwise (· < ·)) {i j : Nat} (hi : i < l.length)
    (hj : j < l.length) : l[i] ≤ l[j] ↔ i ≤ j := by
  rw [← not_lt, lt_of_asc hs hj hi]
  omega

theorem asc_flag {a : Axis T} {l : List T} (h : AxisOk a l) (h2 : 2 ≤ l.length)
    (hasc : l.Pairwise (· < ·)) : a.cont.isAscending = true := by
  cases ha : a.cont.isAscending
  · exfalso
    have hd := h.stores.desc ha
    have e1 := List.pairwise_iff_getElem.mp hasc 0 1 (by omega) (by omega) (by omega)
    have e2 := List.pairwise_iff_getElem.mp hd 0 1 (by omega) (by omega) (by omega)
    exact lt_asymm e1 e2
  · rfl

/-- The pair of indexes found for a coordinate of the axis that is not the last one. -/
theorem findIndexes_node {a : Axis T} {l : List T} (h : AxisOk a l) (hasc : l.Pairwise (· < ·))
    {x : T} {k : Nat} (hk : k + 1 < l.length) (hc : a.normalizeCoordinate x = .ok l[k])
    (hcc : a.normalizeCoordinate l[k] = .ok l[k]) :
    a.findIndexes x = .ok (some ((k : Int), (k : Int) + 1)) := by
  obtain ⟨i0, hi1, hi2⟩ := h.find l[k] false
  have hsz : a.size = (l.length : Int) := h.stores.size_eq
  have hfi : a.findIndex l[k] false = .ok i0 := by
    unfold Axis.findIndex
    rw [hcc]; simpa [bind, Except.bind] using hi1
  have hi : i0 = (k : Int) := by
    rcases hi2 with ⟨-, -, ho⟩ | ⟨v, h0, hv, hn⟩
    · exact absurd ho (not_outside_mem (List.getElem_mem _))
    · obtain ⟨j, rfl⟩ := Int.eq_ofNat_of_zero_le h0
      have := hn l[k] (List.getElem_mem _)
      rw [sub_self, abs_zero] at this
      have hv0 : l[k] = v := sub_eq_zero.mp (abs_nonpos_iff.mp this)
      simp only [Int.toNat_natCast] at hv
      obtain ⟨hj, hjv⟩ := List.getElem?_eq_some_iff.mp hv
      have e : l[j] = l[k] := by rw [hjv, hv0]
      have h1 := (le_of_asc hasc hj (by omega : k < l.length)).1 e.le
      have h2 := (le_of_asc hasc (by omega : k < l.length) hj).1 e.ge
      omega
  subst hi
  have hv := h.stores.coord_eq k (by omega)
  unfold Axis.findIndexes
  rw [hc]
  have e1 : ¬ ((k : Int) = a.size - 1) := by omega
  have e2 : ¬ ((k : Int) = -1) := by omega
  simp only [bind, Except.bind, hfi, hv, sub_self, if_true, pure, Except.pure, e1, e2, if_false]
  rw [if_pos (by omega)]

/-- The pair of indexes found on an ascending axis. -/
theorem findIndexes_asc {a : Axis T} {l : List T} (h : AxisOk a l) (h2 : 2 ≤ l.length)
    (h3 : a.isCircle = true → 3 ≤ l.length) (hasc : l.Pairwise (· < ·)) (x : T) :
    ∃ c, OnTurn a l x c ∧
      ((a.isCircle = false ∧ Outside l c ∧ a.findIndexes x = .ok none) ∨
       ∃ (i : Nat) (hi : i < l.length), l[i] ≤ c ∧
        ((∃ h : i + 1 < l.length, c ≤ l[i + 1] ∧ (c < l[i + 1] ∨ i + 2 = l.length) ∧
          a.findIndexes x = .ok (some ((i : Int), (i : Int) + 1))) ∨
         (a.isCircle = true ∧ i + 1 = l.length ∧ (∀ v ∈ l, v ≤ c) ∧
          a.findIndexes x = .ok (some ((i : Int), 0))))) := by
  have hflag := asc_flag h h2 hasc
  obtain ⟨m, c, hm, hn, hr⟩ := findIndexes_spec h h2 x
  have ht := onTurn_of_normOf h hm hn
  obtain ⟨m', c2, hm', hn1, hn2, hn3⟩ := normalize_spec h x
  have e2 : c = c2 := onTurn_normOf h hm' hn2 ht
  subst e2
  refine ⟨c, ht, ?_⟩
  rcases hr with ⟨i, j, e, ⟨f1, f2, f3, f4, hf⟩, hp, ho⟩ | ⟨e, hc, ho⟩
  · right
    obtain ⟨i, rfl⟩ := Int.eq_ofNat_of_zero_le f1
    obtain ⟨j, rfl⟩ := Int.eq_ofNat_of_zero_le f2
    simp only [Int.toNat_natCast] at f3 f4 hf
    rcases hp hflag with hp | ⟨hc, hp1, hp2⟩
    · have hj : j = i + 1 := by omega
      subst hj
      rcases hf with ⟨-, hb⟩ | ⟨hc, hh, -⟩
      · rcases hb with hb | hb
        · refine ⟨i, f3, hb.1, Or.inl ⟨f4, hb.2, ?_, by rw [e]; rfl⟩⟩
          rcases hb.2.lt_or_eq with hlt | heq
          · exact Or.inl hlt
          · right
            by_contra hne
            subst heq
            rw [findIndexes_node h hasc (by omega : i + 1 + 1 < l.length) hn1 hn3] at e
            simp only [Except.ok.injEq, Option.some.injEq, Prod.mk.injEq] at e
            omega
        · have := (lt_of_asc hasc f3 f4).2 (by omega)
          exact absurd (lt_of_le_of_lt (hb.1.trans hb.2) this) (lt_irrefl _)
      · exfalso
        have := h3 hc
        omega
    · have hj : j = 0 := by omega
      subst hj
      have hi : i + 1 = l.length := by omega
      have hmax := (pairwise_head_min hasc (by omega)).2
      have hmi : l[l.length - 1] = l[i] := by congr 1; omega
      have hle : l[i] ≤ c := by
        rcases hf with ⟨hadj, hb⟩ | ⟨-, -, hall⟩
        · rcases findIndexes_first h hn1 hn3 e with h1 | ⟨v, h1, h3⟩ | ⟨v, h1, h3⟩ | ⟨h1, h3, h4⟩
          · rcases h1 with h1 | h1
            · have g1 := h1 l[i] (List.getElem_mem _)
              have g2 := h1 l[0] (List.getElem_mem _)
              rcases hb with hb | hb
              · exact hb.1
              · exact absurd hb.1 (not_le.mpr g2)
            · exact (h1 _ (List.getElem_mem _)).le
          · have := h.stores.coord_eq i f3
            rw [this] at h1
            injection h1 with h1
            rw [h1]; exact h3
          · have := h.stores.coord_eq 0 f4
            rw [this] at h1
            injection h1 with h1
            subst h1
            rcases hb with hb | hb
            · exact hb.1
            · exact absurd hb.1 (not_le.mpr h3)
          · omega
        · exact (hall _ (List.getElem_mem _)).le
      exact ⟨i, f3, hle, Or.inr ⟨hc, hi, fun v hv => (hmax.2 v hv).trans (hmi ▸ hle), by rw [e]; rfl⟩⟩
  · exact Or.inl ⟨hc, ho, e⟩

/-- The window when all the indexes are on the axis, or on a circular axis. -/
theorem window_fits {a : Axis T} {l : List T} (h : AxisOk a l) {x : T} {i : Nat} {j : Int}
    (hi : i < l.length) (hp : (i + 1 < l.length ∧ j = (i : Int) + 1) ∨ (a.isCircle = true ∧ i + 1 = l.length ∧ j = 0))
    (e : a.findIndexes x = .ok (some ((i : Int), j))) {n : Nat} (hn : 0 < n) (b : Boundary)
    (hfit : a.isCircle = true ∨ (n ≤ i + 1 ∧ i + n < l.length)) :
    a.findIndexesWindow x n b =
      .ok ((List.range (2 * n)).map fun (k : Nat) => ((i : Int) + 1 - n + k) % (l.length : Int)) := by
  have hsz : a.size = (l.length : Int) := h.stores.size_eq
  have hspec : ∀ k : Nat, k < 2 * n → windowIndex a.isCircle b l.length ((i : Int) + 1 - n + k) =
      some (((i : Int) + 1 - n + k) % (l.length : Int)) := by
    intro k hk
    unfold windowIndex
    split
    · rw [Int.emod_eq_of_lt (by omega) (by omega)]
    · rcases hfit with hc | hf
      · rw [if_pos hc]
      · omega
  have hw := windowLoop_window a.isCircle l.length b i j n hn (by omega) (by omega)
    (by
      rcases hp with hp | hp
      · left; omega
      · right; exact ⟨hp.1, by omega, hp.2.2⟩)
    (by
      intro _ hc
      rcases hfit with hf | hf
      · rw [hc] at hf; cases hf
      · omega)
  have hlist : (List.range (2 * n)).map (fun k : Nat => windowIndex a.isCircle b l.length ((i : Int) + 1 - n + k)) =
      (List.range (2 * n)).map fun (k : Nat) => some (((i : Int) + 1 - n + k) % (l.length : Int)) := by
    apply List.map_congr_left
    intro k hk
    exact hspec k (List.mem_range.mp hk)
  unfold Axis.findIndexesWindow
  rw [if_neg (by omega), e]
  simp only [bind, Except.bind, pure, Except.pure, hsz]
  congr 1
  have h2 := hw.2 (by rw [hlist]; simp)
  rw [hlist] at h2
  apply List.map_injective_iff.mpr (Option.some_injective _)
  rw [h2, List.map_map]
  rfl

/-- The window with an index that is not on the axis, without boundary mode. -/
theorem window_undef {a : Axis T} {l : List T} (h : AxisOk a l) {x : T} {i : Nat}
    (hi : i + 1 < l.length) (e : a.findIndexes x = .ok (some ((i : Int), (i : Int) + 1))) {n : Nat}
    (hn : 0 < n) (hc : a.isCircle = false) (hfit : ¬ (n ≤ i + 1 ∧ i + n < l.length)) :
    a.findIndexesWindow x n .undef = .ok [] := by
  have hsz : a.size = (l.length : Int) := h.stores.size_eq
  have hw := windowLoop_window a.isCircle l.length .undef i (i + 1) n hn (by omega) (by omega)
    (by left; omega) (by intro hb; cases hb)
  unfold Axis.findIndexesWindow
  rw [if_neg (by omega), e]
  simp only [bind, Except.bind, pure, Except.pure, hsz]
  congr 1
  apply hw.1
  rw [List.mem_map]
  by_cases h1 : n ≤ i + 1
  · refine ⟨2 * n - 1, List.mem_range.2 (by omega), ?_⟩
    unfold windowIndex
    rw [if_neg (by omega), hc]
    rfl
  · refine ⟨0, List.mem_range.2 (by omega), ?_⟩
    unfold windowIndex
    rw [if_neg (by omega), hc]
    rfl

end

section
variable {K : Type} [Field K] [LinearOrder K] [IsStrictOrderedRing K] [FloorRing K]

theorem getD_lt {α : Type} {l : List α} {i : Nat} (h : i < l.length) {d : α} : l.getD i d = l[i] := by
  simp [h]

/-- The coordinates of the axis for any index: turn after turn. -/
def unroll (l : List K) (j : Int) : K :=
  l.getD (j % (l.length : Int)).toNat 0 + ((j / (l.length : Int) : Int) : K) * 360

theorem unroll_lt {l : List K} (hasc : l.Pairwise (· < ·)) (hne : 0 < l.length)
    (ht : ∀ v ∈ l, v < l[0] + 360) {i j : Int} (hij : i < j) : unroll l i < unroll l j := by
  have hL : (0 : Int) < l.length := by omega
  have hi := Int.emod_nonneg i hL.ne'
  have hi' := Int.emod_lt_of_pos i hL
  have hj := Int.emod_nonneg j hL.ne'
  have hj' := Int.emod_lt_of_pos j hL
  have ei := Int.emod_add_mul_ediv i l.length
  have ej := Int.emod_add_mul_ediv j l.length
  unfold unroll
  have li : (i % (l.length : Int)).toNat < l.length := by omega
  have lj : (j % (l.length : Int)).toNat < l.length := by omega
  rw [getD_lt li, getD_lt lj]
  rcases lt_trichotomy (i / (l.length : Int)) (j / (l.length : Int)) with h | h | h
  · have h1 : ((i / (l.length : Int) : Int) : K) + 1 ≤ ((j / (l.length : Int) : Int) : K) := by
      exact_mod_cast h
    have h2 := ht _ (List.getElem_mem li)
    have h3 := (le_of_asc hasc hne lj).2 (Nat.zero_le _)
    linarith
  · rw [h]
    have : (i % (l.length : Int)).toNat < (j % (l.length : Int)).toNat := by
      rw [h] at ei
      omega
    have := (lt_of_asc hasc li lj).2 this
    linarith
  · exfalso
    have h1 : j / (l.length : Int) + 1 ≤ i / (l.length : Int) := h
    have h2 := Int.mul_le_mul_of_nonneg_left h1 hL.le
    rw [mul_add, mul_one] at h2
    omega

theorem unroll_turn {l : List K} (hne : 0 < l.length) (j : Int) :
    unroll l (j + l.length) = unroll l j + 360 := by
  have hL : (l.length : Int) ≠ 0 := by omega
  unfold unroll
  rw [Int.add_emod_right, Int.add_ediv_of_dvd_right (Int.dvd_refl _), Int.ediv_self hL]
  push_cast
  ring

theorem unroll_turns {l : List K} (hne : 0 < l.length) (j k : Int) :
    unroll l (j + k * l.length) = unroll l j + (k : K) * 360 := by
  have hL : (l.length : Int) ≠ 0 := by omega
  unfold unroll
  rw [Int.add_mul_emod_self_right, Int.add_mul_ediv_right _ _ hL]
  push_cast
  ring

theorem unroll_nat {l : List K} {i : Nat} (hi : i < l.length) : unroll l (i : Int) = l[i] := by
  unfold unroll
  rw [Int.emod_eq_of_lt (by omega) (by omega), Int.ediv_eq_zero_of_lt (by omega) (by omega)]
  simp [hi]

theorem unroll_mod {l : List K} (hne : 0 < l.length) (j : Int) :
    ∃ h : (j % (l.length : Int)).toNat < l.length,
      unroll l j = l[(j % (l.length : Int)).toNat] + ((j / (l.length : Int) : Int) : K) * 360 := by
  have hL : (0 : Int) < l.length := by omega
  have hj := Int.emod_nonneg j hL.ne'
  have hj' := Int.emod_lt_of_pos j hL
  refine ⟨by omega, ?_⟩
  unfold unroll
  rw [getD_lt (by omega)]

/-- A value of the turn that starts at `m` is the normalised angle. -/
theorem normalizeAngleF_unique {x m r : K} (k : ℤ) (h : r = x + (k : K) * 360) (h0 : m ≤ r)
    (h1 : r < m + 360) : Math.normalizeAngleF x m 360 = r := by
  unfold Math.normalizeAngleF
  obtain ⟨a, b, k', e⟩ := Math.remainderF_spec (x - m) (360 : K) (by norm_num)
  have hk : k' = k := by
    by_contra hne
    have e' : (Math.remainderF (x - m) 360 + m) - r = ((k' - k : ℤ) : K) * 360 := by
      rw [e, h]; push_cast; ring
    rcases lt_or_gt_of_ne hne with hl | hl
    · have : ((k' - k : ℤ) : K) ≤ ((-1 : ℤ) : K) := by exact_mod_cast (by omega : k' - k ≤ -1)
      push_cast at this e'
      nlinarith
    · have : ((1 : ℤ) : K) ≤ ((k' - k : ℤ) : K) := by exact_mod_cast (by omega : 1 ≤ k' - k)
      push_cast at this e'
      nlinarith
  rw [e, hk, h]
  ring

theorem mapM_ok {α β : Type} (f : α → Out β) (g : α → β) (l : List α) (h : ∀ a ∈ l, f a = .ok (g a)) :
    l.mapM f = .ok (l.map g) := by
  induction l with
  | nil => rfl
  | cons a l ih =>
    rw [List.mapM_cons, h a (by simp), ih (fun b hb => h b (by simp [hb]))]
    rfl

/-- The indexes of the window that starts at `s`. -/
def windowFrom (l : List K) (s : Int) (n : Nat) : List Int :=
  (List.range (2 * n)).map fun (k : Nat) => (s + k) % (l.length : Int)

theorem mod_next {s L : Int} (hL : 0 < L) :
    (s + 1) % L = s % L + 1 ∨ (s % L = L - 1 ∧ (s + 1) % L = 0) := by
  have h1 := Int.emod_nonneg s hL.ne'
  have h2 := Int.emod_lt_of_pos s hL
  have e : (s + 1) % L = (s % L + 1) % L := by rw [Int.emod_add_emod]
  by_cases h : s % L + 1 < L
  · left
    rw [e, Int.emod_eq_of_lt (by omega) h]
  · right
    refine ⟨by omega, ?_⟩
    rw [e, show s % L + 1 = L by omega, Int.emod_self]

theorem window_x {a : Axis K} {l : List K} (h : AxisOk a l) (hasc : l.Pairwise (· < ·)) {x : K} {n : Nat}
    (hn : 0 < n) (hturn : a.isAngle = true → ∀ v ∈ l, ∀ w ∈ l, w < v + 360) {c : K}
    (ht : OnTurn a l x c) {i : Nat} (hi : i < l.length) (hle : l[i] ≤ c)
    (hup : (∃ h : i + 1 < l.length, c ≤ l[i + 1]) ∨ (a.isCircle = true ∧ i + 1 = l.length))
    (hfit : (a.isCircle = true ∧ 2 * n ≤ l.length) ∨ (n ≤ i + 1 ∧ i + n < l.length)) :
    ∃ (x0 : K) (xs : List K), a.cont.coord ((windowFrom l ((i : Int) + 1 - n) n).getD 0 0) = .ok x0 ∧
      (windowFrom l ((i : Int) + 1 - n) n).mapM (frameX a x0) = .ok xs ∧
      WindowAt l a.isAngle a.isCircle n x ((windowFrom l ((i : Int) + 1 - n) n).map Int.toNat) xs
        (frameQuery a xs x) := by
  have hne : 0 < l.length := by omega
  have hL : (0 : Int) < l.length := by omega
  have h2n : 2 * n ≤ l.length := by omega
  set s : Int := (i : Int) + 1 - n with hs
  have hring := fun j : Int => Int.emod_nonneg j hL.ne'
  have hlt := fun j : Int => Int.emod_lt_of_pos j hL
  have hco : ∀ j : Int, ∃ hj : (j % (l.length : Int)).toNat < l.length,
      a.cont.coord (j % (l.length : Int)) = .ok l[(j % (l.length : Int)).toNat] := by
    intro j
    have := hring j
    have := hlt j
    exact ⟨by omega, h.stores.coord_int _ (hring j) (by omega)⟩
  have hlen : (windowFrom l s n).length = 2 * n := by simp [windowFrom]
  have hw0 : (windowFrom l s n).getD 0 0 = s % (l.length : Int) := by
    rw [getD_lt (by omega)]
    simp [windowFrom]
  have hidx : ∀ k (hk : k < (windowFrom l s n).length), (windowFrom l s n)[k] = (s + k) % (l.length : Int) := by
    intro k hk
    simp [windowFrom]
  have hvalid : ∀ i ∈ (windowFrom l s n).map Int.toNat, i < l.length := by
    intro i hi
    obtain ⟨j, hj, rfl⟩ := List.mem_map.mp hi
    obtain ⟨k, hk, rfl⟩ := List.mem_map.mp hj
    have := hring (s + k)
    have := hlt (s + k)
    omega
  rw [hw0]
  obtain ⟨hs0, cs0⟩ := hco s
  rw [cs0]
  cases hang : a.isAngle
  · -- not an angle
    have hcirc : a.isCircle = false := by
      cases hc : a.isCircle
      · rfl
      · have := h.isCircle hc
        simp [Axis.isAngle, this] at hang
    rw [hcirc] at hup hfit
    have hf : n ≤ i + 1 ∧ i + n < l.length := by simpa using hfit
    obtain ⟨hi1, hc1⟩ : ∃ h : i + 1 < l.length, c ≤ l[i + 1] := by simpa using hup
    have hcx : c = x := ht.1 hang
    subst hcx
    have hmod : ∀ k : Nat, k < 2 * n → ((s + k) % (l.length : Int)).toNat = i + 1 - n + k := by
      intro k hk
      rw [Int.emod_eq_of_lt (by omega) (by omega)]
      omega
    have hxs : (windowFrom l s n).mapM (frameX a l[(s % (l.length : Int)).toNat]) =
        .ok ((windowFrom l s n).map fun j => l.getD j.toNat 0) := by
      apply mapM_ok
      intro j hj
      obtain ⟨k, hk, rfl⟩ := List.mem_map.mp hj
      obtain ⟨h1, h2⟩ := hco (s + k)
      unfold frameX
      rw [h2, getD_lt h1]
      simp [hang, bind, Except.bind]
    have hget : ∀ k (hk : k < ((windowFrom l s n).map fun j => l.getD j.toNat 0).length) (hk' : i + 1 - n + k < l.length),
        ((windowFrom l s n).map fun j => l.getD j.toNat 0)[k] = l[i + 1 - n + k] := by
      intro k hk hk'
      have hk2 : k < 2 * n := by simpa [windowFrom] using hk
      simp only [List.getElem_map, hidx]
      rw [hmod k hk2, getD_lt hk']
    have hq : frameQuery a ((windowFrom l s n).map fun j => l.getD j.toNat 0) c = c := by
      simp [frameQuery, hang]
    refine ⟨_, _, rfl, hxs, ?_⟩
    rw [hq, hcirc]
    refine ⟨by simpa using hlen, by simpa using hlen, hvalid, ?_, ?_, by simp, ?_, rfl, hn, ?_, ?_, ?_⟩
    · intro k hk
      left
      have hk2 : k + 1 < 2 * n := by simpa [windowFrom] using hk
      simp only [List.getElem_map, hidx]
      rw [hmod k (by omega), hmod (k + 1) hk2]
      omega
    · rw [List.pairwise_iff_getElem]
      intro p q hp hq hpq
      have hp2 : p < 2 * n := by simpa [windowFrom] using hp
      have hq2 : q < 2 * n := by simpa [windowFrom] using hq
      rw [hget p hp (by omega), hget q hq (by omega)]
      exact (lt_of_asc hasc _ _).2 (by omega)
    · intro k hk hk' hk''
      have hk2 : k < 2 * n := by simpa [windowFrom] using hk
      unfold SameCoordinate
      rw [if_neg (by simp), hget k hk' (by omega)]
      congr 1
      simp only [List.getElem_map, hidx]
      rw [hmod k hk2]
    · intro hh
      rw [hget _ hh (by omega)]
      have : l[i + 1 - n + (n - 1)] = l[i] := by congr 1; omega
      rw [this]; exact hle
    · intro hh
      rw [hget _ hh (by omega)]
      have : l[i + 1 - n + n] = l[i + 1] := by congr 1; omega
      rw [this]; exact hc1
    · intro v hv w hw hh hh'
      unfold SameCoordinate at hw
      rw [if_neg (by simp)] at hw
      subst hw
      obtain ⟨m, hm, rfl⟩ := List.getElem_of_mem hv
      rw [hget _ hh (by omega), hget _ hh' (by omega), lt_of_asc hasc, lt_of_asc hasc]
      omega
  · -- an angle
    obtain ⟨ht0, kx, hkx⟩ := ht.2 hang
    have ht0' := ht0 l[0] (List.getElem_mem _) (pairwise_head_min hasc hne).1.2
    have hturn' : ∀ v ∈ l, v < l[0] + 360 := fun v hv => hturn hang _ (List.getElem_mem _) v hv
    have hmono : ∀ {p q : Int}, p < q → unroll l p < unroll l q := fun hpq => unroll_lt hasc hne hturn' hpq
    have hmono' : ∀ {p q : Int}, p ≤ q → unroll l p ≤ unroll l q := by
      intro p q hpq
      rcases hpq.lt_or_eq with hpq | rfl
      · exact (hmono hpq).le
      · exact le_refl _
    have hend : ∀ k : Int, k < 2 * n → unroll l (s + k) < unroll l s + 360 := by
      intro k hk
      rw [← unroll_turn hne s]
      exact hmono (by omega)
    have hleU : unroll l i ≤ c := by rw [unroll_nat hi]; exact hle
    have hupU : c ≤ unroll l ((i : Int) + 1) := by
      rcases hup with ⟨h1, h2⟩ | ⟨-, h2⟩
      · have := unroll_nat h1
        push_cast at this
        rw [this]; exact h2
      · have e : (i : Int) + 1 = ((0 : Nat) : Int) + l.length := by omega
        rw [e, unroll_turn hne, unroll_nat hne]
        exact ht0'.2.le
    set D : K := ((s / (l.length : Int) : Int) : K) * 360 with hD
    have hx0 : l[(s % (l.length : Int)).toNat] = unroll l s - D := by
      obtain ⟨h1, h2⟩ := unroll_mod hne s
      rw [h2]; ring
    have hfx : ∀ k : Nat, k < 2 * n → frameX a l[(s % (l.length : Int)).toNat] ((s + k) % (l.length : Int)) =
        .ok (unroll l (s + k) - D) := by
      intro k hk
      obtain ⟨h1, h2⟩ := hco (s + k)
      obtain ⟨h3, h4⟩ := unroll_mod hne (s + k)
      unfold frameX
      rw [h2]
      simp only [hang, bind, Except.bind, if_true]
      congr 1
      apply normalizeAngleF_unique ((s + k) / (l.length : Int) - s / (l.length : Int))
      · rw [h4, hD]; push_cast; ring
      · rw [hx0]
        have := hmono' (show s ≤ s + k by omega)
        linarith
      · rw [hx0]
        have := hend k (by omega)
        linarith
    have hxs : (windowFrom l s n).mapM (frameX a l[(s % (l.length : Int)).toNat]) =
        .ok ((List.range (2 * n)).map fun (k : Nat) => unroll l (s + k) - D) := by
      unfold windowFrom
      rw [List.mapM_map]
      apply mapM_ok
      intro k hk
      exact hfx k (List.mem_range.mp hk)
    have hq : frameQuery a ((List.range (2 * n)).map fun (k : Nat) => unroll l (s + k) - D) x = c - D := by
      unfold frameQuery
      rw [if_pos hang]
      apply normalizeAngleF_unique (kx - s / (l.length : Int))
      · rw [hkx, hD]; push_cast; ring
      · rw [getD_lt (by simp; omega)]
        simp only [List.getElem_map, List.getElem_range, Nat.cast_zero, add_zero]
        have := hmono' (show s ≤ i by omega)
        linarith
      · rw [getD_lt (by simp; omega)]
        simp only [List.getElem_map, List.getElem_range, Nat.cast_zero, add_zero]
        have := hend n (by omega)
        have e : s + n = (i : Int) + 1 := by omega
        rw [e] at this
        linarith
    refine ⟨_, _, rfl, hxs, ?_⟩
    rw [hq]
    refine ⟨by simpa using hlen, by simp, hvalid, ?_, ?_, ?_, ?_, ?_, hn, ?_, ?_, ?_⟩
    · intro k hk
      simp only [List.getElem_map, hidx]
      have e : s + ((k + 1 : Nat) : Int) = s + k + 1 := by push_cast; ring
      rw [e]
      have := hring (s + k)
      have := hlt (s + k)
      have := hring (s + k + 1)
      rcases mod_next (s := s + k) hL with h1 | ⟨h1, h2⟩
      · left; omega
      · right
        refine ⟨?_, by omega, by omega⟩
        by_contra hcirc
        have hf : n ≤ i + 1 ∧ i + n < l.length := by
          rcases hfit with hf | hf
          · exact absurd hf.1 hcirc
          · exact hf
        have hk2 : k + 1 < 2 * n := by simpa [windowFrom] using hk
        rw [Int.emod_eq_of_lt (by omega) (by omega)] at h1
        omega
    · rw [List.pairwise_iff_getElem]
      intro p q hp hq hpq
      simp only [List.getElem_map, List.getElem_range]
      have := hmono (show s + (p : Int) < s + q by omega)
      linarith
    · intro _ u hu v hv
      obtain ⟨p, hp, rfl⟩ := List.mem_map.mp hu
      obtain ⟨q, hq, rfl⟩ := List.mem_map.mp hv
      rw [List.mem_range] at hq
      have h1 := hend q (by omega)
      have h2 := hmono' (show s ≤ s + p by omega)
      linarith
    · intro k hk hk' hk''
      unfold SameCoordinate
      rw [if_pos rfl]
      simp only [List.getElem_map, List.getElem_range, hidx]
      obtain ⟨h3, h4⟩ := unroll_mod hne (s + k)
      refine ⟨(s + k) / (l.length : Int) - s / (l.length : Int), ?_⟩
      rw [h4, hD]
      push_cast
      ring
    · unfold SameCoordinate
      rw [if_pos rfl]
      refine ⟨kx - s / (l.length : Int), ?_⟩
      rw [hkx, hD]; push_cast; ring
    · intro hh
      simp only [List.getElem_map, List.getElem_range]
      have e : s + ((n - 1 : Nat) : Int) = i := by omega
      rw [e]
      linarith
    · intro hh
      simp only [List.getElem_map, List.getElem_range]
      have e : s + (n : Int) = (i : Int) + 1 := by omega
      rw [e]
      linarith
    · intro v hv w hw hh hh'
      unfold SameCoordinate at hw
      rw [if_pos rfl] at hw
      obtain ⟨k, rfl⟩ := hw
      obtain ⟨m, hm, rfl⟩ := List.getElem_of_mem hv
      simp only [List.getElem_map, List.getElem_range]
      have e : s + (n : Int) = (i : Int) + 1 := by omega
      have e' : s + ((n - 1 : Nat) : Int) = i := by omega
      rw [e, e']
      rintro ⟨h1, h2⟩
      have em : l[m] + (k : K) * 360 + D = unroll l ((m : Int) + (k + s / (l.length : Int)) * l.length) := by
        rw [unroll_turns hne, unroll_nat hm, hD]
        push_cast
        ring
      set M : Int := (m : Int) + (k + s / (l.length : Int)) * l.length
      have g1 : unroll l i < unroll l M := by linarith
      have g2 : unroll l M < unroll l ((i : Int) + 1) := by linarith
      have g3 : (i : Int) < M := by
        by_contra hh
        exact absurd (hmono' (not_lt.mp hh)) (not_le.mpr g1)
      have g4 : M < (i : Int) + 1 := by
        by_contra hh
        exact absurd (hmono' (not_lt.mp hh)) (not_le.mpr g2)
      omega

theorem onTurn_unique {T : Type} [CommRing T] [LinearOrder T] [IsStrictOrderedRing T] [AxisNum T]
    [LawfulAxisNum T] {a : Axis T} {l : List T} (h : AxisOk a l) {x c c' : T}
    (ht : OnTurn a l x c) (ht' : OnTurn a l x c') : c = c' := by
  obtain ⟨m, c2, hm, -, hn, -⟩ := normalize_spec h x
  rw [onTurn_normOf h hm hn ht, onTurn_normOf h hm hn ht']

theorem count_le {l : List K} (hasc : l.Pairwise (· < ·)) {c : K} {i : Nat} (hi : i + 1 < l.length)
    (h0 : l[i] ≤ c) (h1 : c < l[i + 1]) :
    l.countP (· ≤ c) = i + 1 ∧ l.countP (c < ·) = l.length - (i + 1) := by
  have e := List.take_append_drop (i + 1) l
  have ht : ∀ v ∈ l.take (i + 1), v ≤ c := by
    intro v hv
    obtain ⟨k, hk, rfl⟩ := List.getElem_of_mem hv
    rw [List.length_take] at hk
    rw [List.getElem_take]
    exact ((le_of_asc hasc (by omega) (by omega : i < l.length)).2 (by omega)).trans h0
  have hd : ∀ v ∈ l.drop (i + 1), c < v := by
    intro v hv
    obtain ⟨k, hk, rfl⟩ := List.getElem_of_mem hv
    rw [List.length_drop] at hk
    rw [List.getElem_drop]
    exact lt_of_lt_of_le h1 ((le_of_asc hasc (by omega) (by omega)).2 (by omega))
  constructor
  · rw [← e, List.countP_append, List.countP_eq_length.2 (by simpa using ht),
      List.countP_eq_zero.2 (by simpa using hd)]
    simp; omega
  · rw [← e, List.countP_append, List.countP_eq_zero.2 (by simpa using ht),
      List.countP_eq_length.2 (by simpa using hd)]
    simp

theorem count_outside {l : List K} {c : K} (h : Outside l c) :
    l.countP (· ≤ c) = 0 ∨ (l.countP (c < ·) = 0 ∧ l.getLast? ≠ some c) := by
  rcases h with h | h
  · left
    rw [List.countP_eq_zero]
    simpa using h
  · right
    constructor
    · rw [List.countP_eq_zero]
      intro v hv
      simpa using (h v hv).le
    · intro hh
      exact lt_irrefl _ (h c (List.mem_of_getLast? hh))

/-- The window of an ascending axis. -/
theorem window_cases {a : Axis K} {l : List K} (h : AxisOk a l) (h2 : 2 ≤ l.length)
    (h3 : a.isCircle = true → 3 ≤ l.length) (hasc : l.Pairwise (· < ·)) {x c : K}
    (ht : OnTurn a l x c) {n : Nat} (hn : 0 < n) (b : Boundary) :
    (WindowFits l a.isCircle n c → ∃ (i : Nat) (hi : i < l.length), l[i] ≤ c ∧
      ((∃ h : i + 1 < l.length, c ≤ l[i + 1]) ∨ (a.isCircle = true ∧ i + 1 = l.length)) ∧
      ((a.isCircle = true ∧ 2 * n ≤ l.length) ∨ (n ≤ i + 1 ∧ i + n < l.length)) ∧
      a.findIndexesWindow x n b = .ok (windowFrom l ((i : Int) + 1 - n) n)) ∧
    (a.isCircle = false → (b = .undef ∧ ¬ WindowFits l false n c) ∨ Outside l c →
      a.findIndexesWindow x n b = .ok []) := by
  obtain ⟨c', ht', hr⟩ := findIndexes_asc h h2 h3 hasc x
  have := onTurn_unique h ht ht'
  subst this
  rcases hr with ⟨hc, ho, e⟩ | ⟨i, hi, hle, hr⟩
  · refine ⟨?_, fun _ _ => ?_⟩
    · intro hf
      exfalso
      unfold WindowFits at hf
      rw [hc, if_neg (by simp)] at hf
      rcases count_outside ho with h1 | ⟨h1, h2⟩
      · omega
      · rcases hf with ⟨-, hf | hf⟩
        · omega
        · exact h2 hf.2.1
    · obtain ⟨d, hd, hw | ⟨i0, i1, hf, -, -⟩⟩ := window_of_ok h h2 (asc_flag h h2 hasc) x n hn .undef
        (by intro hh; cases hh)
      · have := onTurn_unique h ht hd
        subst this
        -- the mode does not matter
        have key : ∀ b, a.findIndexesWindow x n b = a.findIndexesWindow x n .undef := by
          intro b
          unfold Axis.findIndexesWindow
          rw [e]
          rfl
        rw [key]
        exact hw.2.2
      · have hd' := onTurn_unique h ht hd
        subst hd'
        exfalso
        obtain ⟨f1, f2, f3, f4, hb | hb⟩ := hf
        · have g1 := hb.2
          rcases ho with ho | ho
          · have k1 := ho _ (List.getElem_mem f3)
            have k2 := ho _ (List.getElem_mem f4)
            rcases g1 with g1 | g1
            · exact absurd g1.1 (not_le.mpr k1)
            · exact absurd g1.1 (not_le.mpr k2)
          · have k1 := ho _ (List.getElem_mem f3)
            have k2 := ho _ (List.getElem_mem f4)
            rcases g1 with g1 | g1
            · exact absurd g1.2 (not_le.mpr k2)
            · exact absurd g1.2 (not_le.mpr k1)
        · rw [hc] at hb
          cases hb.1
  · rcases hr with ⟨h1, hle', hstrict, e⟩ | ⟨hc, hi1, hall, e⟩
    · have hfits : a.isCircle = false → (WindowFits l false n c ↔ (n ≤ i + 1 ∧ i + n < l.length)) := by
        intro hc
        unfold WindowFits
        rw [if_neg (by simp)]
        rcases hstrict with hlt | hlast
        · obtain ⟨e1, e2⟩ := count_le hasc h1 hle hlt
          rw [e1, e2]
          constructor
          · rintro ⟨g1, g2 | ⟨g2, g3, -⟩⟩
            · omega
            · omega
          · intro g
            exact ⟨by omega, Or.inl (by omega)⟩
        · rcases hle'.lt_or_eq with hlt | heq
          · obtain ⟨e1, e2⟩ := count_le hasc h1 hle hlt
            rw [e1, e2]
            constructor
            · rintro ⟨g1, g2 | ⟨g2, g3, -⟩⟩
              · omega
              · omega
            · intro g
              exact ⟨by omega, Or.inl (by omega)⟩
          · have hz : l.countP (c < ·) = 0 := by
              rw [List.countP_eq_zero]
              intro v hv
              obtain ⟨k, hk, rfl⟩ := List.getElem_of_mem hv
              have := (le_of_asc hasc hk h1).2 (by omega)
              rw [← heq] at this
              simpa using this
            have hl : l.getLast? = some c := by
              rw [List.getLast?_eq_getElem?, heq, List.getElem?_eq_getElem (by omega)]
              congr 1
              congr 1
              omega
            rw [hz, hl]
            constructor
            · rintro ⟨g1, g2 | g2⟩ <;> omega
            · intro g
              refine ⟨?_, Or.inr ⟨by omega, rfl, by omega⟩⟩
              have : n = 1 := by omega
              subst this
              rw [Nat.one_le_iff_ne_zero, ← Nat.pos_iff_ne_zero, List.countP_pos_iff]
              exact ⟨l[i], List.getElem_mem _, by simpa using hle⟩
      refine ⟨?_, ?_⟩
      · intro hf
        have hfit : (a.isCircle = true ∧ 2 * n ≤ l.length) ∨ (n ≤ i + 1 ∧ i + n < l.length) := by
          cases hc : a.isCircle
          · rw [hc] at hf
            exact Or.inr ((hfits hc).1 hf)
          · rw [hc] at hf
            exact Or.inl ⟨rfl, by simpa [WindowFits] using hf⟩
        refine ⟨i, hi, hle, Or.inl ⟨h1, hle'⟩, hfit, ?_⟩
        rw [window_fits h hi (Or.inl ⟨h1, rfl⟩) e hn b (hfit.imp_left And.left)]
        rfl
      · intro hc hb
        rcases hb with ⟨rfl, hb⟩ | ho
        · exact window_undef h h1 e hn hc (fun hh => hb ((hfits hc).2 hh))
        · exfalso
          rcases ho with ho | ho
          · exact absurd (ho _ (List.getElem_mem hi)) (not_lt.mpr hle)
          · exact absurd (ho _ (List.getElem_mem h1)) (not_lt.mpr hle')
    · refine ⟨?_, fun hc' => by rw [hc] at hc'; cases hc'⟩
      intro hf
      rw [hc] at hf
      have hfit : a.isCircle = true ∧ 2 * n ≤ l.length := ⟨hc, by simpa [WindowFits] using hf⟩
      refine ⟨i, hi, hle, Or.inr ⟨hc, hi1⟩, Or.inl hfit, ?_⟩
      rw [window_fits h hi (Or.inr ⟨hc, hi1, rfl⟩) e hn b (Or.inl hc)]
      rfl

end
end Pyinterp.Interp
