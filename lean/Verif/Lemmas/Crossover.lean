import Verif.Model.Crossover
import Verif.Spec.Crossover
import Verif.Lemmas.Math
import Mathlib.Tactic.Linarith
import Mathlib.Tactic.Ring
import Mathlib.Data.List.Forall2
import Mathlib.Data.List.GetD
import Mathlib.Data.List.Dedup

namespace Pyinterp.Crossover

open Spec

set_option linter.unusedSectionVars false
set_option linter.unusedSimpArgs false

variable {K : Type} [Field K] [LinearOrder K] [FloorRing K]

theorem bindOk {α β : Type} {x : Out α} {a : α} {f : α → Out β} (h : x = .ok a) : (x >>= f) = f a := by
  subst h; rfl

theorem lonAt_ok {l : Line K} {i : Nat} (h : i < l.length) : lonAt l (i : Int) = .ok (l[i]).1 := by
  unfold lonAt rd
  rw [if_neg (by omega)]
  simp [h]

theorem frontLon_ok {l : Line K} (h : 0 < l.length) : frontLon l = .ok (l[0]).1 := lonAt_ok (i := 0) h

theorem backLon_ok {l : Line K} (h : 0 < l.length) : backLon l = .ok (l[l.length - 1]'(by omega)).1 := by
  unfold backLon
  have : ((l.length : Int) - 1) = ((l.length - 1 : Nat) : Int) := by omega
  rw [this]
  exact lonAt_ok (by omega)

/-- the western and eastern ends, according to the direction -/
def westEnd (r : Bool) (l : Line K) (h : 0 < l.length) : Pt K := if r then l[l.length - 1]'(by omega) else l[0]
def eastEnd (r : Bool) (l : Line K) (h : 0 < l.length) : Pt K := if r then l[0] else l[l.length - 1]'(by omega)

theorem normalize_eq (l1 l2 : Line K) (h1 : 3 ≤ l1.length) (h2 : 3 ≤ l2.length) :
    ∃ r1 r2 A B, r1 = isRetrograde (l1[0]).1 (l1[1]).1 (l1[2]).1 ∧
      r2 = isRetrograde (l2[0]).1 (l2[1]).1 (l2[2]).1 ∧
      (A = (westEnd r1 l1 (by omega)).1 ∨ A = (westEnd r2 l2 (by omega)).1) ∧
      B = max (shiftUp A (eastEnd r1 l1 (by omega))).1 (shiftUp A (eastEnd r2 l2 (by omega))).1 ∧
      normalize l1 l2 = .ok ((l1.map (shiftUp A)).map (shiftDown B), (l2.map (shiftUp A)).map (shiftDown B)) := by
  refine ⟨isRetrograde (l1[0]).1 (l1[1]).1 (l1[2]).1, isRetrograde (l2[0]).1 (l2[1]).1 (l2[2]).1, ?_⟩
  have e10 := lonAt_ok (l := l1) (i := 0) (by omega)
  have e11 := lonAt_ok (l := l1) (i := 1) (by omega)
  have e12 := lonAt_ok (l := l1) (i := 2) (by omega)
  have e20 := lonAt_ok (l := l2) (i := 0) (by omega)
  have e21 := lonAt_ok (l := l2) (i := 1) (by omega)
  have e22 := lonAt_ok (l := l2) (i := 2) (by omega)
  have f1 := frontLon_ok (l := l1) (by omega)
  have f2 := frontLon_ok (l := l2) (by omega)
  have b1 := backLon_ok (l := l1) (by omega)
  have b2 := backLon_ok (l := l2) (by omega)
  have g : ∀ (l : Line K) (A : K) (h : 0 < l.length), frontLon (l.map (shiftUp A)) = .ok (shiftUp A (l[0])).1 := by
    intro l A h
    rw [frontLon_ok (by simpa using h)]
    simp
  have g' : ∀ (l : Line K) (A : K) (h : 0 < l.length),
      backLon (l.map (shiftUp A)) = .ok (shiftUp A (l[l.length - 1]'(by omega))).1 := by
    intro l A h
    rw [backLon_ok (by simpa using h)]
    simp
  have key : ∀ r1 r2 : Bool, ∃ A B, (A = (westEnd r1 l1 (by omega)).1 ∨ A = (westEnd r2 l2 (by omega)).1) ∧
      B = max (shiftUp A (eastEnd r1 l1 (by omega))).1 (shiftUp A (eastEnd r2 l2 (by omega))).1 ∧
      (do
        let crossing ←
          if !r1 && !r2 then do pure (min (← frontLon l1) (← frontLon l1))
          else if !r1 && r2 then do pure (min (← frontLon l1) (← backLon l2))
          else if r1 && !r2 then do pure (min (← backLon l1) (← frontLon l2))
          else do pure (min (← backLon l1) (← backLon l2))
        let l1 := l1.map (shiftUp crossing)
        let l2 := l2.map (shiftUp crossing)
        let crossing ←
          if !r1 && !r2 then do pure (max (← backLon l1) (← backLon l2))
          else if !r1 && r2 then do pure (max (← backLon l1) (← frontLon l2))
          else if r1 && !r2 then do pure (max (← frontLon l1) (← backLon l2))
          else do pure (max (← frontLon l1) (← frontLon l2))
        pure (l1.map (shiftDown crossing), l2.map (shiftDown crossing)) : Out (Line K × Line K)) =
      .ok ((l1.map (shiftUp A)).map (shiftDown B), (l2.map (shiftUp A)).map (shiftDown B)) := by
    intro r1 r2
    cases r1 <;> cases r2
    · refine ⟨(l1[0]).1, _, Or.inl rfl, rfl, ?_⟩
      simp [bind, Except.bind, pure, Except.pure, f1, g' l1 _ (by omega), g' l2 _ (by omega), westEnd, eastEnd]
    · refine ⟨min (l1[0]).1 (l2[l2.length - 1]'(by omega)).1, _, ?_, rfl, ?_⟩
      · rcases min_choice (l1[0]).1 (l2[l2.length - 1]'(by omega)).1 with h | h <;> rw [h]
        · exact Or.inl rfl
        · exact Or.inr rfl
      · simp [bind, Except.bind, pure, Except.pure, f1, b2, g' l1 _ (by omega), g l2 _ (by omega), westEnd, eastEnd]
    · refine ⟨min (l1[l1.length - 1]'(by omega)).1 (l2[0]).1, _, ?_, rfl, ?_⟩
      · rcases min_choice (l1[l1.length - 1]'(by omega)).1 (l2[0]).1 with h | h <;> rw [h]
        · exact Or.inl rfl
        · exact Or.inr rfl
      · simp [bind, Except.bind, pure, Except.pure, b1, f2, g l1 _ (by omega), g' l2 _ (by omega), westEnd, eastEnd]
    · refine ⟨min (l1[l1.length - 1]'(by omega)).1 (l2[l2.length - 1]'(by omega)).1, _, ?_, rfl, ?_⟩
      · rcases min_choice (l1[l1.length - 1]'(by omega)).1 (l2[l2.length - 1]'(by omega)).1 with h | h <;> rw [h]
        · exact Or.inl rfl
        · exact Or.inr rfl
      · simp [bind, Except.bind, pure, Except.pure, b1, b2, g l1 _ (by omega), g l2 _ (by omega), westEnd, eastEnd]
  obtain ⟨A, B, hA, hB, he⟩ := key (isRetrograde (l1[0]).1 (l1[1]).1 (l1[2]).1) (isRetrograde (l2[0]).1 (l2[1]).1 (l2[2]).1)
  refine ⟨A, B, rfl, rfl, hA, hB, ?_⟩
  unfold normalize
  rw [if_neg (by omega)]
  show (lonAt l1 0 >>= _) = _
  refine Eq.trans (bindOk e10) ?_
  refine Eq.trans (bindOk e11) ?_
  refine Eq.trans (bindOk e12) ?_
  refine Eq.trans (bindOk e20) ?_
  refine Eq.trans (bindOk e21) ?_
  refine Eq.trans (bindOk e22) ?_
  exact he

/-! ### windows of one turn -/

variable [IsStrictOrderedRing K]

theorem turns_lt {k : ℤ} {d : K} (h : (k : K) * 360 = d) (h1 : d < 360) : k ≤ 0 := by
  by_contra hc
  have : (1 : ℤ) ≤ k := by omega
  have : (1 : K) ≤ (k : K) := by exact_mod_cast this
  linarith

theorem turns_zero {k : ℤ} {d : K} (h : (k : K) * 360 = d) (h1 : d < 360) (h2 : -360 < d) : k = 0 := by
  have a := turns_lt h h1
  have b := turns_lt (k := -k) (d := -d) (by push_cast; rw [← h]; ring) (by linarith)
  omega

/-- two longitudes of the same meridian in a window of one turn are equal -/
theorem window_unique {a x y : K} (hx : SameMeridian a x) (hy : SameMeridian a y) (h1 : x - y < 360)
    (h2 : y - x < 360) : x = y := by
  obtain ⟨k, hk⟩ := hx
  obtain ⟨k', hk'⟩ := hy
  have e : ((k - k' : ℤ) : K) * 360 = x - y := by rw [hk, hk']; push_cast; ring
  have := turns_zero e h1 (by linarith)
  rw [this] at e
  simp at e
  linarith

theorem sm_refl (x : K) : SameMeridian x x := ⟨0, by simp⟩

theorem sm_symm {x y : K} (h : SameMeridian x y) : SameMeridian y x := by
  obtain ⟨k, rfl⟩ := h
  exact ⟨-k, by push_cast; ring⟩

theorem sm_trans {x y z : K} (h : SameMeridian x y) (h' : SameMeridian y z) : SameMeridian x z := by
  obtain ⟨k, rfl⟩ := h
  obtain ⟨k', rfl⟩ := h'
  exact ⟨k + k', by push_cast; ring⟩

theorem shiftUp_spec (A : K) (p : Pt K) : SameMeridian p.1 (shiftUp A p).1 ∧ (shiftUp A p).2 = p.2 := by
  unfold shiftUp
  split
  · exact ⟨⟨1, by simp⟩, rfl⟩
  · exact ⟨sm_refl _, rfl⟩

theorem shiftDown_spec (A : K) (p : Pt K) : SameMeridian p.1 (shiftDown A p).1 ∧ (shiftDown A p).2 = p.2 := by
  unfold shiftDown
  split
  · exact ⟨⟨-1, by push_cast; ring⟩, rfl⟩
  · exact ⟨sm_refl _, rfl⟩

theorem shiftUp_window {w A : K} {p : Pt K} (h1 : w ≤ p.1) (h2 : p.1 < w + 360) (h3 : w ≤ A) (h4 : A < w + 360) :
    A ≤ (shiftUp A p).1 ∧ (shiftUp A p).1 < A + 360 := by
  unfold shiftUp
  split
  · next h => exact ⟨by simp only; linarith, by simp only; linarith⟩
  · next h => exact ⟨not_lt.1 h, by linarith⟩

theorem shiftDown_window {A B : K} {p : Pt K} (h1 : A ≤ p.1) (h2 : p.1 < A + 360) (h3 : A ≤ B) (h4 : B < A + 360) :
    B - 360 < (shiftDown B p).1 ∧ (shiftDown B p).1 ≤ B := by
  unfold shiftDown
  split
  · next h => exact ⟨by simp only; linarith, by simp only; linarith⟩
  · next h => exact ⟨by linarith, not_lt.1 h⟩

/-- The heart of C90: when the western end of one of the tracks is `A` and `B` is the easternmost end
(seen from `A`), the window ]B - 360, B] cuts neither of them. -/
theorem unroll {sa ea sb eb A Ea Eb : K} (hab : (ea - sa) + (eb - sb) < 360) (ha : sa ≤ ea) (hb : sb ≤ eb)
    (hA : SameMeridian sa A) (hEa : SameMeridian ea Ea) (hEb : SameMeridian eb Eb)
    (a1 : A ≤ Ea) (a2 : Ea < A + 360) (b1 : A ≤ Eb) (_b2 : Eb < A + 360) :
    ∃ ka kb : ℤ,
      (∀ u, sa ≤ u → u ≤ ea → max Ea Eb - 360 < u + (ka : K) * 360 ∧ u + (ka : K) * 360 ≤ max Ea Eb) ∧
      (∀ u, sb ≤ u → u ≤ eb → max Ea Eb - 360 < u + (kb : K) * 360 ∧ u + (kb : K) * 360 ≤ max Ea Eb) := by
  obtain ⟨ka, hka⟩ := hA
  obtain ⟨kb, hkb⟩ := hEb
  have e : ea + (ka : K) * 360 = Ea := window_unique ⟨ka, rfl⟩ hEa (by linarith) (by linarith)
  have m1 := le_max_left Ea Eb
  have m2 := le_max_right Ea Eb
  refine ⟨ka, kb, fun u h1 h2 => ⟨?_, by linarith⟩, fun u h1 h2 => ⟨?_, by linarith⟩⟩
  · have : max Ea Eb < A + 360 := max_lt a2 _b2
    linarith
  · rcases max_choice Ea Eb with h | h <;> rw [h] <;> linarith

theorem recorded_get {w : K} {u : List K} {l : Line K} (h : Recorded w u (l.map Prod.fst)) :
    u.length = l.length ∧ ∀ i (h1 : i < u.length) (h2 : i < l.length),
      SameMeridian u[i] (l[i]).1 ∧ w ≤ (l[i]).1 ∧ (l[i]).1 < w + 360 := by
  unfold Recorded at h
  rw [List.forall₂_iff_get] at h
  obtain ⟨hl, hg⟩ := h
  refine ⟨by simpa using hl, fun i h1 h2 => ?_⟩
  have := hg i h1 (by simpa using h2)
  simpa using this

theorem step_turns {a b x y w : K} (hax : SameMeridian a x) (hby : SameMeridian b y) (hx1 : w ≤ x) (hx2 : x < w + 360)
    (hy1 : w ≤ y) (hy2 : y < w + 360) (h1 : a < b) (h2 : b - a < 180) :
    y - x = b - a ∨ y - x = b - a - 360 := by
  obtain ⟨k, rfl⟩ := hax
  obtain ⟨k', rfl⟩ := hby
  have e : ((k' - k : ℤ) : K) * 360 = (b + k' * 360 - (a + k * 360)) - (b - a) := by push_cast; ring
  have h3 : k' - k ≤ 0 := turns_lt e (by linarith)
  have h4 : -(k' - k + 1) ≤ 0 := by
    refine turns_lt (K := K) (k := -(k' - k + 1)) (d := (b - a) - (b + k' * 360 - (a + k * 360)) - 360) ?_ ?_
    · push_cast; ring
    · linarith
  have : k' - k = 0 ∨ k' - k = -1 := by omega
  rcases this with h | h
  · left
    have : k' = k := by omega
    subst this; ring
  · right
    have : k' = k - 1 := by omega
    subst this; push_cast; ring

theorem clamp_of_mem {d : K} (h1 : -180 < d) (h2 : d < 180) : min (max d (-180)) 180 = d := by
  rw [max_eq_left h1.le, min_eq_left h2.le]

theorem retro_false {x1 x2 x3 : K} (h : (-180 < x1 - x2 ∧ x1 - x2 < 0) ∨ (180 ≤ x1 - x2 ∧ -180 < x2 - x3 ∧ x2 - x3 < 0)) :
    isRetrograde x1 x2 x3 = false := by
  unfold isRetrograde
  simp only
  rcases h with ⟨a, b⟩ | ⟨a, b, c⟩
  · rw [clamp_of_mem a (by linarith)]
    have : ¬ |x1 - x2| = 180 := by rw [abs_of_neg b]; intro h; linarith
    rw [if_neg this]
    simp [not_lt.2 b.le]
  · have : min (max (x1 - x2) (-180)) 180 = 180 := by
      rw [max_eq_left (by linarith), min_eq_right a]
    rw [this, if_pos (abs_of_pos (by norm_num)), clamp_of_mem b (by linarith)]
    simp [not_lt.2 c.le]

theorem retro_true {x1 x2 x3 : K} (h : (0 < x1 - x2 ∧ x1 - x2 < 180) ∨ (x1 - x2 ≤ -180 ∧ 0 < x2 - x3 ∧ x2 - x3 < 180)) :
    isRetrograde x1 x2 x3 = true := by
  unfold isRetrograde
  simp only
  rcases h with ⟨a, b⟩ | ⟨a, b, c⟩
  · rw [clamp_of_mem (by linarith) b]
    have : ¬ |x1 - x2| = 180 := by rw [abs_of_pos a]; intro h; linarith
    rw [if_neg this]
    simp [a]
  · have : min (max (x1 - x2) (-180)) 180 = -180 := by
      rw [max_eq_right a, min_eq_left (by norm_num)]
    rw [this, if_pos (by rw [abs_of_neg (by norm_num)]; norm_num), clamp_of_mem (by linarith) c]
    simp [b]

/-- The direction found from the first three points is the true one, so the ends are the western and
eastern ones. -/
theorem ends {w span : K} {u : List K} {l : Line K} (hr : Recorded w u (l.map Prod.fst)) (ht : Track u)
    (hs : Spans u span) (h3 : 3 ≤ l.length) :
    ∃ s e, s ≤ e ∧ e - s ≤ span ∧ (∀ t ∈ u, s ≤ t ∧ t ≤ e) ∧
      SameMeridian s (westEnd (isRetrograde (l[0]).1 (l[1]).1 (l[2]).1) l (by omega)).1 ∧
      SameMeridian e (eastEnd (isRetrograde (l[0]).1 (l[1]).1 (l[2]).1) l (by omega)).1 := by
  obtain ⟨hl, hg⟩ := recorded_get hr
  obtain ⟨hdir, hstep⟩ := ht
  have st : ∀ i (h : i + 1 < u.length), |u[i + 1] - u[i]| < 180 := fun i h => List.isChain_iff_getElem.1 hstep i h
  have s01 := st 0 (by omega)
  have s12 := st 1 (by omega)
  have h0 := hg 0 (by omega) (by omega)
  have h1 := hg 1 (by omega) (by omega)
  have h2 := hg 2 (by omega) (by omega)
  have hlast := hg (l.length - 1) (by omega) (by omega)
  have sp := hs (u[2]) (List.getElem_mem _) (u[0]) (List.getElem_mem _)
  have sp' := hs (u[0]) (List.getElem_mem _) (u[2]) (List.getElem_mem _)
  rw [abs_lt] at s01 s12
  rcases hdir with hp | hp
  · have d01 : u[0] < u[1] := List.pairwise_iff_getElem.1 hp 0 1 _ (by omega) (by omega)
    have d12 : u[1] < u[2] := List.pairwise_iff_getElem.1 hp 1 2 _ (by omega) (by omega)
    have hf : isRetrograde (l[0]).1 (l[1]).1 (l[2]).1 = false := by
      apply retro_false
      rcases step_turns h0.1 h1.1 h0.2.1 h0.2.2 h1.2.1 h1.2.2 d01 (by linarith) with e | e
      · left; constructor <;> linarith
      · right
        rcases step_turns h1.1 h2.1 h1.2.1 h1.2.2 h2.2.1 h2.2.2 d12 (by linarith) with e' | e'
        · refine ⟨?_, ?_, ?_⟩ <;> linarith
        · exfalso; linarith [h0.2.2, h2.2.1]
    rw [hf]
    have hlt : ∀ i (h : i < u.length), u[0] ≤ u[i] ∧ u[i] ≤ u[l.length - 1]'(by omega) := by
      intro i h
      constructor
      · rcases Nat.eq_zero_or_pos i with rfl | hi
        · exact le_refl _
        · exact (List.pairwise_iff_getElem.1 hp 0 i _ h hi).le
      · rcases Nat.lt_or_ge i (l.length - 1) with hi | hi
        · exact (List.pairwise_iff_getElem.1 hp i (l.length - 1) h (by omega) hi).le
        · have : i = l.length - 1 := by omega
          subst this; exact le_refl _
    refine ⟨u[0], u[l.length - 1]'(by omega), (hlt _ (by omega)).1, hs _ (List.getElem_mem _) _ (List.getElem_mem _), ?_, ?_, ?_⟩
    · intro t ht
      obtain ⟨i, hi, rfl⟩ := List.getElem_of_mem ht
      exact hlt i hi
    · simpa [westEnd] using h0.1
    · simpa [eastEnd] using hlast.1
  · have d01 : u[1] < u[0] := List.pairwise_iff_getElem.1 hp 0 1 _ (by omega) (by omega)
    have d12 : u[2] < u[1] := List.pairwise_iff_getElem.1 hp 1 2 _ (by omega) (by omega)
    have hf : isRetrograde (l[0]).1 (l[1]).1 (l[2]).1 = true := by
      apply retro_true
      rcases step_turns h1.1 h0.1 h1.2.1 h1.2.2 h0.2.1 h0.2.2 d01 (by linarith) with e | e
      · left; constructor <;> linarith
      · right
        rcases step_turns h2.1 h1.1 h2.2.1 h2.2.2 h1.2.1 h1.2.2 d12 (by linarith) with e' | e'
        · refine ⟨?_, ?_, ?_⟩ <;> linarith
        · exfalso; linarith [h0.2.1, h2.2.2]
    rw [hf]
    have hlt : ∀ i (h : i < u.length), u[l.length - 1]'(by omega) ≤ u[i] ∧ u[i] ≤ u[0] := by
      intro i h
      constructor
      · rcases Nat.lt_or_ge i (l.length - 1) with hi | hi
        · exact (List.pairwise_iff_getElem.1 hp i (l.length - 1) h (by omega) hi).le
        · have : i = l.length - 1 := by omega
          subst this; exact le_refl _
      · rcases Nat.eq_zero_or_pos i with rfl | hi
        · exact le_refl _
        · exact (List.pairwise_iff_getElem.1 hp 0 i _ h hi).le
    refine ⟨u[l.length - 1]'(by omega), u[0], (hlt _ (by omega)).1, hs _ (List.getElem_mem _) _ (List.getElem_mem _), ?_, ?_, ?_⟩
    · intro t ht
      obtain ⟨i, hi, rfl⟩ := List.getElem_of_mem ht
      exact hlt i hi
    · simpa [westEnd] using hlast.1
    · simpa [eastEnd] using h0.1

theorem westEnd_mem (r : Bool) (l : Line K) (h : 0 < l.length) : westEnd r l h ∈ l := by
  unfold westEnd; split <;> exact List.getElem_mem _

theorem eastEnd_mem (r : Bool) (l : Line K) (h : 0 < l.length) : eastEnd r l h ∈ l := by
  unfold eastEnd; split <;> exact List.getElem_mem _

theorem recorded_mem {w : K} {u : List K} {l : Line K} (h : Recorded w u (l.map Prod.fst)) :
    ∀ p ∈ l, w ≤ p.1 ∧ p.1 < w + 360 := by
  intro p hp
  obtain ⟨hl, hg⟩ := recorded_get h
  obtain ⟨i, hi, rfl⟩ := List.getElem_of_mem hp
  exact (hg i (by omega) hi).2

/-- a line whose track fits in the window comes out as the track, shifted as a whole -/
theorem shifted_line {w A B : K} {u : List K} {l : Line K} (hr : Recorded w u (l.map Prod.fst)) (hA1 : w ≤ A)
    (hA2 : A < w + 360) (hB1 : A ≤ B) (hB2 : B < A + 360) (k : ℤ)
    (hk : ∀ t ∈ u, B - 360 < t + (k : K) * 360 ∧ t + (k : K) * 360 ≤ B) :
    ((l.map (shiftUp A)).map (shiftDown B)).map Prod.fst = u.map (fun t => t + (k : K) * 360) := by
  obtain ⟨hl, hg⟩ := recorded_get hr
  apply List.ext_getElem
  · simp [hl]
  · intro i h1 h2
    have hi : i < l.length := by simpa using h1
    have hiu : i < u.length := by simpa using h2
    obtain ⟨hm, hw1, hw2⟩ := hg i hiu hi
    simp only [List.getElem_map]
    have a := shiftUp_window (p := l[i]) hw1 hw2 hA1 hA2
    have b := shiftDown_window (p := shiftUp A (l[i])) a.1 a.2 hB1 hB2
    have m := sm_trans hm (sm_trans (shiftUp_spec A (l[i])).1 (shiftDown_spec B _).1)
    have kk := hk _ (List.getElem_mem hiu)
    exact window_unique (a := u[i]) m ⟨k, rfl⟩ (by linarith) (by linarith)

end Pyinterp.Crossover
