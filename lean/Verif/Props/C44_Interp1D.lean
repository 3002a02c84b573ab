import Verif.Props.C40_Interp1D

/-
C44, C45, C64: Akima, polynomial; independence from the previous calls.
-/
namespace Pyinterp.Interp

open Spec Polynomial

set_option linter.unusedSectionVars false
set_option linter.unusedVariables false

variable {K : Type} [Field K] [LinearOrder K] [IsStrictOrderedRing K]

/-! ### C44: Akima -/

/-- The buffers that an `Akima` (or `AkimaPeriodic`) object can have. -/
inductive AkimaReach (periodic : Bool) : AkimaState K → Prop
  | new (j j' : Nat → K) : AkimaReach periodic ⟨⟨0, j⟩, ⟨0, j'⟩⟩
  | call {b b' : AkimaState K} (junk : Nat → K) (xa ya : List K) : AkimaReach periodic b →
      akimaCompute junk periodic b xa ya = .ok b' → AkimaReach periodic b'

theorem checkSizes_cases (n : Nat) (xa ya : List K) :
    (checkSizes n xa ya = .ok () ∧ xa.length = ya.length ∧ n ≤ xa.length) ∨
    checkSizes n xa ya = .error .exn := by
  unfold checkSizes
  split
  · exact Or.inr rfl
  · split
    · exact Or.inr rfl
    · exact Or.inl ⟨rfl, by omega, by omega⟩

theorem akimaCompute_eq (junk : Nat → K) (periodic : Bool) (st : AkimaState K) (xa ya : List K)
    (hst : st.m.size ≤ st.s.size + 4) (hl : xa.length = ya.length) (h5 : 5 ≤ xa.length) :
    ∃ st', akimaCompute junk periodic st xa ya = .ok st' ∧ st'.m.size ≤ st'.s.size + 4 ∧
      (∀ k, k < xa.length + 3 → st'.m.rd k = .ok (akimaM periodic xa ya k)) ∧
      ∀ i, i < xa.length → st'.s.rd i = .ok (akimaS (akimaM periodic xa ya) xa.length i) := by
  unfold akimaCompute
  rw [checkSizes_ok hl h5]
  simp only [show ∀ f : Unit → Out (AkimaState K), ((.ok () : Out Unit) >>= f) = f () from fun _ => rfl]
  -- the buffers after the resizing
  have main : ∀ t : AkimaState K, t.m.size ≤ t.s.size + 4 → xa.length + 4 ≤ t.m.size →
      ∃ st', (do
          let m ← t.m.fill 0 (xa.length + 3) (akimaM periodic xa ya)
          let s ← t.s.fill 0 xa.length
            (akimaS (fun k => if k < xa.length + 3 then m.val k else t.m.val k) xa.length)
          (.ok ⟨m, s⟩ : Out (AkimaState K))) = .ok st' ∧
        st'.m.size ≤ st'.s.size + 4 ∧
        (∀ k, k < xa.length + 3 → st'.m.rd k = .ok (akimaM periodic xa ya k)) ∧
        ∀ i, i < xa.length → st'.s.rd i = .ok (akimaS (akimaM periodic xa ya) xa.length i) := by
    intro t h1 h2
    rw [show t.m.fill 0 (xa.length + 3) (akimaM periodic xa ya) = .ok ⟨t.m.size, fun i =>
        if 0 ≤ i ∧ i < xa.length + 3 then akimaM periodic xa ya i else t.m.val i⟩ from by
      unfold Buf.fill; rw [if_pos (Or.inr (by omega))]]
    simp only [bind, Except.bind]
    rw [show ∀ g, t.s.fill 0 xa.length g = .ok ⟨t.s.size, fun i =>
        if 0 ≤ i ∧ i < xa.length then g i else t.s.val i⟩ from fun g => by
      unfold Buf.fill; rw [if_pos (Or.inr (by omega))]]
    refine ⟨_, rfl, h1, ?_, ?_⟩
    · intro k hk
      simp only [Buf.rd]
      rw [if_pos (by omega), if_pos ⟨by omega, hk⟩]
    · intro i hi
      simp only [Buf.rd]
      rw [if_pos (by omega), if_pos ⟨by omega, hi⟩]
      have hm : ∀ k, k < xa.length + 3 →
          (if k < xa.length + 3 then
            (if 0 ≤ k ∧ k < xa.length + 3 then akimaM periodic xa ya k else t.m.val k)
          else t.m.val k) = akimaM periodic xa ya k := by
        intro k hk
        rw [if_pos hk, if_pos ⟨by omega, hk⟩]
      congr 1
      unfold akimaS
      by_cases c0 : i = 0
      · simp only [if_pos c0, hm 2 (by omega)]
      by_cases c1 : i = 1
      · simp only [if_neg c0, if_pos c1, hm 2 (by omega), hm 4 (by omega)]
      by_cases c2 : i = xa.length - 2
      · simp only [if_neg c0, if_neg c1, if_pos c2, hm (xa.length - 1) (by omega),
          hm (xa.length + 1) (by omega)]
      by_cases c3 : i = xa.length - 1
      · simp only [if_neg c0, if_neg c1, if_neg c2, if_pos c3, hm (xa.length + 1) (by omega)]
      · simp only [if_neg c0, if_neg c1, if_neg c2, if_neg c3, hm (i + 3) (by omega),
          hm (i + 2) (by omega), hm (i + 1) (by omega), hm i (by omega)]
  by_cases hb : st.m.size < xa.length + 4
  · rw [if_pos hb]
    exact main ⟨Buf.resize junk (xa.length + 4), Buf.resize junk xa.length⟩
      (by simp [Buf.resize]) (by simp [Buf.resize])
  · rw [if_neg hb]
    exact main st hst (by omega)

theorem AkimaReach.sizes {periodic : Bool} {st : AkimaState K} (h : AkimaReach periodic st) :
    st.m.size ≤ st.s.size + 4 := by
  induction h with
  | new => simp
  | @call b b' junk xa ya hb e ih =>
    rcases checkSizes_cases 5 xa ya with ⟨_, hl, h5⟩ | hc
    · obtain ⟨st', e', h', _⟩ := akimaCompute_eq junk periodic b xa ya ih hl h5
      rw [e'] at e
      cases e
      exact h'
    · unfold akimaCompute at e
      simp [hc, bind, Except.bind] at e

theorem akima_at {periodic : Bool} {st : AkimaState K} (hst : AkimaReach periodic st)
    (junk : Nat → K) {xa ya : List K} (hl : xa.length = ya.length) (h5 : 5 ≤ xa.length) {i : Nat}
    (hi : i + 1 < xa.length) {x : K} (h : search xa x = some (i, i + 1)) :
    ∃ st', akima junk periodic st xa ya x = .ok (ya[i] + (x - xa[i]) *
      (akimaS (akimaM periodic xa ya) xa.length i + (x - xa[i]) *
        ((3 * akimaM periodic xa ya i - 2 * akimaS (akimaM periodic xa ya) xa.length i -
            akimaS (akimaM periodic xa ya) xa.length (i + 1)) / (xa[i + 1] - xa[i]) + (x - xa[i]) *
          ((akimaS (akimaM periodic xa ya) xa.length i +
            akimaS (akimaM periodic xa ya) xa.length (i + 1) - 2 * akimaM periodic xa ya i) /
            ((xa[i + 1] - xa[i]) * (xa[i + 1] - xa[i]))))), st') := by
  obtain ⟨st', e, _, hm, hs⟩ := akimaCompute_eq junk periodic st xa ya hst.sizes hl h5
  refine ⟨st', ?_⟩
  unfold akima akimaEval
  simp only [e, h, bind, Except.bind]
  rw [rd_eq (by omega : i < xa.length), rd_eq hi, rd_eq (by omega : i < ya.length),
    hs i (by omega), hs (i + 1) hi, hm i (by omega)]

/-- C44: the first node is reproduced. -/
theorem C44_first_partial (periodic : Bool) (st : AkimaState K) (hst : AkimaReach periodic st)
    (junk : Nat → K) (xa ya : List K) (hs : xa.Pairwise (· < ·)) (hl : xa.length = ya.length)
    (h5 : 5 ≤ xa.length) : ∃ st', akima junk periodic st xa ya xa[0] = .ok (ya[0], st') := by
  obtain ⟨st', e⟩ := akima_at hst junk hl h5 (by omega) (search_first hs (by omega))
  exact ⟨st', by rw [e]; simp⟩

/-- The value of `Akima` at the node `i + 1`. -/
theorem akima_node {periodic : Bool} {st : AkimaState K} (hst : AkimaReach periodic st)
    (junk : Nat → K) {xa ya : List K} (hs : xa.Pairwise (· < ·)) (hl : xa.length = ya.length)
    (h5 : 5 ≤ xa.length) {i : Nat} (hi : i + 1 < xa.length) :
    ∃ st', akima junk periodic st xa ya xa[i + 1] =
      .ok (ya[i] + (xa[i + 1] - xa[i]) * akimaM periodic xa ya i, st') := by
  obtain ⟨st', e⟩ := akima_at hst junk hl h5 hi (search_node hs (by omega) hi)
  refine ⟨st', ?_⟩
  rw [e]
  have hw : xa[i + 1] - xa[i] ≠ 0 := (sub_pos.2 (pairwise_lt hs (by omega) hi (by omega))).ne'
  congr 2
  field_simp
  ring

theorem slope_eq {xa ya : List K} {i : Nat} (hi : i + 1 < xa.length) (hi' : i + 1 < ya.length) :
    slope xa ya i = (ya[i + 1] - ya[i]) / (xa[i + 1] - xa[i]) := by
  simp only [slope, at'_eq hi, at'_eq (by omega : i < xa.length), at'_eq (by omega : i < ya.length),
    at'_eq hi']

theorem slope_collinear {xa ya : List K} (hs : xa.Pairwise (· < ·)) {a b : K}
    (h : ∀ i (h : i < xa.length) (h' : i < ya.length), ya[i] = a + b * xa[i]) {i : Nat}
    (hi : i + 1 < xa.length) (hi' : i + 1 < ya.length) : slope xa ya i = b := by
  rw [slope_eq hi hi', h i (by omega) (by omega), h (i + 1) hi hi']
  have hw : xa[i + 1] - xa[i] ≠ 0 := (sub_pos.2 (pairwise_lt hs (by omega) hi (by omega))).ne'
  rw [div_eq_iff hw]
  ring

/-- C44 (false): `Akima` reproduces the data at all the nodes only if the points are on a
straight line. -/
theorem C44_false (st : AkimaState K) (hst : AkimaReach false st)
    (junk : Nat → K) (xa ya : List K) (hs : xa.Pairwise (· < ·)) (hl : xa.length = ya.length)
    (h5 : 5 ≤ xa.length) :
    (∀ i (h : i < xa.length), ∃ st', akima junk false st xa ya xa[i] = .ok (ya[i], st')) ↔
      Collinear xa ya := by
  constructor
  · intro h
    have key : ∀ i, i + 1 < xa.length → akimaM false xa ya i = slope xa ya i := by
      intro i hi
      obtain ⟨s1, e1⟩ := h (i + 1) hi
      obtain ⟨s2, e2⟩ := akima_node hst junk hs hl h5 hi
      rw [e1] at e2
      have e3 := (Prod.mk.inj (Except.ok.inj e2)).1
      have hw : xa[i + 1] - xa[i] ≠ 0 :=
        (sub_pos.2 (pairwise_lt hs (by omega) hi (by omega))).ne'
      rw [slope_eq hi (by omega), eq_div_iff hw]
      linear_combination -e3
    have k0 := key 0 (by omega)
    have k01 : slope xa ya 1 = slope xa ya 0 := by
      simp only [akimaM, if_pos, if_false, Bool.false_eq_true] at k0
      linear_combination -k0 / 2
    have all : ∀ n i, i ≤ n → i + 1 < xa.length → slope xa ya i = slope xa ya 0 := by
      intro n
      induction n with
      | zero => intro i hi _; rw [show i = 0 by omega]
      | succ n ih =>
        intro i hi hi2
        match i with
        | 0 => rfl
        | 1 => exact k01
        | i + 2 =>
          have := key (i + 2) hi2
          unfold akimaM at this
          simp only at this
          rw [if_neg (by omega), if_neg (by omega), if_neg (by omega), if_neg (by omega),
            Nat.add_sub_cancel] at this
          rw [← this]
          exact ih i (by omega) (by omega)
    refine ⟨ya[0] - slope xa ya 0 * xa[0], slope xa ya 0, ?_⟩
    intro i
    induction i with
    | zero => intro _ _; ring
    | succ i ih =>
      intro h1 h2
      have e := all i i (le_refl _) h1
      have hw : xa[i + 1] - xa[i] ≠ 0 :=
        (sub_pos.2 (pairwise_lt hs (by omega) h1 (by omega))).ne'
      rw [slope_eq h1 h2, div_eq_iff hw] at e
      have := ih (by omega) (by omega)
      linear_combination e + this
  · rintro ⟨a, b, h⟩ i hi
    have hm : ∀ k, k + 1 < xa.length → slope xa ya k = b := fun k hk =>
      slope_collinear hs h hk (by omega)
    cases i with
    | zero => exact C44_first_partial false st hst junk xa ya hs hl h5
    | succ i =>
      obtain ⟨s', e⟩ := akima_node hst junk hs hl h5 hi
      refine ⟨s', ?_⟩
      rw [e]
      have : akimaM false xa ya i = b := by
        unfold akimaM
        simp only [Bool.false_eq_true, if_false]
        split
        · rw [hm 0 (by omega), hm 1 (by omega)]; ring
        split
        · rw [hm 0 (by omega), hm 1 (by omega)]; ring
        split
        · omega
        split
        · omega
        · exact hm _ (by omega)
      rw [this, h i (by omega) (by omega), h (i + 1) hi (by omega)]
      congr 2
      ring

/-- C44: data on a straight line are reproduced at every point of the range. -/
theorem C44_affine_partial (st : AkimaState K) (hst : AkimaReach false st)
    (junk : Nat → K) (xa : List K) (a b : K) (hs : xa.Pairwise (· < ·)) (h5 : 5 ≤ xa.length) (x : K)
    (h0 : xa[0] ≤ x) (h1 : x ≤ xa[xa.length - 1]) :
    ∃ st', akima junk false st xa (xa.map fun t => a + b * t) x = .ok (a + b * x, st') := by
  rcases search_spec hs (by omega) x with ⟨i, hi, e, _, _, _⟩ | ⟨e, _⟩
  · obtain ⟨st', e'⟩ := akima_at hst junk (ya := xa.map fun t => a + b * t) (by simp) h5 hi e
    refine ⟨st', ?_⟩
    rw [e']
    have hm : ∀ k, k + 1 < xa.length → slope xa (xa.map fun t => a + b * t) k = b := fun k hk =>
      slope_collinear hs (a := a) (by intro i h h'; simp) hk (by simpa using hk)
    have hM : ∀ k, k < xa.length + 3 → akimaM false xa (xa.map fun t => a + b * t) k = b := by
      intro k hk
      unfold akimaM
      simp only [Bool.false_eq_true, if_false]
      split
      · rw [hm 0 (by omega), hm 1 (by omega)]; ring
      split
      · rw [hm 0 (by omega), hm 1 (by omega)]; ring
      split
      · rw [hm _ (by omega), hm _ (by omega)]; ring
      split
      · rw [hm _ (by omega), hm _ (by omega)]; ring
      · exact hm _ (by omega)
    have hS : ∀ k, k < xa.length →
        akimaS (akimaM false xa (xa.map fun t => a + b * t)) xa.length k = b := by
      intro k hk
      unfold akimaS
      simp only
      split
      · exact hM _ (by omega)
      split
      · rw [hM _ (by omega), hM _ (by omega)]; ring
      split
      · rw [hM _ (by omega), hM _ (by omega)]; ring
      split
      · exact hM _ (by omega)
      · rw [hM _ (by omega), hM _ (by omega), hM _ (by omega), hM _ (by omega)]
        simp
        ring
    rw [hS i (by omega), hS (i + 1) hi, hM i (by omega)]
    simp only [List.getElem_map]
    congr 2
    ring
  · rcases (C40_not_found xa hs (by omega) x).1 e with h | h
    · exact absurd h0 (not_le.2 h)
    · exact absurd h1 (not_le.2 h)

example : (akima (fun _ => (17 : ℚ)) false ⟨⟨0, fun _ => 5⟩, ⟨0, fun _ => 5⟩⟩ [0, 1, 2, 3, 4]
    [0, 1, 4, 9, 16] 2).map (·.1) = .ok 0 := by decide +kernel

/-! ### C45: polynomial -/

/-- The buffers that a `Polynomial` object can have. -/
inductive PolyReach (same : Nat → Nat → Bool) : Buf K → Prop
  | new (junk : Nat → K) : PolyReach same ⟨0, junk⟩
  | call {b b' : Buf K} (junk : Nat → K) (xa ya : List K) : PolyReach same b →
      polyCompute junk same b xa ya = .ok b' → PolyReach same b'

theorem polyCompute_eq (junk : Nat → K) (same : Nat → Nat → Bool) (b : Buf K) (xa ya : List K)
    (hl : xa.length = ya.length) (h3 : 3 ≤ xa.length) : ∃ b', polyCompute junk same b xa ya = .ok b' ∧
      xa.length ≤ b'.size ∧ ∀ i, i < xa.length → b'.val i = polyWork same xa ya (xa.length - 1) i := by
  unfold polyCompute
  simp only [checkSizes_ok hl h3, bind, Except.bind]
  by_cases hb : b.size < xa.length
  · rw [if_pos hb]
    refine ⟨_, by unfold Buf.fill Buf.resize; rw [if_pos (Or.inr (le_refl _))], le_refl _, ?_⟩
    intro i hi
    simp [hi]
  · rw [if_neg hb]
    refine ⟨_, by unfold Buf.fill; rw [if_pos (Or.inr (by omega))], by simpa using hb, ?_⟩
    intro i hi
    simp [hi]

theorem polyHorner_congr {w w' : Nat → K} {xa : List K} {x : K} (n : Nat) (y : K)
    (h : ∀ i, i < n → w i = w' i) : polyHorner w xa x n y = polyHorner w' xa x n y := by
  induction n generalizing y with
  | zero => rfl
  | succ n ih =>
    unfold polyHorner
    rw [h n (by omega)]
    exact ih _ (fun i hi => h i (by omega))

theorem poly_at (junk : Nat → K) (same : Nat → Nat → Bool) (b : Buf K) {xa ya : List K}
    (hl : xa.length = ya.length) (h3 : 3 ≤ xa.length) {x : K} {p : Nat × Nat}
    (h : search xa x = some p) :
    ∃ b', polynomial junk same b xa ya x =
      .ok (polyHorner (polyWork same xa ya (xa.length - 1)) xa x (xa.length - 1)
        (polyWork same xa ya (xa.length - 1) (xa.length - 1)), b') := by
  obtain ⟨b', e, hsz, hv⟩ := polyCompute_eq junk same b xa ya hl h3
  refine ⟨b', ?_⟩
  unfold polynomial polyEval Buf.rd
  simp only [e, h, bind, Except.bind]
  rw [if_pos (by omega)]
  simp only
  rw [hv _ (by omega), polyHorner_congr (w := b'.val) _ _ (fun i hi => hv i (by omega))]

theorem polyPass_below (same : Nat → Nat → Bool) (xa : List K) (ix : Nat) (old : Nat → K) {j : Nat}
    (h : j < ix) : polyPass same xa ix old j = old j := by
  cases j with
  | zero => rfl
  | succ j => unfold polyPass; rw [if_pos h]

theorem polyWork_low (same : Nat → Nat → Bool) (xa ya : List K) (k : Nat) :
    polyWork same xa ya (k + 1) 0 = at' ya 0 ∧ polyWork same xa ya (k + 1) 1 = slope xa ya 0 := by
  induction k with
  | zero => simp [polyWork]
  | succ k ih =>
    rw [polyWork, polyPass_below _ _ _ _ (by omega), polyWork, polyPass_below _ _ _ _ (by omega)]
    exact ih

/-- The evaluation ends with the two first coefficients. -/
theorem polyHorner_split (w : Nat → K) (xa : List K) (x : K) (n : Nat) (y : K) (hn : 2 ≤ n) :
    ∃ r, polyHorner w xa x n y = w 0 + (x - at' xa 0) * (w 1 + (x - at' xa 1) * r) := by
  induction n generalizing y with
  | zero => omega
  | succ n ih =>
    unfold polyHorner
    by_cases h : 2 ≤ n
    · exact ih _ h
    · have : n = 1 := by omega
      subst this
      exact ⟨y, rfl⟩

/-- C45: whatever the previous calls and the packets used by Eigen, the two first nodes are
reproduced. -/
theorem C45_first_two_partial (same : Nat → Nat → Bool) (junk : Nat → K) (b : Buf K)
    (hb : PolyReach same b) (xa ya : List K) (hs : xa.Pairwise (· < ·))
    (hl : xa.length = ya.length) (h3 : 3 ≤ xa.length) (i : Nat) (hi : i < 2) :
    ∃ b', polynomial junk same b xa ya xa[i] = .ok (ya[i], b') := by
  obtain ⟨b', e⟩ := poly_at junk same b hl h3 (search_node hs (by omega) (by omega : i < xa.length))
  obtain ⟨r, hr⟩ := polyHorner_split (polyWork same xa ya (xa.length - 1)) xa xa[i] (xa.length - 1)
    (polyWork same xa ya (xa.length - 1) (xa.length - 1)) (by omega)
  refine ⟨b', ?_⟩
  rw [e, hr]
  obtain ⟨e0, e1⟩ := polyWork_low same xa ya (xa.length - 2)
  rw [show xa.length - 2 + 1 = xa.length - 1 by omega] at e0 e1
  rw [e0, e1, slope_eq (by omega) (by omega), at'_eq (by omega : 0 < ya.length),
    at'_eq (by omega : 0 < xa.length), at'_eq (by omega : 1 < xa.length)]
  have hw : xa[0 + 1] - xa[0] ≠ 0 := (sub_pos.2 (pairwise_lt hs (by omega) (by omega) (by omega))).ne'
  rcases (by omega : i = 0 ∨ i = 1) with rfl | rfl
  · simp
  · simp only [zero_add] at hw ⊢
    rw [sub_self, zero_mul, add_zero, mul_div_cancel₀ _ hw]
    simp

/-- C45 (false): with three points, the third node is reproduced only if the points are on a
straight line (the divided differences are divided by the wrong width). -/
theorem C45_false (same : Nat → Nat → Bool) (junk : Nat → K) (b : Buf K)
    (hb : PolyReach same b) (x0 x1 x2 y0 y1 y2 : K) (h01 : x0 < x1) (h12 : x1 < x2) :
    (∃ b', polynomial junk same b [x0, x1, x2] [y0, y1, y2] x2 = .ok (y2, b')) ↔
      (y2 - y1) * (x1 - x0) = (y1 - y0) * (x2 - x1) := by
  have hs : [x0, x1, x2].Pairwise (· < ·) := by
    simp [List.pairwise_cons, h01, h12, h01.trans h12]
  obtain ⟨b', e⟩ := poly_at junk same b (xa := [x0, x1, x2]) (ya := [y0, y1, y2]) rfl (by simp)
    (search_node hs (by simp) (by simp : 2 < [x0, x1, x2].length))
  have hw0 : x1 - x0 ≠ 0 := (sub_pos.2 h01).ne'
  have hw1 : x2 - x1 ≠ 0 := (sub_pos.2 h12).ne'
  have hval : polyHorner (polyWork same [x0, x1, x2] [y0, y1, y2] 2) [x0, x1, x2] x2 2
      (polyWork same [x0, x1, x2] [y0, y1, y2] 2 2) =
      y0 + (x2 - x0) * ((y2 - y1) / (x2 - x1)) := by
    simp only [polyHorner, polyWork, polyPass, at', slope, List.getD]
    simp
    field_simp
    simp
  simp only [List.length_cons, List.length_nil, Nat.zero_add, Nat.reduceAdd, Nat.reduceSub] at e
  simp only [show ([x0, x1, x2] : List K)[2]'(by simp) = x2 from rfl] at e
  rw [hval] at e
  constructor
  · rintro ⟨c, hc⟩
    rw [hc] at e
    have := (Prod.mk.inj (Except.ok.inj e)).1
    field_simp at this
    linear_combination -this
  · intro h
    refine ⟨b', ?_⟩
    rw [e]
    congr 2
    field_simp
    linear_combination h

/-- C45: when Eigen holds all the coefficients of the second pass in one packet, points on a
straight line are reproduced in the whole range. -/
theorem C45_affine_partial (same : Nat → Nat → Bool) (hp : ∀ j, 2 < j → same 2 j = true)
    (junk : Nat → K) (b : Buf K) (hb : PolyReach same b) (xa : List K) (a c : K)
    (hs : xa.Pairwise (· < ·)) (h3 : 3 ≤ xa.length) (x : K) (h0 : xa[0] ≤ x)
    (h1 : x ≤ xa[xa.length - 1]) :
    ∃ b', polynomial junk same b xa (xa.map fun t => a + c * t) x = .ok (a + c * x, b') := by
  set ya := xa.map fun t => a + c * t with hya
  have hm : ∀ k, k + 1 < xa.length → slope xa ya k = c := fun k hk =>
    slope_collinear hs (a := a) (by intro i h h'; simp [hya]) hk (by simpa [hya] using hk)
  have w2 : ∀ j, 2 ≤ j → j < xa.length → polyWork same xa ya 2 j = 0 := by
    intro j hj hj'
    obtain ⟨i, rfl⟩ : ∃ i, j = i + 1 := ⟨j - 1, by omega⟩
    rw [polyWork]
    unfold polyPass
    rw [if_neg (by omega), if_pos (by
      by_cases h : i + 1 = 2
      · exact Or.inl h
      · exact Or.inr (hp _ (by omega)))]
    simp only [polyWork]
    rw [if_neg (by omega), if_neg (by omega), hm _ (by omega), hm _ (by omega)]
    simp
  have wk : ∀ k j, 2 ≤ j → j < xa.length → polyWork same xa ya (k + 2) j = 0 := by
    intro k
    induction k with
    | zero => exact w2
    | succ k ih =>
      intro j
      induction j with
      | zero => intro h _; omega
      | succ j ihj =>
        intro h2 hl
        rw [polyWork]
        unfold polyPass
        split
        · exact ih (j + 1) h2 hl
        · rename_i hge
          have a1 : polyWork same xa ya (k + 2) j = 0 := ih j (by omega) (by omega)
          have a2 : polyPass same xa (k + 1 + 2) (polyWork same xa ya (k + 1 + 1)) j = 0 := by
            have := ihj (by omega) (by omega)
            rwa [polyWork] at this
          have a3 : polyWork same xa ya (k + 1 + 1) (j + 1) = 0 := ih (j + 1) h2 hl
          rw [a3]
          split
          · rw [show k + 1 + 1 = k + 2 from rfl, a1]; simp
          · rw [a2]; simp
  have hz : ∀ n y, (2 ≤ n → y = 0) → (n = 1 → y = c) → n < xa.length → 1 ≤ n →
      polyHorner (polyWork same xa ya (xa.length - 1)) xa x n y = a + c * x := by
    obtain ⟨e0, e1⟩ := polyWork_low same xa ya (xa.length - 2)
    rw [show xa.length - 2 + 1 = xa.length - 1 by omega] at e0 e1
    intro n
    induction n with
    | zero => intro y _ _ _ h; omega
    | succ n ih =>
      intro y hy hy1 hn _
      unfold polyHorner
      match n with
      | 0 =>
        unfold polyHorner
        rw [hy1 rfl, e0, at'_eq (by simp [hya]; omega : 0 < ya.length), at'_eq (by omega : 0 < xa.length)]
        simp only [hya, List.getElem_map]
        ring
      | n + 1 =>
        have hy0 := hy (by omega)
        rw [hy0, mul_zero, add_zero]
        apply ih
        · intro h
          obtain ⟨k, hk⟩ : ∃ k, xa.length - 1 = k + 2 := ⟨xa.length - 3, by omega⟩
          rw [hk]
          exact wk k (n + 1) h (by omega)
        · intro h
          have : n = 0 := by omega
          subst this
          rw [e1, hm 0 (by omega)]
        · omega
        · omega
  have hsr : ∃ p, search xa x = some p := by
    cases h : search xa x with
    | some p => exact ⟨p, rfl⟩
    | none =>
      rcases (C40_not_found xa hs (by omega) x).1 h with h | h
      · exact absurd h0 (not_le.2 h)
      · exact absurd h1 (not_le.2 h)
  obtain ⟨p, hp'⟩ := hsr
  obtain ⟨b', e⟩ := poly_at junk same b (ya := ya) (by simp [hya]) h3 hp'
  refine ⟨b', ?_⟩
  rw [e, hz (xa.length - 1)]
  · intro h
    obtain ⟨k, hk⟩ : ∃ k, xa.length - 1 = k + 2 := ⟨xa.length - 3, by omega⟩
    rw [hk]
    exact wk k _ (by omega) (by omega)
  · omega
  · omega
  · omega

/-- With packets of two values, points on a straight line are not even reproduced when there
are five of them. -/
example : (polynomial (fun _ => (17 : ℚ)) (fun ix j => (j - ix) % 2 == 1) ⟨0, fun _ => 5⟩
    [0, 1, 2, 3, 4] [0, 1, 2, 3, 4] 4).map (·.1) ≠ .ok 4 ∧
    (polynomial (fun _ => (17 : ℚ)) (fun ix j => (j - ix) % 2 == 1) ⟨0, fun _ => 5⟩
    [0, 1, 2, 3] [0, 1, 2, 3] 3).map (·.1) = .ok 3 := by decide +kernel

/-! ### C64: independence from the previous calls -/

/-- C64: for `Steffen`, `Akima`, `AkimaPeriodic`, `Polynomial` and `CSpline`, the result of a
call does not depend on the previous calls on the same object, nor on the contents of the
memory it allocates. -/
theorem C64_no_history (xa ya : List K) (x : K) (junk junk' : Nat → K) :
    (∀ b c : Buf K, SteffenReach b → SteffenReach c →
      (steffen junk b xa ya x).map (·.1) = (steffen junk' c xa ya x).map (·.1)) ∧
    (∀ periodic, ∀ b c : AkimaState K, AkimaReach periodic b → AkimaReach periodic c →
      (akima junk periodic b xa ya x).map (·.1) = (akima junk' periodic c xa ya x).map (·.1)) ∧
    (∀ same, ∀ b c : Buf K, PolyReach same b → PolyReach same c →
      (polynomial junk same b xa ya x).map (·.1) = (polynomial junk' same c xa ya x).map (·.1)) ∧
    (∀ b c : Buf K, CSplineReach b → CSplineReach c →
      (cspline b xa ya x).map (·.1) = (cspline c xa ya x).map (·.1)) := by
  refine ⟨?_, ?_, ?_, ?_⟩
  · intro b c _ _
    rcases checkSizes_cases 3 xa ya with ⟨_, hl, h3⟩ | hc
    · obtain ⟨b', e, hb⟩ := steffenCompute_eq junk b xa ya hl h3
      obtain ⟨c', e', hc⟩ := steffenCompute_eq junk' c xa ya hl h3
      have : steffenEval b' xa ya x = steffenEval c' xa ya x := by
        unfold steffenEval
        cases hsr : search xa x with
        | none => rfl
        | some p =>
          obtain ⟨i, j⟩ := p
          simp only
          have out : ∀ k, xa.length ≤ k → rd xa (k : Nat) = .error .ub := by
            intro k hk
            simp [rd, List.getElem?_eq_none hk]
          by_cases hi : i < xa.length
          · by_cases hj : j < xa.length
            · rw [hb i hi, hb j hj, hc i hi, hc j hj]
            · rw [out j (by omega)]
              simp only [bind, Except.bind]
          · rw [out i (by omega)]
            simp only [bind, Except.bind]
      unfold steffen
      simp only [e, e', this, bind, Except.bind]
      cases steffenEval c' xa ya x <;> rfl
    · unfold steffen steffenCompute
      simp only [hc, bind, Except.bind]
  · intro periodic b c hb hc
    rcases checkSizes_cases 5 xa ya with ⟨_, hl, h5⟩ | hck
    · obtain ⟨b', e, _, hbm, hbs⟩ := akimaCompute_eq junk periodic b xa ya hb.sizes hl h5
      obtain ⟨c', e', _, hcm, hcs⟩ := akimaCompute_eq junk' periodic c xa ya hc.sizes hl h5
      have : akimaEval b' xa ya x = akimaEval c' xa ya x := by
        unfold akimaEval
        cases hsr : search xa x with
        | none => rfl
        | some p =>
          obtain ⟨i, j⟩ := p
          simp only
          have out : ∀ k, xa.length ≤ k → rd xa (k : Nat) = .error .ub := by
            intro k hk
            simp [rd, List.getElem?_eq_none hk]
          by_cases hi : i < xa.length
          · by_cases hj : j < xa.length
            · rw [hbs i hi, hbs j hj, hcs i hi, hcs j hj, hbm i (by omega), hcm i (by omega)]
            · rw [out j (by omega)]
              simp only [bind, Except.bind]
          · rw [out i (by omega)]
            simp only [bind, Except.bind]
      unfold akima
      simp only [e, e', this, bind, Except.bind]
      cases akimaEval c' xa ya x <;> rfl
    · unfold akima akimaCompute
      simp only [hck, bind, Except.bind]
  · intro same b c hb hc
    rcases checkSizes_cases 3 xa ya with ⟨_, hl, h3⟩ | hck
    · cases hsr : search xa x with
      | none =>
        obtain ⟨b', e, _⟩ := polyCompute_eq junk same b xa ya hl h3
        obtain ⟨c', e', _⟩ := polyCompute_eq junk' same c xa ya hl h3
        unfold polynomial polyEval
        simp only [e, e', hsr, bind, Except.bind]
      | some p =>
        obtain ⟨b', e⟩ := poly_at junk same b hl h3 hsr
        obtain ⟨c', e'⟩ := poly_at junk' same c hl h3 hsr
        rw [e, e']
        rfl
    · unfold polynomial polyCompute
      simp only [hck, bind, Except.bind]
  · intro b c hb hc
    rcases checkSizes_cases 4 xa ya with ⟨_, hl, h4⟩ | hck
    · obtain ⟨b', e, hb'⟩ := csplineCompute_eq b xa ya hb hl h4
      obtain ⟨c', e', hc'⟩ := csplineCompute_eq c xa ya hc hl h4
      have : csplineEval b' xa ya x = csplineEval c' xa ya x := by
        unfold csplineEval
        cases hsr : search xa x with
        | none => rfl
        | some p =>
          obtain ⟨i, j⟩ := p
          simp only
          have out : ∀ k, xa.length ≤ k → rd xa (k : Nat) = .error .ub := by
            intro k hk
            simp [rd, List.getElem?_eq_none hk]
          by_cases hi : i < xa.length
          · by_cases hj : j < xa.length
            · rw [hb' i hi, hb' j hj, hc' i hi, hc' j hj]
            · cases rd ya (i : Nat) with
              | error => rw [rd_eq hi]; rfl
              | ok v => rw [rd_eq hi, out j (by omega)]; simp only [bind, Except.bind]
          · rw [out i (by omega)]
            simp only [bind, Except.bind]
      unfold cspline
      simp only [e, e', this, bind, Except.bind]
      cases csplineEval c' xa ya x <;> rfl
    · unfold cspline csplineCompute
      simp only [hck, bind, Except.bind]

end Pyinterp.Interp
