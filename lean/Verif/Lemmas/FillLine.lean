import Verif.Model.FillLine
import Verif.Spec.Fill

namespace Pyinterp.FillLine
open Pyinterp Spec
set_option linter.unusedSectionVars false
set_option linter.unusedVariables false

variable {T : Type} [CommRing T] [LinearOrder T] [AxisNum T]

theorem fold_put {V : Type} (f : Nat → V) (n s : Nat) (x : Nat → V) (i : Nat) :
    (List.range' s n).foldl (fun x j => put x j (f j)) x i = if s ≤ i ∧ i < s + n then f i else x i := by
  induction n generalizing s x with
  | zero => simp
  | succ n ih =>
    rw [List.range'_succ, List.foldl_cons, ih]
    unfold put
    by_cases h1 : s + 1 ≤ i ∧ i < s + 1 + n
    · rw [if_pos h1, if_pos (by omega)]
    · rw [if_neg h1]
      by_cases h2 : i = s
      · subst h2; rw [if_pos rfl, if_pos (by omega)]
      · rw [if_neg h2, if_neg (by omega)]

/-- What is known after the iterations `0 .. k - 1` of the first loop. -/
structure Inv (x : Nat → Option T) (undef : Nat → Bool) (k : Nat) (s : Loop T) : Prop where
  none_iff : s.last = none ↔ s.first = none
  none_all : s.last = none → ∀ m, m < k → undef m = true
  last : ∀ l, s.last = some l → LastDefined k undef l
  first : ∀ f, s.first = some f → FirstDefined k undef f
  gap : ∀ a b i, b < k → Consecutive undef a b → a < i → i < b →
    s.x i = ahead (slope (x a) (x b) ((b - a : Nat) : Int)) (i - a) (x a)
  same : ∀ i, (¬ ∃ a b, b < k ∧ Consecutive undef a b ∧ a < i ∧ i < b) → s.x i = x i

theorem inv_defined {x : Nat → Option T} {undef : Nat → Bool} {k : Nat} {s : Loop T} (h : Inv x undef k s)
    {i : Nat} (hi : undef i = false) : s.x i = x i := by
  apply h.same
  rintro ⟨a, b, -, ⟨-, -, -, hc⟩, h1, h2⟩
  rw [hc i h1 h2] at hi
  cases hi

theorem inv_tail {x : Nat → Option T} {undef : Nat → Bool} {k : Nat} {s : Loop T} (h : Inv x undef k s)
    {i : Nat} (hi : ∀ l, s.last = some l → l ≤ i) : s.x i = x i := by
  apply h.same
  rintro ⟨a, b, hb, ⟨hab, ha, hbd, hc⟩, h1, h2⟩
  cases hl : s.last with
  | none => rw [h.none_all hl b hb] at hbd; cases hbd
  | some l =>
    have := hi l hl
    obtain ⟨-, -, hl3⟩ := h.last l hl
    rw [hl3 b (by omega) hb] at hbd
    cases hbd

theorem inv_step {x : Nat → Option T} {undef : Nat → Bool} {k : Nat} {s : Loop T} (h : Inv x undef k s) :
    Inv x undef (k + 1) (step undef s k) := by
  have extend : undef k = true → Inv x undef (k + 1) s := by
    intro hu
    refine ⟨h.none_iff, ?_, ?_, ?_, ?_, ?_⟩
    · intro hn m hm
      rcases Nat.lt_succ_iff_lt_or_eq.1 hm with hm | rfl
      · exact h.none_all hn m hm
      · exact hu
    · intro l hl
      obtain ⟨a, b, c⟩ := h.last l hl
      refine ⟨by omega, b, fun m h1 h2 => ?_⟩
      rcases Nat.lt_succ_iff_lt_or_eq.1 h2 with h2 | rfl
      · exact c m h1 h2
      · exact hu
    · intro f hf
      obtain ⟨a, b, c⟩ := h.first f hf
      exact ⟨by omega, b, c⟩
    · intro a b i hb hc h1 h2
      rcases Nat.lt_succ_iff_lt_or_eq.1 hb with hb | rfl
      · exact h.gap a b i hb hc h1 h2
      · exact absurd hc.2.2.1 (by simp [hu])
    · intro i hi
      apply h.same
      rintro ⟨a, b, hb, r⟩
      exact hi ⟨a, b, by omega, r⟩
  unfold step
  by_cases hu : undef k = true
  · simp only [hu, Bool.not_true, Bool.false_eq_true, if_false]
    exact extend hu
  have hu' : undef k = false := by simpa using hu
  simp only [hu', Bool.not_false, if_true]
  have newLast : LastDefined (k + 1) undef k := ⟨by omega, hu', fun m h1 h2 => by omega⟩
  cases hl : s.last with
  | none =>
    have hf := h.none_iff.1 hl
    rw [if_pos hf]
    have hall := h.none_all hl
    refine ⟨by simp, by simp, ?_, ?_, ?_, ?_⟩
    · intro l e; cases e; exact newLast
    · intro f e; cases e; exact ⟨by omega, hu', hall⟩
    · intro a b i hb hc h1 h2
      have := hall a (by omega)
      rw [hc.2.1] at this; cases this
    · intro i hi
      exact inv_tail h (by intro l e; rw [hl] at e; cases e)
  | some last =>
    obtain ⟨l1, l2, l3⟩ := h.last last hl
    have hfn : s.first ≠ none := fun e => by rw [h.none_iff.2 e] at hl; cases hl
    have hfirst : ∀ f, s.first = some f → FirstDefined (k + 1) undef f := by
      intro f hf
      obtain ⟨a, b, c⟩ := h.first f hf
      exact ⟨by omega, b, c⟩
    -- the only new pair of consecutive positions
    have hnew : ∀ a, Consecutive undef a k → a = last := by
      rintro a ⟨c1, c2, c3, c4⟩
      rcases Nat.lt_trichotomy a last with hlt | rfl | hgt
      · have := c4 last hlt l1
        rw [l2] at this; cases this
      · rfl
      · have := l3 a hgt (by omega)
        rw [c2] at this; cases this
    have hcons : Consecutive undef last k := ⟨by omega, l2, hu', l3⟩
    simp only
    by_cases hgap : k - last > 1
    · rw [if_pos hgap]
      have hxl : s.x last = x last := inv_defined h l2
      have hxk : s.x k = x k := inv_defined h hu'
      refine ⟨by simp [hfn], by simp, ?_, hfirst, ?_, ?_⟩
      · intro l e; cases e; exact newLast
      · intro a b i hb hc h1 h2
        simp only [fold_put, hxl, hxk]
        rcases Nat.lt_succ_iff_lt_or_eq.1 hb with hb | rfl
        · have hbl : b ≤ last := by
            by_contra hbl
            have := l3 b (by omega) hb
            rw [hc.2.2.1] at this; cases this
          rw [if_neg (by omega)]
          exact h.gap a b i hb hc h1 h2
        · obtain rfl := hnew a hc
          rw [if_pos (by omega)]
      · intro i hi
        simp only [fold_put, hxl, hxk]
        rw [if_neg]
        · apply h.same
          rintro ⟨a, b, hb, r⟩
          exact hi ⟨a, b, by omega, r⟩
        · intro hin
          exact hi ⟨last, k, by omega, hcons, by omega, by omega⟩
    · rw [if_neg hgap, if_neg hfn]
      refine ⟨by simp [hfn], by simp, ?_, hfirst, ?_, ?_⟩
      · intro l e; cases e; exact newLast
      · intro a b i hb hc h1 h2
        rcases Nat.lt_succ_iff_lt_or_eq.1 hb with hb | rfl
        · exact h.gap a b i hb hc h1 h2
        · obtain rfl := hnew a hc
          omega
      · intro i hi
        apply h.same
        rintro ⟨a, b, hb, r⟩
        exact hi ⟨a, b, by omega, r⟩

theorem inv_loop (x : Nat → Option T) (undef : Nat → Bool) (k : Nat) :
    Inv x undef k ((List.range k).foldl (step undef) { x := x, last := none, first := none }) := by
  induction k with
  | zero => exact ⟨by simp, by simp, by simp, by simp, by intros; omega, by intros; rfl⟩
  | succ k ih =>
    rw [List.range_succ, List.foldl_append]
    exact inv_step ih

/-- The result of `fill_line` when at most one position is defined. -/
theorem fillLine_few (size : Nat) (x : Nat → Option T) (undef : Nat → Bool)
    (h : ∀ a b, a < size → b < size → undef a = false → undef b = false → a = b) :
    (∀ i, (fillLine size x undef).1 i = x i) ∧ ∀ i, (fillLine size x undef).2 i = true := by
  have inv := inv_loop x undef size
  unfold fillLine
  simp only
  generalize (List.range size).foldl (step undef) { x := x, last := none, first := none } = s at *
  have heq : s.last = s.first := by
    cases hl : s.last with
    | none => exact (inv.none_iff.1 hl).symm
    | some l =>
      cases hf : s.first with
      | none => rw [inv.none_iff.2 hf] at hl; cases hl
      | some f =>
        obtain ⟨a1, a2, -⟩ := inv.last l hl
        obtain ⟨b1, b2, -⟩ := inv.first f hf
        rw [h l f a1 b1 a2 b2]
  rw [if_pos heq]
  refine ⟨fun i => inv.same i ?_, fun i => rfl⟩
  rintro ⟨a, b, hb, hc, h1, h2⟩
  have := h a b (by omega) hb hc.2.1 hc.2.2.1
  omega

/-- The result of `fill_line` when at least two positions are defined. -/
theorem fillLine_many (size : Nat) (x : Nat → Option T) (undef : Nat → Bool) (f l : Nat)
    (hf : FirstDefined size undef f) (hl : LastDefined size undef l) (hlt : f < l) :
    (∀ i, i < size → undef i = false → (fillLine size x undef).1 i = x i) ∧
    (∀ a b i, b < size → Consecutive undef a b → a < i → i < b → (fillLine size x undef).1 i =
      ahead (slope (x a) (x b) ((b - a : Nat) : Int)) (i - a) (x a)) ∧
    (∀ i, i < f → (fillLine size x undef).1 i =
      behind (slope (x f) (x l) ((l : Int) - (f : Int))) (f - i) (x f)) ∧
    (∀ i, l < i → i < size → (fillLine size x undef).1 i =
      ahead (slope (x f) (x l) ((l : Int) - (f : Int))) (i - l) (x l)) ∧
    (∀ i, size ≤ i → (fillLine size x undef).1 i = x i) ∧
    ∀ i, (fillLine size x undef).2 i = false := by
  have inv := inv_loop x undef size
  unfold fillLine
  simp only
  generalize (List.range size).foldl (step undef) { x := x, last := none, first := none } = s at *
  have hlast : s.last = some l := by
    cases e : s.last with
    | none => have := inv.none_all e l hl.1; rw [hl.2.1] at this; cases this
    | some l' =>
      obtain ⟨a1, a2, a3⟩ := inv.last l' e
      rcases Nat.lt_trichotomy l l' with h | h | h
      · have := hl.2.2 l' h a1; rw [a2] at this; cases this
      · rw [h]
      · have := a3 l h hl.1; rw [hl.2.1] at this; cases this
  have hfirst : s.first = some f := by
    cases e : s.first with
    | none => rw [inv.none_iff.2 e] at hlast; cases hlast
    | some f' =>
      obtain ⟨a1, a2, a3⟩ := inv.first f' e
      rcases Nat.lt_trichotomy f f' with h | h | h
      · have := a3 f h; rw [hf.2.1] at this; cases this
      · rw [h]
      · have := hf.2.2 f' h; rw [a2] at this; cases this
  rw [hlast, hfirst, if_neg (by simp; omega)]
  simp only
  have hxf : s.x f = x f := inv_defined inv hf.2.1
  have hxl : s.x l = x l := inv_defined inv hl.2.1
  have hval : ∀ i, (if f > 0 then
          (List.range f).foldl (fun y jx => put y jx (behind (slope (s.x f) (s.x l) ((l : Int) - (f : Int))) (f - jx) (s.x f)))
          (if l + 1 < size then
          (List.range' (l + 1) (size - (l + 1))).foldl
            (fun y jx => put y jx (ahead (slope (s.x f) (s.x l) ((l : Int) - (f : Int))) (jx - l) (s.x l))) s.x
        else s.x)
        else (if l + 1 < size then
          (List.range' (l + 1) (size - (l + 1))).foldl
            (fun y jx => put y jx (ahead (slope (s.x f) (s.x l) ((l : Int) - (f : Int))) (jx - l) (s.x l))) s.x
        else s.x)) i = if i < f then behind (slope (x f) (x l) ((l : Int) - (f : Int))) (f - i) (x f)
          else if l < i ∧ i < size then ahead (slope (x f) (x l) ((l : Int) - (f : Int))) (i - l) (x l)
          else s.x i := by
    intro i
    rw [hxf, hxl]
    have e2 : (if l + 1 < size then
          (List.range' (l + 1) (size - (l + 1))).foldl
            (fun y jx => put y jx (ahead (slope (x f) (x l) ((l : Int) - (f : Int))) (jx - l) (x l))) s.x
        else s.x) i = if l < i ∧ i < size then ahead (slope (x f) (x l) ((l : Int) - (f : Int))) (i - l) (x l) else s.x i := by
      split
      · rw [fold_put (fun jx => ahead (slope (x f) (x l) ((l : Int) - (f : Int))) (jx - l) (x l))]
        by_cases h : l < i ∧ i < size
        · rw [if_pos h, if_pos (by omega)]
        · rw [if_neg h, if_neg (by omega)]
      · rw [if_neg (by omega)]
    split
    · rw [List.range_eq_range', fold_put (fun jx => behind (slope (x f) (x l) ((l : Int) - (f : Int))) (f - jx) (x f))]
      by_cases h : i < f
      · rw [if_pos h, if_pos (by omega)]
      · rw [if_neg h, if_neg (by omega), e2]
    · rw [e2, if_neg (c := i < f) (by omega)]
  refine ⟨?_, ?_, ?_, ?_, ?_, fun i => trivial⟩
  · intro i hi hu
    rw [hval]
    have h1 : ¬ i < f := fun h => by have := hf.2.2 i h; rw [hu] at this; cases this
    have h2 : ¬ (l < i ∧ i < size) := fun h => by have := hl.2.2 i h.1 h.2; rw [hu] at this; cases this
    rw [if_neg h1, if_neg h2]
    exact inv_defined inv hu
  · intro a b i hb hc h1 h2
    have hfa : f ≤ a := by
      by_contra h
      have := hf.2.2 a (by omega); rw [hc.2.1] at this; cases this
    have hbl : b ≤ l := by
      by_contra h
      have := hl.2.2 b (by omega) hb; rw [hc.2.2.1] at this; cases this
    rw [hval, if_neg (by omega), if_neg (by omega)]
    exact inv.gap a b i hb hc h1 h2
  · intro i hi
    rw [hval, if_pos hi]
  · intro i h1 h2
    rw [hval, if_neg (by omega), if_pos ⟨h1, h2⟩]
  · intro i hi
    have := hl.1
    rw [hval, if_neg (by omega), if_neg (by omega)]
    apply inv.same
    rintro ⟨a, b, hb, hc, h1, h2⟩
    omega

/-- First and last defined positions. -/
theorem exists_first_last (size : Nat) (undef : Nat → Bool) {a b : Nat} (ha : a < size) (hb : b < size)
    (ua : undef a = false) (ub : undef b = false) (hab : a < b) :
    ∃ f l, FirstDefined size undef f ∧ LastDefined size undef l ∧ f < l := by
  have inv := inv_loop (fun _ => (none : Option Int)) undef size
  generalize (List.range size).foldl (step undef) { x := fun _ => (none : Option Int), last := none, first := none } = s at *
  cases e : s.last with
  | none => have := inv.none_all e a ha; rw [ua] at this; cases this
  | some l =>
    cases e' : s.first with
    | none => rw [inv.none_iff.2 e'] at e; cases e
    | some f =>
      have hl := inv.last l e
      have hf := inv.first f e'
      refine ⟨f, l, hf, hl, ?_⟩
      have h1 : f ≤ a := by by_contra h; have := hf.2.2 a (by omega); rw [ua] at this; cases this
      have h2 : b ≤ l := by by_contra h; have := hl.2.2 b (by omega) hb; rw [ub] at this; cases this
      omega

end Pyinterp.FillLine
