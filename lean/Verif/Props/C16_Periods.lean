import Verif.Spec.Interval
import Mathlib.Order.Lattice
import Mathlib.Algebra.Order.Ring.Int

/-!
C16 and C17: relations and operations on two periods.
-/
namespace Pyinterp
open Period

theorem Period.contains_iff (p : Period) (t : Int) : p.containsPoint t = true ↔ p.Mem t := by
  simp only [containsPoint, Mem, Bool.and_eq_true, decide_eq_true_eq, ge_iff_le]

theorem Period.isNull_iff (p : Period) : p.isNull = true ↔ ¬ p.Valid := by
  unfold isNull
  rw [decide_eq_true_iff]
  unfold Valid end_; omega

theorem Period.isAfter_iff {p : Period} (hp : p.Valid) (t : Int) :
    p.isAfter t = true ↔ t < p.begin_ := by
  have : p.isNull = false := by
    cases h : p.isNull with
    | false => rfl
    | true => exact absurd hp (p.isNull_iff.1 h)
  simp [isAfter, this]

theorem Period.isBefore_iff {p : Period} (hp : p.Valid) (t : Int) :
    p.isBefore t = true ↔ p.last < t := by
  have : p.isNull = false := by
    cases h : p.isNull with
    | false => rfl
    | true => exact absurd hp (p.isNull_iff.1 h)
  simp [isBefore, this]

theorem Period.intersects_iff {p q : Period} (hp : p.Valid) (hq : q.Valid) :
    p.intersects q = true ↔ p.begin_ ≤ q.last ∧ q.begin_ ≤ p.last := by
  simp only [intersects, containsPoint, Bool.and_eq_true, Bool.or_eq_true, decide_eq_true_eq,
    Valid] at *
  omega

/-- **C16** `contains(point)` is membership in the closed interval, for every
period (a null one contains nothing). -/
theorem C16_contains_point (p : Period) (t : Int) :
    (p.containsPoint t = true ↔ p.begin_ ≤ t ∧ t ≤ p.last) ∧
    (p.isNull = true ↔ ∀ t, p.containsPoint t = false) := by
  refine ⟨p.contains_iff t, ?_⟩
  rw [isNull_iff]
  constructor
  · intro h t
    cases hc : p.containsPoint t with
    | false => rfl
    | true =>
      have := (p.contains_iff t).1 hc
      unfold Mem at this; unfold Valid at h; omega
  · intro h hv
    have h1 := h p.begin_
    have h2 : p.containsPoint p.begin_ = true := (p.contains_iff _).2 ⟨Int.le_refl _, hv⟩
    rw [h1] at h2; cases h2

/-- **C16** `contains(period)` is inclusion of the sets of instants. -/
theorem C16_contains_period {p q : Period} (hq : q.Valid) :
    p.containsPeriod q = true ↔ ∀ t, q.Mem t → p.Mem t := by
  simp only [containsPeriod, Bool.and_eq_true, decide_eq_true_eq, Mem, Valid] at *
  constructor
  · intro h t ht; omega
  · intro h
    have h1 := h q.begin_ ⟨Int.le_refl _, hq⟩
    have h2 := h q.last ⟨hq, Int.le_refl _⟩
    omega

/-- **C16** `intersects` tells whether the periods have a common instant. -/
theorem C16_intersects {p q : Period} (hp : p.Valid) (hq : q.Valid) :
    p.intersects q = true ↔ ∃ t, p.Mem t ∧ q.Mem t := by
  rw [intersects_iff hp hq]
  unfold Mem; unfold Valid at hp hq
  constructor
  · intro h
    exact ⟨max p.begin_ q.begin_, by omega, by omega⟩
  · rintro ⟨t, h⟩; omega

/-- **C16** `is_before(x)` / `is_after(x)`: the whole period is before / after the
instant; a null period is neither. -/
theorem C16_before_after (p : Period) (x : Int) :
    (p.isBefore x = true ↔ p.Valid ∧ ∀ t, p.Mem t → t < x) ∧
    (p.isAfter x = true ↔ p.Valid ∧ ∀ t, p.Mem t → x < t) := by
  have key : p.isNull = decide (¬ p.Valid) := by
    rw [Bool.eq_iff_iff, isNull_iff]; simp
  unfold isBefore isAfter
  rw [key]
  by_cases hv : p.Valid
  · simp only [hv, not_true_eq_false, decide_false, Bool.false_eq_true, if_false,
      decide_eq_true_eq, true_and]
    unfold Mem; unfold Valid at hv
    refine ⟨⟨fun h t ht => by omega, fun h => h _ ⟨hv, Int.le_refl _⟩⟩,
      ⟨fun h t ht => by omega, fun h => h _ ⟨Int.le_refl _, hv⟩⟩⟩
  · simp [hv]

/-- **C16** Two valid periods: exactly one of "p before q", "p after q",
"p intersects q". -/
theorem C16_trichotomy {p q : Period} (hp : p.Valid) (hq : q.Valid) :
    (p.isBefore q.begin_ = true ∧ p.isAfter q.last = false ∧ p.intersects q = false) ∨
    (p.isBefore q.begin_ = false ∧ p.isAfter q.last = true ∧ p.intersects q = false) ∨
    (p.isBefore q.begin_ = false ∧ p.isAfter q.last = false ∧ p.intersects q = true) := by
  simp only [← Bool.not_eq_true, isBefore_iff hp, isAfter_iff hp, intersects_iff hp hq]
  unfold Valid at hp hq
  omega

/-- **C16** Two valid periods are adjacent iff they have no common instant and no
instant lies strictly between them (their union has no gap). -/
theorem C16_adjacent {p q : Period} (hp : p.Valid) (hq : q.Valid) :
    p.isAdjacent q = true ↔
      (¬ ∃ t, p.Mem t ∧ q.Mem t) ∧
      (∀ t, min p.begin_ q.begin_ ≤ t → t ≤ max p.last q.last → p.Mem t ∨ q.Mem t) := by
  simp only [isAdjacent, end_, Bool.or_eq_true, beq_iff_eq, Mem, Valid] at *
  constructor
  · intro h
    refine ⟨?_, ?_⟩
    · rintro ⟨t, ht⟩; omega
    · intro t h1 h2; omega
  · rintro ⟨h1, h2⟩
    by_cases hc : p.last < q.begin_
    · left
      have := h2 (p.last + 1) (by omega) (by omega)
      omega
    · by_cases hd : q.last < p.begin_
      · right
        have := h2 (q.last + 1) (by omega) (by omega)
        omega
      · exact absurd ⟨max p.begin_ q.begin_, by omega, by omega⟩ h1

/-- **C16** The length and the duration of a valid period are its number of
instants; `within = false` builds the half-open interval. -/
theorem C16_length {p : Period} (hp : p.Valid) :
    p.len = .ok p.duration ∧ p.duration = p.last - p.begin_ + 1 ∧
    ∀ b e t, (Period.mk' b e false).Mem t ↔ b ≤ t ∧ t < e := by
  refine ⟨?_, by unfold duration end_; omega, ?_⟩
  · unfold Valid at hp
    have h1 : p.length = p.duration := by
      unfold length duration end_; split <;> omega
    have h2 : ¬ p.length < 0 := by rw [h1]; unfold duration end_; omega
    unfold len; rw [if_neg h2, h1]
  · intro b e t; simp only [Mem, mk', Bool.false_eq_true, if_false]; omega

/-- **C16** `len` of every period: it raises exactly when the period ends before its beginning, and is the number of instants
otherwise. -/
theorem C16_len (p : Period) :
    (p.len = .error .exn ↔ p.last + 1 < p.begin_) ∧ (p.begin_ ≤ p.last + 1 → p.len = .ok (p.last - p.begin_ + 1)) := by
  have h1 : p.length = p.last - p.begin_ + 1 := by unfold length end_; split <;> omega
  unfold len
  rw [h1]
  constructor
  · split
    · exact iff_of_true rfl (by omega)
    · exact iff_of_false (by simp) (by omega)
  · intro h
    rw [if_neg (by omega)]

/- An empty period and an inverted one. -/
example : (Period.mk' 5 5 false).len = .ok 0 ∧ (Period.mk' 9 5 false).len = .error .exn := by decide

/-- **C17** The intersection contains exactly the common instants, for all
periods, and is null iff there is none. -/
theorem C17_intersection (p q : Period) (t : Int) :
    ((p.intersection q).Mem t ↔ p.Mem t ∧ q.Mem t) ∧
    ((p.intersection q).isNull = true ↔ ¬ ∃ t, p.Mem t ∧ q.Mem t) := by
  have main : ∀ t, (p.intersection q).Mem t ↔ p.Mem t ∧ q.Mem t := by
    intro t
    unfold intersection mk' Mem
    simp only [if_true]
    split <;> split <;> (try simp only) <;> omega
  refine ⟨main t, ?_⟩
  rw [isNull_iff]
  constructor
  · rintro h ⟨t, ht⟩
    have := (main t).2 ht
    unfold Mem at this; unfold Valid at h; omega
  · intro h hv
    exact h ⟨_, (main _).1 ⟨Int.le_refl _, hv⟩⟩

/-- **C17** Merging two valid periods: when they intersect the result covers
exactly the instants of both; otherwise the result is null. -/
theorem C17_merge {p q : Period} (hp : p.Valid) (hq : q.Valid) :
    ((∃ t, p.Mem t ∧ q.Mem t) →
      (p.merge q).Valid ∧ ∀ t, (p.merge q).Mem t ↔ p.Mem t ∨ q.Mem t) ∧
    ((¬ ∃ t, p.Mem t ∧ q.Mem t) → (p.merge q).isNull = true) := by
  rw [← C16_intersects hp hq]
  unfold merge
  constructor
  · intro h
    rw [if_pos h]
    rw [intersects_iff hp hq] at h
    unfold Valid at hp hq
    refine ⟨?_, ?_⟩
    · simp only [Valid, mk', if_true]; split <;> split <;> simp only <;> omega
    · intro t
      simp only [Mem, mk', if_true]; split <;> split <;> simp only <;> omega
  · intro h
    rw [if_neg h]
    simp [isNull, mk', end_]

/-- **C17** Intersection and merge are commutative on valid periods (the null
results of disjoint periods may differ). -/
theorem C17_commutative {p q : Period} (hp : p.Valid) (hq : q.Valid)
    (h : ∃ t, p.Mem t ∧ q.Mem t) :
    p.intersection q = q.intersection p ∧ p.merge q = q.merge p := by
  have h1 := (C16_intersects hp hq).2 h
  have h2 : q.intersects p = true := (C16_intersects hq hp).2 (by obtain ⟨t, a, b⟩ := h; exact ⟨t, b, a⟩)
  have key1 : ∀ {p q : Period}, p.intersection q = ⟨max p.begin_ q.begin_, min p.last q.last⟩ := by
    intro p q
    unfold intersection mk'
    simp only [if_true]
    split <;> split
    · rw [max_eq_left (by omega), min_eq_left (by omega)]
    · rw [max_eq_left (by omega), min_eq_right (by omega)]; simp
    · rw [max_eq_right (by omega), min_eq_left (by omega)]; simp
    · rw [max_eq_right (by omega), min_eq_right (by omega)]
  have key2 : ∀ {p q : Period}, p.intersects q = true →
      p.merge q = ⟨min p.begin_ q.begin_, max p.last q.last⟩ := by
    intro p q h
    unfold merge mk'
    rw [if_pos h]
    simp only [if_true]
    split <;> split
    · rw [min_eq_left (by omega), max_eq_left (by omega)]; simp
    · rw [min_eq_left (by omega), max_eq_right (by omega)]; simp
    · rw [min_eq_right (by omega), max_eq_left (by omega)]; simp
    · rw [min_eq_right (by omega), max_eq_right (by omega)]; simp
  refine ⟨?_, ?_⟩
  · rw [key1, key1, max_comm, min_comm]
  · rw [key2 h1, key2 h2, max_comm, min_comm]

/-- Adjacent periods do not intersect: their `merge` is null although their union
is an interval (the documentation of the method says "union of intersecting
periods"). -/
theorem C17_adjacent_not_merged {p q : Period} (hp : p.Valid) (hq : q.Valid)
    (h : p.isAdjacent q = true) : (p.merge q).isNull = true :=
  (C17_merge hp hq).2 ((C16_adjacent hp hq).1 h).1

-- The hypotheses are met by concrete periods.
example : (Period.mk 1 5).Valid ∧ (Period.mk 4 9).Valid ∧
    (Period.mk 1 5).intersects ⟨4, 9⟩ = true ∧
    (Period.mk 1 5).merge ⟨4, 9⟩ = ⟨1, 9⟩ ∧ (Period.mk 1 5).intersection ⟨4, 9⟩ = ⟨4, 5⟩ ∧
    (∃ t, (Period.mk 1 5).Mem t ∧ (Period.mk 4 9).Mem t) :=
  ⟨by decide, by decide, by decide, by decide, by decide, 4, by decide, by decide⟩
example : (Period.mk 1 5).isAdjacent ⟨6, 9⟩ = true ∧ (Period.mk 1 5).isBefore 6 = true ∧
    (Period.mk 1 5).isAfter 0 = true ∧ (Period.mk 1 5).containsPeriod ⟨2, 3⟩ = true := by decide

end Pyinterp
