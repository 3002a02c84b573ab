import Verif.Lemmas.Period

/-!
C18 to C22: lists of periods.
-/
namespace Pyinterp
open Period PeriodList

/-- **C18** `are_periods_sorted_and_disjointed` on valid periods is exactly
"each period ends before all the following ones begin". -/
theorem C18_sorted_disjoint_test (l : List Period) (hl : ∀ p ∈ l, p.Valid) :
    areSortedAndDisjointed l = true ↔ l.Pairwise (fun p q => p.last < q.begin_) := by
  cases l with
  | nil => simp [areSortedAndDisjointed]
  | cons p l =>
    rw [List.pairwise_cons]
    exact sortedDisjointGo_iff p l (hl p (by simp)) (fun q hq => hl q (by simp [hq]))

/-- **C18** Sorting valid, pairwise disjoint periods gives a list that passes the
test and covers the same instants. -/
theorem C18_sort (l l' : List Period) (hl : ∀ p ∈ l, p.Valid)
    (hd : l.Pairwise (fun p q => ¬ ∃ t, p.Mem t ∧ q.Mem t)) (hs : IsSortResult l l') :
    areSortedAndDisjointed l' = true ∧ SortedDisjoint l' ∧ ∀ t, Covers l' t ↔ Covers l t := by
  have hv : ∀ p ∈ l', p.Valid := fun p hp => hl p (hs.1.mem_iff.1 hp)
  have hd' : l'.Pairwise (fun p q => ¬ ∃ t, p.Mem t ∧ q.Mem t) :=
    hs.1.symm.pairwise hd (fun {p q} h ⟨t, a, b⟩ => h ⟨t, b, a⟩)
  have hsd : l'.Pairwise (fun p q => p.last < q.begin_) := by
    refine (hd'.and hs.2).imp_of_mem ?_
    rintro p q hp hq ⟨h1, h2⟩
    by_contra hc
    exact h1 ⟨q.begin_, ⟨h2, by omega⟩, ⟨Int.le_refl _, hv q hq⟩⟩
  refine ⟨(C18_sorted_disjoint_test l' hv).2 hsd, ⟨hv, hsd⟩, fun t => ?_⟩
  unfold Covers
  constructor <;> rintro ⟨p, hp, h⟩
  · exact ⟨p, hs.1.mem_iff.1 hp, h⟩
  · exact ⟨p, hs.1.mem_iff.2 hp, h⟩

/-- **C18** Merging two lists of valid periods sorted by their beginning (hence in
particular two sorted disjoint lists) gives a sorted list of disjoint valid
periods that covers exactly the instants covered by one of the two lists. -/
theorem C18_merge (l m : List Period)
    (hl : (∀ p ∈ l, p.Valid) ∧ l.Pairwise (fun p q => p.begin_ ≤ q.begin_))
    (hm : (∀ p ∈ m, p.Valid) ∧ m.Pairwise (fun p q => p.begin_ ≤ q.begin_)) :
    SortedDisjoint (PeriodList.merge l m) ∧
    ∀ t, Covers (PeriodList.merge l m) t ↔ Covers l t ∨ Covers m t := by
  obtain ⟨a, b⟩ := mergeGo_spec [] l m ⟨by simp, List.Pairwise.nil⟩ hl hm (by simp) (by simp)
  unfold PeriodList.merge
  refine ⟨⟨?_, ?_⟩, ?_⟩
  · intro p hp; exact a.1 p (by simpa using hp)
  · rw [List.pairwise_reverse]; exact a.2
  · intro t; rw [covers_reverse, b]; simp [covers_nil]

theorem C18_merge_disjoint (l m : List Period) (hl : SortedDisjoint l) (hm : SortedDisjoint m) :
    SortedDisjoint (PeriodList.merge l m) ∧
    (∀ t, Covers (PeriodList.merge l m) t ↔ Covers l t ∨ Covers m t) ∧
    areSortedAndDisjointed (PeriodList.merge l m) = true := by
  obtain ⟨a, b⟩ := C18_merge l m ⟨hl.1, hl.sorted⟩ ⟨hm.1, hm.sorted⟩
  exact ⟨a, b, (C18_sorted_disjoint_test _ a.1).2 a.2⟩

example : SortedDisjoint [⟨1, 3⟩, ⟨7, 9⟩, ⟨20, 21⟩] ∧ SortedDisjoint [⟨2, 7⟩, ⟨10, 12⟩] ∧
    PeriodList.merge [⟨1, 3⟩, ⟨7, 9⟩, ⟨20, 21⟩] [⟨2, 7⟩, ⟨10, 12⟩] =
      [⟨1, 9⟩, ⟨10, 12⟩, ⟨20, 21⟩] := by
  refine ⟨by decide, by decide, by decide +kernel⟩

/-- Without sorting the inputs the result is not sorted. -/
theorem C18_witness_unsorted :
    ∃ l m : List Period, (∀ p ∈ l, p.Valid) ∧ (∀ p ∈ m, p.Valid) ∧
      areSortedAndDisjointed (PeriodList.merge l m) = false :=
  ⟨[⟨5, 6⟩, ⟨1, 2⟩], [], by decide, by decide, by decide +kernel⟩

/-- **C19** `belong_to_a_period`, for chronological dates and a sorted disjoint
list.  Whatever value is read behind the last period (`it->contains(date)` is
evaluated before `it != end`), there is one flag per date and the flag is `true`
iff some period contains the date. -/
theorem C19_belong (garbage : Period) (l : List Period) (hl : SortedDisjoint l)
    (dates : List Int) (hd : Chronological dates) :
    ∃ flags, belongToAPeriod (.ok garbage) l dates = .ok flags ∧
      flags.length = dates.length ∧
      ∀ i (h : i < dates.length) (h' : i < flags.length),
        flags[i] = true ↔ Covers l dates[i] := by
  refine ⟨dates.map fun d => l.any fun p => p.containsPoint d, ?_, by simp, ?_⟩
  · unfold belongToAPeriod
    rw [belongGo_spec _ l hl dates hd]; split <;> rfl
  · intro i h h'
    rw [List.getElem_map, List.any_eq_true]
    simp only [contains_iff, Covers]

/-- **C19** In the C++ abstract machine, where reading behind the last element is
undefined, the call is undefined exactly when a date is after the end of all the
periods; this includes every call with at least one date on an empty list. -/
theorem C19_belong_strict (l : List Period) (hl : SortedDisjoint l)
    (dates : List Int) (hd : Chronological dates) :
    (belongToAPeriod (.error .ub) l dates = .error .ub ↔
      ∃ d ∈ dates, ∀ p ∈ l, p.last < d) ∧
    ((¬ ∃ d ∈ dates, ∀ p ∈ l, p.last < d) →
      ∀ g, belongToAPeriod (.error .ub) l dates = belongToAPeriod (.ok g) l dates) := by
  unfold belongToAPeriod
  rw [belongGo_spec _ l hl dates hd]
  constructor
  · split
    · rename_i h; exact ⟨fun _ => h, fun _ => rfl⟩
    · rename_i h; exact ⟨fun h' => (by cases h'), fun h' => absurd h' h⟩
  · intro h g
    rw [belongGo_spec _ l hl dates hd, if_neg h, if_neg h]

example : SortedDisjoint [⟨1, 3⟩, ⟨7, 9⟩] ∧ Chronological [0, 2, 3, 5, 9, 9] ∧
    belongToAPeriod (.error .ub) [⟨1, 3⟩, ⟨7, 9⟩] [0, 2, 3, 5, 9, 9] =
      .ok [false, true, true, false, true, true] := ⟨by decide, by decide, rfl⟩
/-- The out-of-range read is reachable with ordinary arguments. -/
theorem C19_witness_ub :
    belongToAPeriod (.error .ub) [⟨1, 3⟩] [2, 4] = .error .ub ∧
    belongToAPeriod (.error .ub) [] [2] = .error .ub := ⟨rfl, rfl⟩

/-- **C20** `cross_a_period`, for a non-empty chronological list of dates and a
sorted disjoint list of periods: flag `i` is `true` iff a period has an instant
between date `i` and the last date. -/
theorem C20_cross (l : List Period) (hl : SortedDisjoint l)
    (dates : List Int) (hd : Chronological dates) (hne : dates ≠ []) :
    ∃ flags, crossAPeriod l dates = .ok flags ∧
      flags.length = dates.length ∧
      ∀ i (h : i < dates.length) (h' : i < flags.length),
        flags[i] = true ↔
          ∃ p ∈ l, ∃ t, p.Mem t ∧ dates[i] ≤ t ∧ t ≤ dates.getLast hne := by
  have hlast : dates.getLast? = some (dates.getLast hne) := List.getLast?_eq_some_getLast hne
  have hle : ∀ d ∈ dates, d ≤ dates.getLast hne := by
    intro d hd'
    obtain ⟨i, hi, rfl⟩ := List.getElem_of_mem hd'
    rw [List.getLast_eq_getElem]
    by_cases he : i = dates.length - 1
    · subst he; exact Int.le_refl _
    · exact List.pairwise_iff_getElem.1 hd i _ hi (by omega) (by omega)
  generalize dates.getLast hne = last at *
  have meetsIff : ∀ d, d ≤ last → (meets l last d = true ↔
      ∃ p ∈ l, ∃ t, p.Mem t ∧ d ≤ t ∧ t ≤ last) := by
    intro d hd
    rw [meets, List.any_eq_true]
    constructor
    · rintro ⟨p, hp, hc⟩
      have hv := hl.1 p hp
      simp at hc; unfold Valid at hv
      refine ⟨p, hp, max p.begin_ d, ?_, ?_, ?_⟩ <;> (try unfold Mem) <;> omega
    · rintro ⟨p, hp, t, h1, h2, h3⟩
      unfold Mem at h1
      refine ⟨p, hp, ?_⟩
      simp; omega
  have result : crossAPeriod l dates = .ok (dates.map (meets l last)) := by
    unfold crossAPeriod
    rw [hlast]
    simp only
    have plain : (∀ i p, lookup l 0 last = some i → l[i]? = some p → last < p.begin_) →
        crossGo l (lookup l 0 last) 0 dates = dates.map (meets l last) := fun h =>
      crossGo_spec l hl last h 0 dates hd hle (fun j _ hj => by omega)
    cases hL : (lookup l 0 last).bind (fun i => l[i]?) with
    | none =>
      simp only
      rw [plain]
      intro i p h1 h2
      rw [h1] at hL
      simp only [Option.bind_some] at hL
      rw [hL] at h2; cases h2
    | some p =>
      simp only
      rw [Option.bind_eq_some_iff] at hL
      obtain ⟨i, hi1, hi2⟩ := hL
      have hp : p ∈ l := List.mem_of_getElem? hi2
      by_cases hc : p.containsPoint last = true
      · rw [if_pos hc]
        congr 1
        apply List.map_congr_left
        intro d hd'
        symm
        rw [meets, List.any_eq_true]
        rw [contains_iff] at hc
        refine ⟨p, hp, ?_⟩
        have := hle d hd'
        unfold Mem at hc; simp; omega
      · rw [if_neg hc, plain]
        intro i' p' h1 h2
        rw [hi1] at h1; cases h1
        rw [hi2] at h2; cases h2
        obtain ⟨_, hi, hle', _⟩ := lookup_some' hl.1 hi1
        rw [List.getElem?_eq_getElem hi] at hi2
        cases hi2
        rw [contains_iff] at hc
        unfold Mem at hc; omega
  refine ⟨_, result, by simp, ?_⟩
  intro i h h'
  rw [List.getElem_map]
  exact meetsIff _ (hle _ (List.getElem_mem h))

/-- With no date at all the function reads `dates[-1]`. -/
theorem C20_witness_ub (l : List Period) : crossAPeriod l [] = .error .ub := rfl

example : SortedDisjoint [⟨3, 5⟩, ⟨8, 9⟩, ⟨20, 22⟩] ∧ Chronological [1, 4, 6, 9, 10, 12] ∧
    crossAPeriod [⟨3, 5⟩, ⟨8, 9⟩, ⟨20, 22⟩] [1, 4, 6, 9, 10, 12] =
      .ok [true, true, true, true, false, false] := by
  refine ⟨by decide, by decide, by decide +kernel⟩

/-- **C21** Joining the periods of a sorted disjoint list: the result is sorted,
disjoint, two periods of the result are separated by more than `epsilon`, and it
covers exactly the instants of the list plus those lying between two periods of
the list whose distance is at most `epsilon`. -/
theorem C21_join (l : List Period) (hl : SortedDisjoint l) (epsilon : Int) :
    SortedDisjoint (joinAdjacentPeriods l epsilon) ∧
    (joinAdjacentPeriods l epsilon).Pairwise (fun p q => q.begin_ - p.last > epsilon) ∧
    ∀ t, Covers (joinAdjacentPeriods l epsilon) t ↔
      Covers l t ∨ ∃ p ∈ l, ∃ q ∈ l, p.last < t ∧ t < q.begin_ ∧ q.begin_ - p.last ≤ epsilon := by
  cases l with
  | nil => exact ⟨hl, List.Pairwise.nil, fun t => by simp [joinAdjacentPeriods, Covers]⟩
  | cons p ps =>
    have hpv := hl.1 p (by simp)
    obtain ⟨⟨a, b⟩, c⟩ := joinGo_spec epsilon p [] p [p] ps
      ⟨by simpa using hpv, by simp⟩ rfl (by simp)
      (by intro a ha; rw [List.mem_singleton.1 ha]; exact ⟨Int.le_refl _, hpv⟩) hpv hl.tail
      (List.pairwise_cons.1 hl.2).1
      (by
        intro t
        constructor
        · exact Or.inl
        · rintro (h | ⟨x, hx, y, hy, h1, h2, h3⟩)
          · exact h
          · rw [List.mem_singleton.1 hx] at h1
            rw [List.mem_singleton.1 hy] at h2
            unfold Valid at hpv; omega)
    unfold joinAdjacentPeriods
    simp only
    refine ⟨⟨?_, ?_⟩, ?_, ?_⟩
    · intro q hq; exact a q (by simpa using hq)
    · rw [List.pairwise_reverse]; exact b.imp (fun h => h.1)
    · rw [List.pairwise_reverse]; exact b.imp (fun h => by omega)
    · intro t
      rw [covers_reverse, c]
      unfold GapFilled Covers
      simp only [List.mem_append, List.mem_reverse, List.mem_cons]
      have e : ∀ x : Period, (x ∈ ps ∨ x = p ∨ x ∈ ([] : List Period)) ↔ (x = p ∨ x ∈ ps) := by
        intro x; simp [or_comm]
      simp only [e]

example : SortedDisjoint [⟨1, 3⟩, ⟨5, 9⟩, ⟨14, 15⟩, ⟨16, 20⟩] ∧
    joinAdjacentPeriods [⟨1, 3⟩, ⟨5, 9⟩, ⟨14, 15⟩, ⟨16, 20⟩] 2 = [⟨1, 9⟩, ⟨14, 20⟩] := by decide

/-- With the default tolerance (0) of the Python function, periods that are
adjacent in the sense of `Period.is_adjacent` are not joined. -/
theorem C21_witness_adjacent_not_joined :
    (Period.mk 1 3).isAdjacent ⟨4, 9⟩ = true ∧
    joinAdjacentPeriods [⟨1, 3⟩, ⟨4, 9⟩] 0 = [⟨1, 3⟩, ⟨4, 9⟩] := by decide

/-- On a sorted list that is not disjoint (a period inside the previous one), the
join loses instants: it keeps the end of the last period, not the largest end. -/
theorem C21_witness_nested :
    Covers [⟨1, 9⟩, ⟨2, 3⟩] 8 ∧ ¬ Covers (joinAdjacentPeriods [⟨1, 9⟩, ⟨2, 3⟩] 0) 8 := by
  refine ⟨⟨⟨1, 9⟩, by decide, by decide⟩, ?_⟩
  rw [show joinAdjacentPeriods [⟨1, 9⟩, ⟨2, 3⟩] 0 = [⟨1, 3⟩] by decide]
  simp [Covers, Mem]

/-- **C22** `within` keeps, in order, exactly the periods that meet the given one. -/
theorem C22_within (l : List Period) (period : Period) (hl : ∀ p ∈ l, p.Valid)
    (hp : period.Valid) :
    (within l period).Sublist l ∧
    (∀ p ∈ l, p ∈ within l period ↔ ∃ t, period.Mem t ∧ p.Mem t) ∧
    (within l period).length = l.countP (fun p => period.intersects p) := by
  have e : within l period = l.filter (fun p => period.intersects p) := by
    unfold within
    rw [compactGo_eq _ _ _ _ (by omega) (by omega)]
    simp only [List.take_zero, List.drop_zero, List.nil_append]
    rw [← List.filterMap_eq_filter]
    rfl
  rw [e]
  refine ⟨List.filter_sublist, ?_, ?_⟩
  · intro p hp'
    rw [List.mem_filter, C16_intersects hp (hl p hp')]
    simp [hp']
  · rw [List.countP_eq_length_filter]

/-- **C22** `intersection` clips the list: it covers exactly the common instants,
its periods are valid, it keeps a sorted disjoint list sorted and disjoint. -/
theorem C22_intersection (l : List Period) (period : Period) :
    (∀ t, Covers (PeriodList.intersection l period) t ↔ Covers l t ∧ period.Mem t) ∧
    (∀ p ∈ PeriodList.intersection l period, p.Valid) ∧
    (SortedDisjoint l → SortedDisjoint (PeriodList.intersection l period)) := by
  have e : PeriodList.intersection l period =
      (l.map (fun p => p.intersection period)).filter (fun p => !p.isNull) := by
    unfold PeriodList.intersection
    rw [compactGo_eq _ _ _ _ (by omega) (by omega)]
    simp only [List.take_zero, List.drop_zero, List.nil_append]
    rw [← List.filterMap_eq_filter, List.filterMap_map]
    rfl
  have hvalid : ∀ p ∈ PeriodList.intersection l period, p.Valid := by
    intro p hp
    rw [e, List.mem_filter] at hp
    by_contra hc
    rw [(isNull_iff p).2 hc] at hp
    simp at hp
  refine ⟨?_, hvalid, ?_⟩
  · intro t
    rw [e]
    unfold Covers
    constructor
    · rintro ⟨p, hp, ht⟩
      obtain ⟨q, hq, rfl⟩ := List.mem_map.1 (List.mem_filter.1 hp).1
      have := (C17_intersection q period t).1.1 ht
      exact ⟨⟨q, hq, this.1⟩, this.2⟩
    · rintro ⟨⟨p, hp, ht⟩, hm⟩
      refine ⟨p.intersection period, List.mem_filter.2 ⟨List.mem_map_of_mem hp, ?_⟩,
        (C17_intersection p period t).1.2 ⟨ht, hm⟩⟩
      cases hn : (p.intersection period).isNull with
      | false => rfl
      | true => exact absurd ⟨t, ht, hm⟩ ((C17_intersection p period t).2.1 hn)
  · intro hsd
    refine ⟨hvalid, ?_⟩
    have hle : ∀ p q : Period, p.last < q.begin_ →
        (p.intersection period).last < (q.intersection period).begin_ := by
      intro p q h
      simp only [Period.intersection, mk', if_true]
      split <;> split <;> split <;> (try split) <;> (try simp only [Int.sub_zero]) <;> omega
    rw [e]
    apply List.Pairwise.filter
    rw [List.pairwise_map]
    exact hsd.2.imp (fun {p q} h => hle p q h)

/-- **C22** `filter` keeps, in order, exactly the periods that contain at least
`min_duration` instants. -/
theorem C22_filter (l : List Period) (minDuration : Int) :
    PeriodList.filter l minDuration =
      l.filter (fun p => decide (p.last - p.begin_ + 1 ≥ minDuration)) := by
  unfold PeriodList.filter
  rw [compactGo_eq _ _ _ _ (by omega) (by omega)]
  simp only [List.take_zero, List.drop_zero, List.nil_append]
  rw [← List.filterMap_eq_filter]
  congr 1; funext p
  have : p.duration = p.last - p.begin_ + 1 := by unfold duration end_; omega
  simp [Option.guard, this]

/-- **C22** `is_it_close(date, epsilon)` with a non negative tolerance: some
instant of some period is within `epsilon` of the date. -/
theorem C22_is_close (l : List Period) (hl : ∀ p ∈ l, p.Valid) (date epsilon : Int)
    (he : 0 ≤ epsilon) :
    PeriodList.isClose l date epsilon = true ↔
      ∃ t, Covers l t ∧ date - epsilon ≤ t ∧ t ≤ date + epsilon := by
  unfold PeriodList.isClose
  rw [List.any_eq_true]
  constructor
  · rintro ⟨p, hp, h⟩
    have hv := hl p hp
    simp only [Period.isClose, Bool.and_eq_true, decide_eq_true_eq] at h
    unfold Valid at hv
    refine ⟨max p.begin_ (min date p.last), ⟨p, hp, ?_⟩, ?_, ?_⟩ <;> (try unfold Mem) <;> omega
  · rintro ⟨t, ⟨p, hp, h⟩, h1, h2⟩
    refine ⟨p, hp, ?_⟩
    simp only [Period.isClose, Bool.and_eq_true, decide_eq_true_eq]
    unfold Mem at h; omega

/-- **C22** A pickled list is rebuilt unchanged. -/
theorem C22_pickle (l : List Period) : setstate (getstate l) = l := by
  simp [setstate, getstate, Function.comp_def]

example : within [⟨1, 3⟩, ⟨5, 9⟩, ⟨14, 15⟩] ⟨3, 7⟩ = [⟨1, 3⟩, ⟨5, 9⟩] ∧
    PeriodList.intersection [⟨1, 3⟩, ⟨5, 9⟩, ⟨14, 15⟩] ⟨3, 7⟩ = [⟨3, 3⟩, ⟨5, 7⟩] ∧
    PeriodList.filter [⟨1, 3⟩, ⟨5, 9⟩, ⟨14, 15⟩] 3 = [⟨1, 3⟩, ⟨5, 9⟩] := by decide +kernel

/-- The duration used by `filter` counts the last instant, the durations shown by
the Python method `PeriodList.duration` do not: a period shown with a duration
smaller than the minimum is kept. -/
theorem C22_witness_duration :
    PeriodList.filter [⟨0, 9⟩] 10 = [⟨0, 9⟩] ∧ pyDurations [⟨0, 9⟩] = [9] := by decide +kernel

end Pyinterp
