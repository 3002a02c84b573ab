import Verif.Lemmas.PeriodPy
import Verif.Props.C16_Periods

/-
C109: periods of Python, with dates and periods of different units.
-/
namespace Pyinterp.PeriodPy
open Dateutils Spec.PeriodPy

theorem refines_of_dvd {u v : Resolution} (c : Int) (hu : ∀ n, c ∣ start u n)
    (hv : ∀ n, start v n = n * scale v) (hd : scale v ∣ c) : Refines u v := by
  intro n
  obtain ⟨m, hm⟩ := hd.trans (hu n)
  exact ⟨m, by rw [hv, hm, mul_comm]⟩

/-- C109: each unit is subdivided by the finer ones, but the months and the years by the
weeks. -/
theorem C109_units (u v : Resolution) (h : u.rank ≤ v.rank)
    (hw : v = .week → u = .week) : Refines u v := by
  cases u
  case year =>
    cases v
    case year => exact fun n => ⟨n, rfl⟩
    case month =>
      refine fun n => ⟨n * 12, ?_⟩
      simp only [start]
      rw [show n * 12 / 12 = n by omega, show n * 12 % 12 + 1 = 1 by omega]
    case week => exact absurd (hw rfl) (by decide)
    all_goals exact refines_of_dvd day (fun n => Dvd.intro_left _ rfl) (fun n => rfl) (by decide +kernel)
  case month =>
    cases v
    case year => exact absurd h (by decide)
    case month => exact fun n => ⟨n, rfl⟩
    case week => exact absurd (hw rfl) (by decide)
    all_goals exact refines_of_dvd day (fun n => Dvd.intro_left _ rfl) (fun n => rfl) (by decide +kernel)
  all_goals
    cases v <;> first
      | exact absurd h (by decide)
      | exact fun n => ⟨n, rfl⟩
      | exact refines_of_dvd (scale _) (fun n => Dvd.intro_left n rfl) (fun n => rfl) (by decide +kernel)

/-- C109, what is false for the weeks: the period from the month 1970-02 to a date in weeks
begins at the week of 29 January. -/
theorem C109_weeks_false :
    (PyPeriod.init ⟨.month, 1⟩ ⟨.week, 10⟩ true).begin_ = ⟨.week, 4⟩ ∧
      instant ⟨.week, 4⟩ = 28 * day ∧ instant ⟨.month, 1⟩ = 31 * day := by
  decide +kernel

/-- C109: a period built from two dates, whatever their units, has exactly the instants from
the first date to the second one, not included, without `within`; with `within` it goes to
the end of the unit of time, the finest of the two, that begins at the second date. -/
theorem C109_init (b e : Date64)
    (hw : b.unit = .week ∨ e.unit = .week →
      b.unit ≠ .month ∧ b.unit ≠ .year ∧ e.unit ≠ .month ∧ e.unit ≠ .year) (t : Int) :
    (Mem (.init b e false) t ↔ instant b ≤ t ∧ t < instant e) ∧
    ∃ n, instant ⟨minUnit b.unit e.unit, n⟩ = instant e ∧
      (Mem (.init b e true) t ↔
        instant b ≤ t ∧ t < instant ⟨minUnit b.unit e.unit, n + 1⟩) := by
  have key : Refines b.unit (minUnit b.unit e.unit) ∧ Refines e.unit (minUnit b.unit e.unit) := by
    constructor
    · apply C109_units
      · cases b.unit <;> cases e.unit <;> decide
      · revert hw
        cases b.unit <;> cases e.unit <;> decide
    · apply C109_units
      · cases b.unit <;> cases e.unit <;> decide
      · revert hw
        cases b.unit <;> cases e.unit <;> decide
  have hb := convert_exact key.1
  have he := convert_exact key.2
  rw [convert_eq] at hb he
  set r := minUnit b.unit e.unit with hr
  refine ⟨?_, tick r (instant e), he, ?_⟩
  · simp only [Mem, PyPeriod.init, ← hr, convert_eq, Period.mk', Bool.false_eq_true, if_false,
      if_true, sub_zero, sub_add_cancel]
    rw [show start r (tick r (instant b)) = instant b from hb,
      show start r (tick r (instant e)) = instant e from he]
  · simp only [Mem, PyPeriod.init, ← hr, convert_eq, Period.mk', if_true, sub_zero]
    rw [show start r (tick r (instant b)) = instant b from hb]
    rfl

/- From the month 1970-02 to the day 1970-03-01. -/
example : (PyPeriod.init ⟨.month, 1⟩ ⟨.day, 59⟩ false) = ⟨.day, ⟨31, 58⟩⟩ := by decide +kernel

/-- C109: a date of any unit is in a period iff its instant is one of those of the period. -/
theorem C109_contains_date (p : PyPeriod) (d : Date64) :
    p.containsDate d = true ↔ Mem p (instant d) := by
  simp only [PyPeriod.containsDate, convert_value, Period.contains_iff, Period.Mem, Mem,
    le_tick_iff, tick_le_iff]

/-- C109: a period is before (after) a date of any unit iff all its instants are. -/
theorem C109_before_after (p : PyPeriod) (hp : Valid p) (d : Date64) :
    (p.isBefore d = true ↔ ∀ t, Mem p t → t < instant d) ∧
    (p.isAfter d = true ↔ ∀ t, Mem p t → instant d < t) := by
  have hn : p.base.isNull = false := by
    unfold Valid at hp
    exact decide_eq_false (by unfold Period.end_; omega)
  have hs : start p.resolution p.base.begin_ < start p.resolution (p.base.last + 1) := by
    rw [start_lt_iff]; unfold Valid at hp; omega
  constructor
  · simp only [PyPeriod.isBefore, Period.isBefore, hn, convert_value, Bool.false_eq_true, if_false,
      decide_eq_true_eq]
    rw [← Int.add_one_le_iff, le_tick_iff]
    constructor
    · exact fun h t ht => ht.2.trans_le h
    · intro h
      have := h (start p.resolution (p.base.last + 1) - 1) ⟨by omega, by omega⟩
      omega
  · simp only [PyPeriod.isAfter, Period.isAfter, hn, convert_value, Bool.false_eq_true, if_false,
      decide_eq_true_eq]
    rw [← not_le, le_tick_iff, not_le]
    constructor
    · exact fun h t ht => h.trans_le ht.1
    · exact fun h => h _ ⟨le_refl _, hs⟩

example : Valid ⟨.day, ⟨3, 4⟩⟩ ∧ (⟨.day, ⟨3, 4⟩⟩ : PyPeriod).containsDate ⟨.hour, 119⟩ = true ∧
    (⟨.day, ⟨3, 4⟩⟩ : PyPeriod).containsDate ⟨.hour, 120⟩ = false ∧
    (⟨.day, ⟨3, 4⟩⟩ : PyPeriod).isBefore ⟨.hour, 120⟩ = true ∧
    (⟨.day, ⟨3, 4⟩⟩ : PyPeriod).isAfter ⟨.month, 0⟩ = true := by decide +kernel

/-- C109, partial: `contains`, `intersects` and `intersection` of two periods, when the units of
the second one subdivide those of the first one (in particular when they are the same): the
first one contains the second one iff it has all its instants, they intersect iff they have
a common instant, and their intersection has the instants of the first one in a unit of
time that meets the second one. It is false otherwise (`C109_finer_false`). -/
theorem C109_coarser_partial (p q : PyPeriod) (hp : Valid p) (hq : Valid q)
    (h : Refines p.resolution q.resolution) :
    (p.contains q = true ↔ ∀ t, Mem q t → Mem p t) ∧
    (p.intersects q = true ↔ ∃ t, Mem p t ∧ Mem q t) ∧
    (p.intersection q).resolution = p.resolution ∧
    ∀ t, Mem (p.intersection q) t ↔
      Mem p t ∧ ∃ s, Mem q s ∧ tick p.resolution s = tick p.resolution t := by
  unfold Valid at hp hq
  set u := p.resolution with hu
  set v := q.resolution with hv
  have hb : start v q.base.begin_ ≤ start v q.base.last := start_le_iff.2 hq
  have hl : start v q.base.last < start v (q.base.last + 1) := start_lt_succ _ _
  have hqv : (p.adapt q).base.Valid := by
    rw [adapt_eq]
    exact tick_mono _ hb
  -- the end of the last unit of `q` does not cross a beginning of a unit of `p`
  have hend : ∀ n, start v q.base.last < start u n → start v (q.base.last + 1) ≤ start u n := by
    intro n hn
    obtain ⟨m, hm⟩ := h n
    rw [← hm] at hn ⊢
    rw [start_lt_iff] at hn
    rw [start_le_iff]
    omega
  have hmem : ∀ n, (p.adapt q).base.Mem n ↔ ∃ s, Mem q s ∧ tick u s = n := by
    intro n
    rw [adapt_eq]
    simp only [Period.Mem, Mem]
    constructor
    · rintro ⟨h1, h2⟩
      by_cases h3 : tick u (start v q.base.begin_) = n
      · exact ⟨start v q.base.begin_, ⟨le_refl _, hb.trans_lt hl⟩, h3⟩
      · refine ⟨start u n, ⟨?_, ?_⟩, tick_start u n⟩
        · by_contra hc
          have := le_tick_iff.2 (not_le.1 hc).le
          exact h3 (le_antisymm h1 this)
        · exact (le_tick_iff.1 h2).trans_lt hl
    · rintro ⟨s, ⟨h1, h2⟩, rfl⟩
      refine ⟨tick_mono u h1, ?_⟩
      rw [le_tick_iff]
      by_contra hc
      have h4 := hend _ (not_le.1 hc)
      have h5 := (tick_spec u s).1
      exact absurd (h2.trans_le (h4.trans h5)) (lt_irrefl _)
  have hmp : ∀ t, Mem p t ↔ p.base.Mem (tick u t) := by
    intro t
    simp only [Mem, Period.Mem, le_tick_iff, tick_le_iff, ← hu]
  refine ⟨?_, ?_, ?_, ?_⟩
  · unfold PyPeriod.contains
    rw [C16_contains_period hqv]
    constructor
    · intro hc t ht
      rw [hmp]
      exact hc _ ((hmem _).2 ⟨t, ht, rfl⟩)
    · intro hc n hn
      obtain ⟨s, hs, rfl⟩ := (hmem n).1 hn
      exact (hmp s).1 (hc s hs)
  · unfold PyPeriod.intersects
    rw [C16_intersects hp hqv]
    constructor
    · rintro ⟨n, h1, h2⟩
      obtain ⟨s, hs, rfl⟩ := (hmem n).1 h2
      exact ⟨s, (hmp s).2 h1, hs⟩
    · rintro ⟨t, h1, h2⟩
      exact ⟨tick u t, (hmp t).1 h1, (hmem _).2 ⟨t, h2, rfl⟩⟩
  · unfold PyPeriod.intersection
    rw [init_same]
  · intro t
    unfold PyPeriod.intersection
    rw [init_same]
    have : Mem ⟨p.resolution, p.base.intersection (p.adapt q).base⟩ t ↔
        (p.base.intersection (p.adapt q).base).Mem (tick u t) := by
      simp only [Mem, Period.Mem, le_tick_iff, tick_le_iff, ← hu]
    rw [show (⟨(p.base.intersection (p.adapt q).base).begin_,
      (p.base.intersection (p.adapt q).base).last⟩ : Period) =
      p.base.intersection (p.adapt q).base from rfl, this, (C17_intersection _ _ _).1, hmem, hmp]

/- The days 1970-01-04 and 1970-01-05 contain the hours from 100 to 119 but not 120. -/
example : Valid ⟨.day, ⟨3, 4⟩⟩ ∧ Valid ⟨.hour, ⟨100, 119⟩⟩ ∧
    (⟨.day, ⟨3, 4⟩⟩ : PyPeriod).contains ⟨.hour, ⟨100, 119⟩⟩ = true ∧
    (⟨.day, ⟨3, 4⟩⟩ : PyPeriod).contains ⟨.hour, ⟨100, 120⟩⟩ = false ∧
    (⟨.day, ⟨3, 4⟩⟩ : PyPeriod).intersection ⟨.hour, ⟨100, 120⟩⟩ = ⟨.day, ⟨4, 4⟩⟩ ∧
    Refines .day .hour :=
  ⟨by decide, by decide, by decide +kernel, by decide +kernel, by decide +kernel,
    C109_units _ _ (by decide) (by decide)⟩

/-- C109: `is_adjacent`, `merge`, `==` and `<` of two periods of the same unit. -/
theorem C109_same_unit (p q : PyPeriod) (hp : Valid p) (hq : Valid q)
    (h : p.resolution = q.resolution) :
    (p.isAdjacent q = true ↔
      instant p.end_ = instant q.begin_ ∨ instant q.end_ = instant p.begin_) ∧
    ((∃ t, Mem p t ∧ Mem q t) → ∀ t, Mem (p.merge q) t ↔ Mem p t ∨ Mem q t) ∧
    ((¬ ∃ t, Mem p t ∧ Mem q t) → (p.merge q).isNull = true) ∧
    (p.eq q = true ↔ ∀ t, Mem p t ↔ Mem q t) ∧
    (p.lt q = true ↔ instant p.begin_ < instant q.begin_) := by
  have ha : p.adapt q = q := by
    unfold PyPeriod.adapt
    rw [if_neg (by simpa using h)]
  have inj : ∀ a b, start p.resolution a = start p.resolution b ↔ a = b :=
    fun a b => (start_strictMono _).injective.eq_iff
  have hmp : ∀ t, Mem p t ↔ p.base.Mem (tick p.resolution t) := by
    intro t
    simp only [Mem, Period.Mem, le_tick_iff, tick_le_iff]
  have hmq : ∀ t, Mem q t ↔ q.base.Mem (tick p.resolution t) := by
    intro t
    simp only [Mem, Period.Mem, le_tick_iff, tick_le_iff, h]
  have hex : (∃ t, Mem p t ∧ Mem q t) ↔ ∃ n, p.base.Mem n ∧ q.base.Mem n := by
    constructor
    · rintro ⟨t, h1, h2⟩
      exact ⟨_, (hmp t).1 h1, (hmq t).1 h2⟩
    · rintro ⟨n, h1, h2⟩
      refine ⟨start p.resolution n, (hmp _).2 ?_, (hmq _).2 ?_⟩ <;> rwa [tick_start]
  have hm : ∀ t, Mem (p.merge q) t ↔ (p.base.merge q.base).Mem (tick p.resolution t) := by
    intro t
    unfold PyPeriod.merge
    rw [ha, init_same]
    simp only [Mem, Period.Mem, le_tick_iff, tick_le_iff]
  refine ⟨?_, ?_, ?_, ?_, ?_⟩
  · unfold PyPeriod.isAdjacent
    rw [ha]
    simp only [Period.isAdjacent, Bool.or_eq_true, beq_iff_eq, instant, PyPeriod.end_,
      PyPeriod.begin_, ← h, inj]
    constructor <;> (rintro (h | h) <;> omega)
  · intro hc t
    rw [hm, hmp, hmq]
    exact ((C17_merge hp hq).1 (hex.1 hc)).2 _
  · intro hc
    have := (C17_merge hp hq).2 (fun hc' => hc (hex.2 hc'))
    unfold PyPeriod.merge PyPeriod.isNull
    rw [ha, init_same]
    exact this
  · simp only [PyPeriod.eq, h, ne_eq, not_true_eq_false, if_false, Bool.and_eq_true, beq_iff_eq]
    constructor
    · rintro ⟨h1, h2⟩ t
      simp only [Mem, h, h1, h2]
    · intro hall
      have a1 := (hall (start p.resolution p.base.begin_)).1
      have a2 := (hall (start p.resolution q.base.begin_)).2
      have a3 := (hall (start p.resolution p.base.last)).1
      have a4 := (hall (start p.resolution q.base.last)).2
      simp only [hmp, hmq, tick_start, Period.Mem] at a1 a2 a3 a4
      unfold Valid at hp hq
      omega
  · simp only [PyPeriod.lt, h, ne_eq, not_true_eq_false, if_false, decide_eq_true_eq, instant,
      PyPeriod.begin_, start_lt_iff]

example : Valid ⟨.month, ⟨0, 1⟩⟩ ∧ Valid ⟨.month, ⟨1, 4⟩⟩ ∧
    (⟨.month, ⟨0, 1⟩⟩ : PyPeriod).merge ⟨.month, ⟨1, 4⟩⟩ = ⟨.month, ⟨0, 4⟩⟩ ∧
    (⟨.month, ⟨0, 1⟩⟩ : PyPeriod).isAdjacent ⟨.month, ⟨2, 4⟩⟩ = true := by decide +kernel

/-- C109, what is false: when the units of the first period are finer, only the beginning of
the last unit of the second one is taken into account. The first hour of a day contains the
day; the sixth hour of the day does not intersect it, although the day intersects this hour. -/
theorem C109_finer_false :
    ((⟨.hour, ⟨0, 0⟩⟩ : PyPeriod).contains ⟨.day, ⟨0, 0⟩⟩ = true ∧
      Mem ⟨.day, ⟨0, 0⟩⟩ (scale .hour) ∧ ¬ Mem ⟨.hour, ⟨0, 0⟩⟩ (scale .hour)) ∧
    ((⟨.hour, ⟨5, 5⟩⟩ : PyPeriod).intersects ⟨.day, ⟨0, 0⟩⟩ = false ∧
      (⟨.day, ⟨0, 0⟩⟩ : PyPeriod).intersects ⟨.hour, ⟨5, 5⟩⟩ = true ∧
      Mem ⟨.hour, ⟨5, 5⟩⟩ (5 * scale .hour) ∧ Mem ⟨.day, ⟨0, 0⟩⟩ (5 * scale .hour)) := by
  decide +kernel

/-- C109, what is false of `as_resolution`: to finer units, the last unit is reduced to its
beginning; an empty period may become a period that is not empty. -/
theorem C109_as_resolution_false :
    (⟨.day, ⟨0, 0⟩⟩ : PyPeriod).asResolution .hour = ⟨.hour, ⟨0, 0⟩⟩ ∧
      ((⟨.hour, ⟨5, 4⟩⟩ : PyPeriod).isNull = true ∧
        ((⟨.hour, ⟨5, 4⟩⟩ : PyPeriod).asResolution .day).isNull = false) := by
  decide +kernel

/-- C109, what is false of `is_adjacent` with different units: a day and a period that begins
five hours after its end are adjacent; a day and the hour that follows are adjacent in one
order only. -/
theorem C109_adjacent_false :
    ((⟨.day, ⟨0, 0⟩⟩ : PyPeriod).isAdjacent ⟨.hour, ⟨29, 30⟩⟩ = true ∧
      instant (⟨.day, ⟨0, 0⟩⟩ : PyPeriod).end_ ≠ instant (⟨.hour, ⟨29, 30⟩⟩ : PyPeriod).begin_) ∧
    ((⟨.day, ⟨0, 0⟩⟩ : PyPeriod).isAdjacent ⟨.hour, ⟨24, 24⟩⟩ = true ∧
      (⟨.hour, ⟨24, 24⟩⟩ : PyPeriod).isAdjacent ⟨.day, ⟨0, 0⟩⟩ = false) := by
  decide +kernel

/-- C109, what is false of the comparisons with different units: neither `==` nor `<` nor `>`,
even for the same instants or for a day and the second after. -/
theorem C109_compare_false (p q : PyPeriod) (h : p.resolution ≠ q.resolution) :
    p.eq q = false ∧ p.lt q = false ∧ q.lt p = false := by
  simp [PyPeriod.eq, PyPeriod.lt, h, h.symm]

example : (⟨.day, ⟨0, 0⟩⟩ : PyPeriod).resolution ≠ (⟨.hour, ⟨0, 23⟩⟩ : PyPeriod).resolution ∧
    start .day 0 = start .hour 0 ∧ start .day (0 + 1) = start .hour (23 + 1) := by decide

/-- C109: to coarser units, `as_resolution` gives the units of time that meet the period. -/
theorem C109_as_resolution (q : PyPeriod) (hq : Valid q) (u : Resolution)
    (h : Refines u q.resolution) :
    (q.asResolution u).resolution = u ∧ Valid (q.asResolution u) ∧
    ∀ t, Mem (q.asResolution u) t ↔ ∃ s, Mem q s ∧ tick u s = tick u t := by
  rw [asResolution_eq]
  have hv : tick u (start q.resolution q.base.begin_) ≤ tick u (start q.resolution q.base.last) :=
    tick_mono u (start_le_iff.2 hq)
  refine ⟨rfl, hv, fun t => ?_⟩
  -- the intersection with a period that contains both
  set lo := min (tick u (start q.resolution q.base.begin_)) (tick u t)
  set hi := max (tick u (start q.resolution q.base.last)) (tick u t)
  have hval : lo ≤ hi := (min_le_right _ _).trans (le_max_right _ _)
  have key := (C109_coarser_partial ⟨u, ⟨lo, hi⟩⟩ q hval hq h).2.2.2 t
  have hp : Mem ⟨u, ⟨lo, hi⟩⟩ t := by
    simp only [Mem, ← le_tick_iff, ← tick_le_iff]
    exact ⟨min_le_right _ _, le_max_right _ _⟩
  simp only [hp, true_and] at key
  rw [← key]
  unfold PyPeriod.intersection
  rw [init_same, adapt_eq]
  have e := (C17_intersection ⟨lo, hi⟩ ⟨tick u (start q.resolution q.base.begin_),
    tick u (start q.resolution q.base.last)⟩ (tick u t)).1
  simp only [Mem, ← le_tick_iff, ← tick_le_iff]
  simp only [Period.Mem] at e
  rw [e]
  have h1 : lo ≤ tick u t := min_le_right _ _
  have h2 : tick u t ≤ hi := le_max_right _ _
  simp [h1, h2]

/-- C109: a period is rebuilt by `pickle`; its end is the instant after its last one. -/
theorem C109_pickle (p : PyPeriod) (hp : Valid p) : p.reduce = p ∧ p.reduce.eq p = true ∧
    (∀ t, Mem p t ↔ instant p.begin_ ≤ t ∧ t < instant p.end_) ∧
    (p.resolution ≠ .month → p.resolution ≠ .year →
      instant p.end_ - instant p.begin_ = p.duration * scale p.resolution) := by
  have e : p.reduce = p := by
    unfold PyPeriod.reduce PyPeriod.begin_ PyPeriod.last
    rw [init_same]
  refine ⟨e, ?_, fun t => Iff.rfl, ?_⟩
  · rw [e]; simp [PyPeriod.eq]
  · obtain ⟨u, b, l⟩ := p
    intro h1 h2
    cases u <;> first
      | exact absurd rfl h1
      | exact absurd rfl h2
      | (simp only [instant, PyPeriod.end_, PyPeriod.begin_, PyPeriod.duration, Period.duration,
          Period.end_, start]; ring)

example : Valid ⟨.week, ⟨0, 2⟩⟩ ∧ (⟨.week, ⟨0, 2⟩⟩ : PyPeriod).duration = 3 := by decide

end Pyinterp.PeriodPy
