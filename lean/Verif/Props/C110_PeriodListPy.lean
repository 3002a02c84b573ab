import Verif.Props.C109_PeriodPy
import Verif.Props.C18_PeriodLists

/-
C110: lists of periods of Python, with dates, durations and periods of different units.
-/
namespace Pyinterp.PeriodPy
open Dateutils Spec.PeriodPy

theorem covered_iff (l : PyList) (t : Int) : Covered l t ↔ Covers l.base (tick l.unit t) := by
  simp only [Covered, Covers, Mem, Period.Mem, le_tick_iff, tick_le_iff]

theorem asBaseClass_eq (p : PyPeriod) : p.asBaseClass = p.base := by
  simp [PyPeriod.asBaseClass, Period.mk']

/-- C110: `belong_to_a_period`, for dates of any units in chronological order: one flag for
each date, `true` iff the instant of the date is in one of the periods. -/
theorem C110_belong (garbage : Period) (l : PyList) (hl : SortedDisjoint l.base)
    (dates : List Date64) (hd : InOrder dates) :
    ∃ flags, l.belong (.ok garbage) dates = .ok flags ∧ flags.length = dates.length ∧
      ∀ i (h : i < dates.length) (h' : i < flags.length),
        flags[i] = true ↔ Covered l (instant dates[i]) := by
  have hc : Chronological (dates.map fun d => (d.convert l.unit).value) := by
    unfold Chronological
    rw [List.pairwise_map]
    refine hd.imp fun {a b} h => ?_
    rw [convert_value, convert_value]
    exact tick_mono _ h
  obtain ⟨flags, e, n, h⟩ := C19_belong garbage l.base hl _ hc
  refine ⟨flags, e, by simpa using n, fun i h1 h2 => ?_⟩
  rw [h i (by simpa using h1) h2, covered_iff, List.getElem_map, convert_value]

/- Hours in the days 1970-01-02, 1970-01-03 and 1970-01-06. -/
example : SortedDisjoint [⟨1, 2⟩, ⟨5, 5⟩] ∧ InOrder [⟨.hour, 23⟩, ⟨.hour, 71⟩, ⟨.month, 1⟩] ∧
    (PyList.mk .day [⟨1, 2⟩, ⟨5, 5⟩]).belong (.ok ⟨0, 0⟩)
      [⟨.hour, 23⟩, ⟨.hour, 71⟩, ⟨.hour, 72⟩, ⟨.second, 432000⟩] =
      .ok [false, true, false, true] := by
  refine ⟨by decide, ?_, by decide +kernel⟩
  unfold InOrder
  decide +kernel

/-- C110: `cross_a_period`, for dates of any units in chronological order: a flag is `true`
iff one of the periods meets the units of time from that of the date to that of the last
date. -/
theorem C110_cross (l : PyList) (hl : SortedDisjoint l.base) (dates : List Date64)
    (hd : InOrder dates) (hne : dates ≠ []) :
    ∃ flags, l.cross dates = .ok flags ∧ flags.length = dates.length ∧
      ∀ i (h : i < dates.length) (h' : i < flags.length),
        flags[i] = true ↔ ∃ t, Covered l t ∧ tick l.unit (instant dates[i]) ≤ tick l.unit t ∧
          tick l.unit t ≤ tick l.unit (instant (dates.getLast hne)) := by
  have hc : Chronological (dates.map fun d => (d.convert l.unit).value) := by
    unfold Chronological
    rw [List.pairwise_map]
    refine hd.imp fun {a b} h => ?_
    rw [convert_value, convert_value]
    exact tick_mono _ h
  have hne' : dates.map (fun d => (d.convert l.unit).value) ≠ [] := by simpa using hne
  obtain ⟨flags, e, n, h⟩ := C20_cross l.base hl _ hc hne'
  refine ⟨flags, e, by simpa using n, fun i h1 h2 => ?_⟩
  rw [h i (by simpa using h1) h2, List.getElem_map, convert_value, List.getLast_map, convert_value]
  constructor
  · rintro ⟨p, hp, t, ht, h3, h4⟩
    refine ⟨start l.unit t, ?_, ?_, ?_⟩
    · rw [covered_iff, tick_start]; exact ⟨p, hp, ht⟩
    · rwa [tick_start]
    · rwa [tick_start]
  · rintro ⟨t, ht, h3, h4⟩
    obtain ⟨p, hp, hm⟩ := (covered_iff l t).1 ht
    exact ⟨p, hp, _, hm, h3, h4⟩

/-- C110: `merge` of two lists of the same unit: the instants of the result are those of the
two lists, and its periods are sorted and disjoint. -/
theorem C110_merge (l m : PyList) (hu : l.unit = m.unit) (hl : SortedDisjoint l.base)
    (hm : SortedDisjoint m.base) :
    ∃ r, l.merge m = .ok r ∧ r.unit = l.unit ∧ SortedDisjoint r.base ∧
      ∀ t, Covered r t ↔ Covered l t ∨ Covered m t := by
  obtain ⟨h1, h2, _⟩ := C18_merge_disjoint l.base m.base hl hm
  refine ⟨⟨l.unit, PeriodList.merge l.base m.base⟩,
    by rw [PyList.merge, if_neg (by simpa using hu)], rfl, h1, fun t => ?_⟩
  simp only [covered_iff, h2, hu]

example : (PyList.mk .day [⟨1, 3⟩]).merge ⟨.day, [⟨2, 7⟩]⟩ = .ok ⟨.day, [⟨1, 7⟩]⟩ := by decide +kernel

/-- C110, what is false: lists of different units cannot be merged, in particular with the list
made by `PeriodList.empty()`, in nanoseconds. -/
theorem C110_merge_false (l m : PyList) :
    (l.unit ≠ m.unit → l.merge m = .error .exn) ∧
    (m.unit ≠ .nanosecond → PyList.empty.merge m = .error .exn) := by
  refine ⟨fun h => ?_, fun h => ?_⟩
  · rw [PyList.merge, if_pos h]
  · exact if_pos (Ne.symm h)

/-- C110: `within` and `intersection` for a period of the unit of the list. -/
theorem C110_within (l : PyList) (p : PyPeriod) (hl : ∀ q ∈ l.base, q.Valid) (hp : Valid p)
    (hu : p.resolution = l.unit) :
    ((l.within p).unit = l.unit ∧ (l.within p).base.Sublist l.base ∧
      ∀ q ∈ l.base, q ∈ (l.within p).base ↔ ∃ t, Mem p t ∧ Mem ⟨l.unit, q⟩ t) ∧
    (l.intersection p).unit = l.unit ∧
      ∀ t, Covered (l.intersection p) t ↔ Covered l t ∧ Mem p t := by
  obtain ⟨h1, h2, _⟩ := C22_within l.base p.base hl hp
  have hmp : ∀ (q : Period) t, Mem ⟨l.unit, q⟩ t ↔ q.Mem (tick l.unit t) := by
    intro q t
    simp only [Mem, Period.Mem, le_tick_iff, tick_le_iff]
  have hpp : ∀ t, Mem p t ↔ p.base.Mem (tick l.unit t) := by
    intro t
    rw [← hmp, ← hu]
  refine ⟨⟨rfl, ?_, fun q hq => ?_⟩, rfl, fun t => ?_⟩
  · simpa only [PyList.within, asBaseClass_eq] using h1
  · simp only [PyList.within, asBaseClass_eq]
    rw [h2 q hq]
    constructor
    · rintro ⟨n, h3, h4⟩
      refine ⟨start l.unit n, (hpp _).2 ?_, (hmp _ _).2 ?_⟩ <;> rwa [tick_start]
    · rintro ⟨t, h3, h4⟩
      exact ⟨_, (hpp _).1 h3, (hmp _ _).1 h4⟩
  · rw [covered_iff, covered_iff, hpp]
    simp only [PyList.intersection, asBaseClass_eq]
    exact (C22_intersection l.base p.base).1 _

example : (PyList.mk .day [⟨1, 3⟩, ⟨5, 9⟩]).within ⟨.day, ⟨3, 4⟩⟩ = ⟨.day, [⟨1, 3⟩]⟩ ∧
    (PyList.mk .day [⟨1, 3⟩, ⟨5, 9⟩]).intersection ⟨.day, ⟨3, 7⟩⟩ = ⟨.day, [⟨3, 3⟩, ⟨5, 7⟩]⟩ := by
  decide +kernel

/-- C110, what is false: `within` and `intersection` do not convert the period. A list with
the day 1970-01-02, in hours, has nothing within the period of the days 1970-01-01 to
1970-01-05; and a list with the hour 3 of 1970-01-01 has its period within the day
1970-01-04. -/
theorem C110_within_false :
    ((PyList.mk .hour [⟨24, 47⟩]).within ⟨.day, ⟨0, 4⟩⟩ = ⟨.hour, []⟩ ∧
      (PyList.mk .hour [⟨24, 47⟩]).intersection ⟨.day, ⟨0, 4⟩⟩ = ⟨.hour, []⟩ ∧
      ∀ t, Mem ⟨.hour, ⟨24, 47⟩⟩ t → Mem ⟨.day, ⟨0, 4⟩⟩ t) ∧
    ((PyList.mk .hour [⟨3, 3⟩]).within ⟨.day, ⟨3, 3⟩⟩ = ⟨.hour, [⟨3, 3⟩]⟩ ∧
      ¬ ∃ t, Mem ⟨.hour, ⟨3, 3⟩⟩ t ∧ Mem ⟨.day, ⟨3, 3⟩⟩ t) := by
  refine ⟨⟨by decide +kernel, by decide +kernel, ?_⟩, by decide +kernel, ?_⟩
  · intro t
    simp only [Mem, start, scale]
    omega
  · simp only [Mem, start, scale]
    rintro ⟨t, h⟩
    omega

/-- The length of the units is constant. -/
def Constant (u : Resolution) : Prop := u ≠ .month ∧ u ≠ .year

instance (u : Resolution) : Decidable (Constant u) := inferInstanceAs (Decidable (_ ∧ _))

theorem scale_pos (u : Resolution) : 0 < scale u := by cases u <;> decide

theorem start_const {u : Resolution} (h : Constant u) (n : Int) : start u n = n * scale u := by
  cases u <;> first | exact absurd rfl h.1 | exact absurd rfl h.2 | rfl

/-- C110: `filter` with a duration of any unit of constant length: it keeps exactly the
periods that last at least this duration, rounded down to the unit of the list; the
duration itself when its unit is a multiple of that of the list. -/
theorem C110_filter (l : PyList) (hl : Constant l.unit) (u : Resolution) (n : Int) :
    (l.filter u n).unit = l.unit ∧ (l.filter u n).base = l.base.filter (fun p =>
      decide (n * scale u - (n * scale u) % scale l.unit ≤
        start l.unit (p.last + 1) - start l.unit p.begin_)) ∧
    (scale l.unit ∣ scale u → (n * scale u) % scale l.unit = 0) := by
  refine ⟨rfl, ?_, ?_⟩
  · simp only [PyList.filter, C22_filter]
    congr 1
    funext p
    apply decide_eq_decide.2
    rw [start_const hl, start_const hl, convertDelta]
    have h1 := Int.emod_add_mul_ediv (n * scale u) (scale l.unit)
    have h2 := scale_pos l.unit
    have e1 : n * scale u - (n * scale u) % scale l.unit =
        scale l.unit * (n * scale u / scale l.unit) := by omega
    have e2 : (p.last + 1) * scale l.unit - p.begin_ * scale l.unit =
        scale l.unit * (p.last - p.begin_ + 1) := by ring
    rw [e1, e2]
    exact (mul_le_mul_iff_right₀ h2).symm
  · exact fun h => Int.emod_eq_zero_of_dvd (h.mul_left n)

example : Constant .hour ∧ scale .hour ∣ scale .day ∧
    (PyList.mk .hour [⟨1, 24⟩, ⟨30, 52⟩]).filter .day 1 = ⟨.hour, [⟨1, 24⟩]⟩ := by decide +kernel

/-- C110: `join_adjacent_periods` with a gap of a unit that is a multiple of that of the list:
the instants of the result are those of the list and those of the holes such that, from the
beginning of the last unit of time before the hole to the end of the hole, there is at most
the given gap; the instance is modified only with `inplace`. -/
theorem C110_join (l : PyList) (hl : Constant l.unit) (hs : SortedDisjoint l.base)
    (u : Resolution) (n : Int) (hd : scale l.unit ∣ scale u) :
    SortedDisjoint (l.join (some (u, n)) false).1.base ∧
    (l.join (some (u, n)) false).1.unit = l.unit ∧
    (∀ t, Covered (l.join (some (u, n)) false).1 t ↔ Covered l t ∨
      ∃ p ∈ l.base, ∃ q ∈ l.base, start l.unit (p.last + 1) ≤ t ∧ t < start l.unit q.begin_ ∧
        start l.unit q.begin_ - start l.unit p.last ≤ n * scale u) ∧
    (l.join (some (u, n)) false).2 = l ∧
    (l.join (some (u, n)) true).2 = (l.join (some (u, n)) true).1 ∧
    (l.join (some (u, n)) true).1 = (l.join (some (u, n)) false).1 := by
  set e := convertDelta u l.unit n with he
  have e0 : (if n ≠ 0 then e else 0) = e := by
    by_cases h : n = 0
    · rw [if_neg (by simpa using h), he, h]; simp [convertDelta]
    · rw [if_pos h]
  have hee : e * scale l.unit = n * scale u := by
    rw [he, convertDelta]
    exact Int.ediv_mul_cancel (hd.mul_left n)
  have hj : (l.join (some (u, n)) false).1 = ⟨l.unit, PeriodList.joinAdjacentPeriods l.base e⟩ := by
    simp only [PyList.join, ← he, e0]
    rfl
  obtain ⟨h1, _, h3⟩ := C21_join l.base hs e
  rw [hj]
  refine ⟨h1, rfl, fun t => ?_, rfl, rfl, ?_⟩
  · rw [covered_iff, covered_iff, h3]
    have hiff : ∀ p q : Period, (p.last < tick l.unit t ∧ tick l.unit t < q.begin_ ∧
        q.begin_ - p.last ≤ e) ↔ (start l.unit (p.last + 1) ≤ t ∧ t < start l.unit q.begin_ ∧
        start l.unit q.begin_ - start l.unit p.last ≤ n * scale u) := by
      intro p q
      rw [← Int.add_one_le_iff, le_tick_iff, ← not_le (b := tick l.unit t), le_tick_iff, not_le,
        start_const hl q.begin_, start_const hl p.last, ← sub_mul, ← hee,
        mul_le_mul_iff_left₀ (scale_pos l.unit)]
    simp only [hiff]
  · simp only [PyList.join, ← he, e0]
    rfl

example : Constant .hour ∧ SortedDisjoint [⟨1, 2⟩, ⟨4, 6⟩, ⟨30, 31⟩] ∧ scale .hour ∣ scale .day ∧
    (PyList.mk .hour [⟨1, 2⟩, ⟨4, 6⟩, ⟨30, 31⟩]).join (some (.day, 1)) false =
      (⟨.hour, [⟨1, 31⟩]⟩, ⟨.hour, [⟨1, 2⟩, ⟨4, 6⟩, ⟨30, 31⟩]⟩) := by decide +kernel

/-- C110: `is_it_close` without a tolerance: the date, of any unit, is in a period. -/
theorem C110_close (l : PyList) (hl : ∀ p ∈ l.base, p.Valid) (d : Date64) :
    l.isItClose d none = true ↔ Covered l (instant d) := by
  simp only [PyList.isItClose]
  rw [C22_is_close _ hl _ 0 le_rfl, covered_iff, convert_value]
  constructor
  · rintro ⟨t, h, h1, h2⟩
    have : t = tick l.unit (instant d) := by omega
    rwa [← this]
  · exact fun h => ⟨_, h, by omega, by omega⟩

/-- C110: with a tolerance of a unit that is a multiple of that of the list, the unit of time
of the date is at most this tolerance away from that of an instant of a period. -/
theorem C110_close_tolerance (l : PyList) (hc : Constant l.unit) (hl : ∀ p ∈ l.base, p.Valid)
    (d : Date64) (u : Resolution) (n : Int) (hn : 0 ≤ n) (hd : scale l.unit ∣ scale u) :
    l.isItClose d (some (u, n)) = true ↔ ∃ t, Covered l t ∧
      |start l.unit (tick l.unit t) - start l.unit (tick l.unit (instant d))| ≤ n * scale u := by
  set e := convertDelta u l.unit n with he
  have hee : e * scale l.unit = n * scale u := by
    rw [he, convertDelta]
    exact Int.ediv_mul_cancel (hd.mul_left n)
  have h0 : 0 ≤ e := by
    rw [he, convertDelta]
    exact Int.ediv_nonneg (mul_nonneg hn (scale_pos u).le) (scale_pos l.unit).le
  simp only [PyList.isItClose, ← he]
  rw [C22_is_close _ hl _ e h0, convert_value]
  have key : ∀ a : Int, (tick l.unit (instant d) - e ≤ a ∧ a ≤ tick l.unit (instant d) + e) ↔
      |start l.unit a - start l.unit (tick l.unit (instant d))| ≤ n * scale u := by
    intro a
    rw [start_const hc, start_const hc, ← sub_mul, abs_le, ← hee, ← neg_mul,
      mul_le_mul_iff_left₀ (scale_pos l.unit), mul_le_mul_iff_left₀ (scale_pos l.unit)]
    constructor <;> (rintro ⟨h1, h2⟩; constructor <;> omega)
  constructor
  · rintro ⟨t, h, h1, h2⟩
    refine ⟨start l.unit t, ?_, ?_⟩
    · rw [covered_iff, tick_start]; exact h
    · rw [tick_start]; exact (key t).1 ⟨h1, h2⟩
  · rintro ⟨t, h, h1⟩
    obtain ⟨h2, h3⟩ := (key _).2 h1
    exact ⟨_, (covered_iff l t).1 h, h2, h3⟩

example : (∀ p ∈ ([⟨1, 2⟩, ⟨5, 5⟩] : List Period), p.Valid) ∧
    (PyList.mk .day [⟨1, 2⟩, ⟨5, 5⟩]).isItClose ⟨.hour, 71⟩ none = true ∧
    (PyList.mk .day [⟨1, 2⟩, ⟨5, 5⟩]).isItClose ⟨.hour, 79⟩ none = false ∧
    (PyList.mk .day [⟨1, 2⟩, ⟨9, 9⟩]).isItClose ⟨.hour, 79⟩ (some (.week, 1)) = true := by
  decide +kernel

/-- C110: a list is rebuilt by `pickle`; its dates are those it was built from. -/
theorem C110_pickle (l : PyList) (u : Resolution) (begins lasts : List Int)
    (h : begins.length = lasts.length) : l.pickle = l ∧
    ∃ m, PyList.init u begins lasts = .ok m ∧
      m.periods = begins.zipWith (fun b e => (⟨u, b⟩, ⟨u, e⟩)) lasts := by
  refine ⟨?_, _, by rw [PyList.init, if_neg (by simpa using h)], ?_⟩
  · simp only [PyList.pickle, C22_pickle]
  · simp [PyList.periods, List.map_zipWith]

end Pyinterp.PeriodPy
