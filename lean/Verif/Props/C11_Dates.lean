import Verif.Lemmas.Calendar
import Mathlib.Tactic.Linarith
import Mathlib.Tactic.Push

/-
C11 – calendar conversion; C12 – clock decomposition; C13 – weekday and ISO calendar;
C14 – time elapsed since January; C15 – conversion of the fraction between units.
-/
namespace Pyinterp.Dateutils
open Pyinterp.Spec.Calendar

/-! ### C11 -/

/-- **C11**: the date of a day number is a date of the calendar, and its number of days
since 1970-01-01 is the number we started from; conversely every date of the calendar is
the date of its day number. -/
theorem C11_round_trip (z : Int) : Valid (dateFromDays z) ∧ dayNumber (dateFromDays z) = z :=
  dateFromDays_spec z

theorem C11_round_trip' (d : Date) (h : Valid d) : dateFromDays (dayNumber d) = d :=
  dateFromDays_dayNumber d h

/-- **C11**: day 0 is 1970-01-01 and consecutive days are consecutive dates. -/
theorem C11_consecutive (z : Int) :
    dateFromDays 0 = ⟨1970, 1, 1⟩ ∧ dateFromDays (z + 1) = next (dateFromDays z) := by
  refine ⟨by decide, ?_⟩
  obtain ⟨h1, h2⟩ := dateFromDays_spec z
  obtain ⟨h3, h4⟩ := dayNumber_next _ h1
  rw [h2] at h4
  rw [← h4]; exact dateFromDays_dayNumber _ h3

theorem before_next (d : Date) : Before d (next d) := by
  unfold Before next
  split
  · right; refine ⟨rfl, Or.inr ⟨rfl, ?_⟩⟩; simp only; omega
  · split
    · right; refine ⟨rfl, Or.inl ?_⟩; simp only; omega
    · left; simp only; omega

theorem before_trans {a b c : Date} (h1 : Before a b) (h2 : Before b c) : Before a c := by
  unfold Before at *; omega

/-- **C11**: the conversion preserves the order of time. -/
theorem C11_monotone (z w : Int) (h : z < w) : Before (dateFromDays z) (dateFromDays w) := by
  obtain ⟨n, rfl⟩ : ∃ n : Nat, w = z + 1 + n := ⟨(w - z - 1).toNat, by omega⟩
  clear h
  induction n with
  | zero => simp only [Nat.cast_zero, Int.add_zero]; rw [(C11_consecutive z).2]; exact before_next _
  | succ n ih =>
    have e : z + 1 + ((n + 1 : Nat) : Int) = (z + 1 + (n : Int)) + 1 := by push_cast; ring
    rw [e, (C11_consecutive _).2]
    exact before_trans ih (before_next _)

/-- The 32-bit variables of the C++ code (`era`, `doe`, `era * 400`, the year) hold their
exact values whenever the day number is less than 2 * 10^11 in absolute value, which covers
every `datetime64` of unit millisecond and finer. -/
theorem C11_no_int32_overflow (z : Int) (h : |z| ≤ 200000000000) :
    |eraOf z| < 2 ^ 31 ∧ |eraOf z * 400| < 2 ^ 31 ∧
    0 ≤ z + 719468 - eraOf z * 146097 ∧ z + 719468 - eraOf z * 146097 < 2 ^ 32 ∧
    |(dateFromDays z).year| < 2 ^ 31 := by
  have h' := abs_le.mp h
  have he := eraOf_eq z
  have h1 : -1400000 ≤ eraOf z ∧ eraOf z ≤ 1400000 := by omega
  refine ⟨by rw [abs_lt]; omega, by rw [abs_lt]; omega, by omega, by omega, ?_⟩
  obtain ⟨hv, hd⟩ := dateFromDays_spec z
  have hy := yday_range _ hv
  have hyl : yearLength (dateFromDays z).year ≤ 366 := by unfold yearLength; split <;> omega
  unfold dayNumber beforeYear at hd
  rw [abs_lt]
  omega

theorem C11_milliseconds_in_range (dt oom : Int) (h : |dt| < 2 ^ 63) (ho : 1000 ≤ oom) :
    |(daysSinceEpoch oom dt).1| ≤ 200000000000 := by
  have h' := abs_lt.mp h
  have hs := tdiv_spec dt oom (by omega)
  have hsec : |(epoch oom dt).1| ≤ 9223372036854776 := by
    rw [abs_le]
    unfold epoch
    simp only
    rcases Int.le_total 0 dt with hd | hd
    · obtain ⟨b1, b2⟩ := hs.2.1 hd
      have hq : 0 ≤ dt.tdiv oom := Int.tdiv_nonneg hd (by omega)
      have : 1000 * dt.tdiv oom ≤ oom * dt.tdiv oom := by nlinarith
      split <;> simp only <;> omega
    · obtain ⟨b1, b2⟩ := hs.2.2 hd
      have hq : dt.tdiv oom ≤ 0 := by
        by_contra hc
        push Not at hc
        have : oom * 1 ≤ oom * dt.tdiv oom := by
          apply Int.mul_le_mul_of_nonneg_left <;> omega
        omega
      have : oom * dt.tdiv oom ≤ 1000 * dt.tdiv oom := by nlinarith
      split <;> simp only <;> omega
  have hsec' := abs_le.mp hsec
  have ht := tdiv_spec (epoch oom dt).1 86400 (by omega)
  unfold daysSinceEpoch
  simp only
  rw [abs_le]
  split <;> omega

/-! ### C12 -/

/-- **C12**: a date of unit `1/oom` second is split into days since 1970-01-01, time of day
and fraction, in their ranges, also before 1970, and the parts give back the instant. -/
theorem C12_decomposition (oom dt : Int) (ho : 0 < oom) :
    let p := daysSinceEpoch oom dt
    let t := timeFromSeconds p.2.1
    (0 ≤ t.hour ∧ t.hour < 24) ∧ (0 ≤ t.minute ∧ t.minute < 60) ∧ (0 ≤ t.second ∧ t.second < 60) ∧
    (0 ≤ p.2.2 ∧ p.2.2 < oom) ∧
    dt = (((dayNumber (dateFromDays p.1) * 24 + t.hour) * 60 + t.minute) * 60 + t.second) * oom + p.2.2 := by
  intro p t
  have hs := tdiv_spec dt oom ho
  obtain ⟨sec, frac, he⟩ : ∃ s f, epoch oom dt = (s, f) := ⟨_, _, rfl⟩
  have hef : 0 ≤ frac ∧ frac < oom ∧ dt = sec * oom + frac := by
    unfold epoch at he
    simp only at he
    split at he
    · obtain ⟨rfl, rfl⟩ := Prod.mk.inj he
      refine ⟨?_, ?_, ?_⟩
      · rcases Int.le_total 0 dt with hd | hd
        · have := hs.2.1 hd; omega
        · have := hs.2.2 hd; omega
      · omega
      · have := hs.1
        calc dt = oom * dt.tdiv oom + dt.tmod oom := this
          _ = (dt.tdiv oom - 1) * oom + (dt.tmod oom + oom) := by ring
    · obtain ⟨rfl, rfl⟩ := Prod.mk.inj he
      refine ⟨by omega, ?_, ?_⟩
      · rcases Int.le_total 0 dt with hd | hd
        · have := hs.2.1 hd; omega
        · have := hs.2.2 hd; omega
      · have := hs.1
        calc dt = oom * dt.tdiv oom + dt.tmod oom := this
          _ = dt.tdiv oom * oom + dt.tmod oom := by ring
  have hday := tdiv_spec sec 86400 (by omega)
  have hp : p = (if sec.tmod 86400 < 0 then sec.tdiv 86400 - 1 else sec.tdiv 86400, sec, frac) := by
    simp only [p, daysSinceEpoch, he]
  have hdays : p.1 = sec / 86400 := by
    rw [hp]; simp only; split <;> omega
  have hsod : (if sec.tmod 86400 < 0 then sec.tmod 86400 + 86400 else sec.tmod 86400) = sec % 86400 := by
    split <;> omega
  have hp1 : p.2.1 = sec := by rw [hp]
  have hp2 : p.2.2 = frac := by rw [hp]
  have ht : t = ⟨(sec % 86400) / 3600, (sec % 86400 % 3600) / 60, (sec % 86400 % 3600) % 60⟩ := by
    have t1 : ∀ a b : Int, 0 ≤ a → a.tdiv b = a / b := fun a b h => Int.tdiv_eq_ediv_of_nonneg h
    have t2 : ∀ a b : Int, 0 ≤ a → a.tmod b = a % b := fun a b h => Int.tmod_eq_emod_of_nonneg h
    simp only [t, hp1, timeFromSeconds, hsod]
    rw [t1 _ _ (by omega), t2 _ 3600 (by omega), t1 _ _ (by omega), t2 _ _ (by omega)]
  rw [ht, hp2, (dateFromDays_spec p.1).2, hdays]
  simp only
  refine ⟨by omega, by omega, by omega, ⟨hef.1, hef.2.1⟩, ?_⟩
  have : ((sec / 86400 * 24 + sec % 86400 / 3600) * 60 + sec % 86400 % 3600 / 60) * 60 + sec % 86400 % 3600 % 60 = sec := by
    omega
  rw [this]; exact hef.2.2

/-- **C12** for the coarse units: years, months, weeks, hours and minutes since 1970. -/
theorem C12_coarse_units (n : Int) :
    (dateFromYears n = ⟨1970 + n, 1, 1⟩) ∧
    (Valid (dateFromMonths n) ∧ (dateFromMonths n).day = 1 ∧
      12 * ((dateFromMonths n).year - 1970) + ((dateFromMonths n).month - 1) = n) ∧
    (Valid (dateFromWeeks n) ∧ dayNumber (dateFromWeeks n) = 7 * n) ∧
    (let p := datetimeFromHours n
     Valid p.1 ∧ 0 ≤ p.2.hour ∧ p.2.hour < 24 ∧ p.2.minute = 0 ∧ p.2.second = 0 ∧
      dayNumber p.1 * 24 + p.2.hour = n) ∧
    (let p := datetimeFromMinutes n
     Valid p.1 ∧ 0 ≤ p.2.hour ∧ p.2.hour < 24 ∧ 0 ≤ p.2.minute ∧ p.2.minute < 60 ∧ p.2.second = 0 ∧
      (dayNumber p.1 * 24 + p.2.hour) * 60 + p.2.minute = n) := by
  refine ⟨rfl, ?_, ?_, ?_, ?_⟩
  · have h := tdiv_spec n 12 (by omega)
    unfold dateFromMonths Valid
    simp only
    split
    · simp only
      have := monthLength_pos (1970 + (n.tdiv 12 - 1)) (n.tmod 12 + 12 + 1)
      refine ⟨⟨by omega, by omega, by omega, by omega⟩, trivial, by omega⟩
    · simp only
      have := monthLength_pos (1970 + n.tdiv 12) (n.tmod 12 + 1)
      refine ⟨⟨by omega, by omega, by omega, by omega⟩, trivial, by omega⟩
  · have := dateFromDays_spec (n * 7)
    exact ⟨this.1, by rw [dateFromWeeks, this.2]; ring⟩
  · have h := tdiv_spec n 24 (by omega)
    intro p
    simp only [p, datetimeFromHours]
    split
    · simp only [(dateFromDays_spec _).2]
      refine ⟨(dateFromDays_spec _).1, by omega, by omega, trivial, trivial, by omega⟩
    · simp only [(dateFromDays_spec _).2]
      refine ⟨(dateFromDays_spec _).1, by omega, by omega, trivial, trivial, by omega⟩
  · have h := tdiv_spec n 1440 (by omega)
    have htime : ∀ m : Int, 0 ≤ m → m < 1440 → timeFromSeconds (m * 60) = ⟨m / 60, m % 60, 0⟩ := by
      intro m h0 h1
      have t1 : ∀ a b : Int, 0 ≤ a → a.tdiv b = a / b := fun a b h => Int.tdiv_eq_ediv_of_nonneg h
      have t2 : ∀ a b : Int, 0 ≤ a → a.tmod b = a % b := fun a b h => Int.tmod_eq_emod_of_nonneg h
      unfold timeFromSeconds
      simp only
      rw [t2 (m * 60) 86400 (by omega)]
      rw [if_neg (by omega)]
      rw [t1 _ _ (by omega), t2 _ 3600 (by omega), t1 _ _ (by omega), t2 _ _ (by omega)]
      simp only [Time.mk.injEq]
      omega
    intro p
    simp only [p, datetimeFromMinutes]
    split
    · rw [htime _ (by omega) (by omega)]
      simp only [(dateFromDays_spec _).2]
      refine ⟨(dateFromDays_spec _).1, by omega, by omega, by omega, by omega, trivial, by omega⟩
    · rw [htime _ (by omega) (by omega)]
      simp only [(dateFromDays_spec _).2]
      refine ⟨(dateFromDays_spec _).1, by omega, by omega, by omega, by omega, trivial, by omega⟩

/-! ### C13 -/

/-- **C13**: 1970-01-01 is a Thursday (4; Sunday is 0), the weekday is in 0..6 and advances
by one every day. -/
theorem C13_weekday (z : Int) :
    weekday 0 = 4 ∧ 0 ≤ weekday z ∧ weekday z < 7 ∧ weekday (z + 1) = (weekday z + 1) % 7 := by
  rw [weekday_eq, weekday_eq, weekday_eq]; omega

theorem beforeYear_mono_add (y : Int) : beforeYear (y + 1) - beforeYear y = yearLength y ∧
    (yearLength y = 365 ∨ yearLength y = 366) := by
  refine ⟨by rw [beforeYear_succ]; ring, ?_⟩
  unfold yearLength; split <;> simp

/-- **C13**: the ISO calendar. Weekday 1 is Monday ... 7 is Sunday; the Thursday of the
week belongs to the calendar year returned, and the week number is the rank of this
Thursday among the Thursdays of that year (first Thursday: week 1). -/
theorem C13_isocalendar (z : Int) :
    let r := isocalendar z
    (1 ≤ r.weekday ∧ r.weekday ≤ 7 ∧ r.weekday % 7 = weekday z) ∧ (1 ≤ r.week ∧ r.week ≤ 53) ∧
    (let thursday := z - r.weekday + 4
     (dateFromDays thursday).year = r.year ∧
     r.week = (thursday - dayNumber ⟨r.year, 1, 1⟩) / 7 + 1) := by
  obtain ⟨hv, hd⟩ := dateFromDays_spec z
  have hy := yday_range _ hv
  have hj := daysSinceJanuary_eq _ hv
  have hw := weekday_eq z
  -- the year of a day
  have hyear : ∀ (t y : Int), beforeYear y - beforeYear 1970 ≤ t → t < beforeYear (y + 1) - beforeYear 1970 →
      (dateFromDays t).year = y := by
    intro t y h1 h2
    obtain ⟨tv, td⟩ := dateFromDays_spec t
    have ty := yday_range _ tv
    have hmono : ∀ a b : Int, a < b → beforeYear a + 365 * (b - a) ≤ beforeYear b := by
      intro a b hab; unfold beforeYear; omega
    unfold dayNumber at td
    have hs := beforeYear_succ (dateFromDays t).year
    rcases lt_trichotomy (dateFromDays t).year y with hlt | heq | hgt
    · have := hmono ((dateFromDays t).year + 1) y
      rcases (by omega : (dateFromDays t).year + 1 < y ∨ (dateFromDays t).year + 1 = y) with h | h
      · have := this h; omega
      · rw [h] at hs; omega
    · exact heq
    · have := hmono (y + 1) (dateFromDays t).year
      rcases (by omega : y + 1 < (dateFromDays t).year ∨ y + 1 = (dateFromDays t).year) with h | h
      · have := this h; omega
      · rw [h] at h2; omega
  have hj1 : ∀ y : Int, dayNumber ⟨y, 1, 1⟩ = beforeYear y - beforeYear 1970 := by
    intro y; simp [dayNumber, beforeMonth]
  have hdn : z = beforeYear (dateFromDays z).year - beforeYear 1970 + daysSinceJanuary (dateFromDays z) := by
    rw [hj]
    have hd' : dayNumber (dateFromDays z) = z := hd
    unfold dayNumber at hd'
    omega
  have hjr : 0 ≤ daysSinceJanuary (dateFromDays z) ∧ daysSinceJanuary (dateFromDays z) < yearLength (dateFromDays z).year := by
    rw [hj]; exact hy
  intro r
  have hr : r = isocalendar z := rfl
  unfold isocalendar at hr
  simp only at hr
  generalize daysSinceJanuary (dateFromDays z) = yday at *
  generalize (dateFromDays z).year = Y at *
  have hwd : 0 ≤ weekday z ∧ weekday z < 7 := by omega
  generalize hwe : weekday z = wd at *
  -- iso_week_days with floor arithmetic
  have hiso : ∀ yd : Int, -366 ≤ yd → isoWeekDays yd wd = yd - (yd - wd + 4) % 7 + 3 := by
    intro yd hyd
    unfold isoWeekDays
    rw [Int.tmod_eq_emod_of_nonneg (by omega)]
    omega
  have hwdv : (wd - 1 + 7).tmod 7 + 1 = (wd + 6) % 7 + 1 := by
    rw [Int.tmod_eq_emod_of_nonneg (by omega)]; congr 2; ring
  have hYl := beforeYear_mono_add Y
  have hYl1 := beforeYear_mono_add (Y - 1)
  have hYl2 := beforeYear_mono_add (Y + 1)
  rw [show Y - 1 + 1 = Y by ring] at hYl1
  have hil : ∀ y, 365 + isLeapYear y = yearLength y := by
    intro y; rw [isLeapYear_eq]; unfold yearLength; split <;> rfl
  rw [hil, hil] at hr
  have t1 : ∀ a b : Int, 0 ≤ a → a.tdiv b = a / b := fun a b h => Int.tdiv_eq_ediv_of_nonneg h
  -- position of the Thursday of the week relative to 1 January
  rw [hiso yday (by omega), hwdv] at hr
  have hmod1 : (yday - wd + 4) % 7 = (yday + 4 - wd) % 7 := by congr 1; ring
  by_cases c1 : yday - (yday - wd + 4) % 7 + 3 < 0
  · rw [if_pos c1, hiso _ (by omega), t1 _ _ (by omega)] at hr
    rw [hr]
    simp only
    refine ⟨by omega, ?_, ?_, ?_⟩
    · omega
    · apply hyear
      · omega
      · rw [show Y - 1 + 1 = Y by ring]; omega
    · rw [hj1]
      omega
  · rw [if_neg c1] at hr
    rw [hiso _ (by omega)] at hr
    by_cases c2 : 0 ≤ yday - yearLength Y - (yday - yearLength Y - wd + 4) % 7 + 3
    · rw [if_pos c2, t1 _ _ (by omega)] at hr
      rw [hr]
      simp only
      refine ⟨by omega, ?_, ?_, ?_⟩
      · omega
      · apply hyear
        · omega
        · omega
      · rw [hj1]
        omega
    · rw [if_neg c2, t1 _ _ (by omega)] at hr
      rw [hr]
      simp only
      refine ⟨by omega, ?_, ?_, ?_⟩
      · omega
      · apply hyear
        · omega
        · omega
      · rw [hj1]
        omega

/-- Non vacuity / sanity of C13: 2021-01-03 (day 18630) is the Sunday of ISO week 53 of 2020. -/
example : isocalendar 18630 = ⟨2020, 53, 7⟩ ∧ weekday 18630 = 0 ∧ dateFromDays 18630 = ⟨2021, 1, 3⟩ ∧
    dateFromDays (-1) = ⟨1969, 12, 31⟩ ∧ Valid ⟨2000, 2, 29⟩ ∧ ¬ Valid ⟨1900, 2, 29⟩ := by
  refine ⟨by decide, by decide, by decide, by decide, ⟨by decide, by decide, by decide, by decide⟩, ?_⟩
  rintro ⟨_, _, _, h⟩
  exact absurd h (by decide)

/-! ### C14 -/

/-- **C14**: `timedelta_since_january` is the time elapsed since 1 January 00:00 of the year
of the date: non negative, smaller than the length of this year. -/
theorem C14_since_january (oom dt : Int) (ho : 0 < oom) :
    let year := (dateFromDays (daysSinceEpoch oom dt).1).year
    let td := timedeltaSinceJanuary oom dt
    td = dt - dayNumber ⟨year, 1, 1⟩ * 86400 * oom ∧ 0 ≤ td ∧ td < yearLength year * 86400 * oom := by
  intro year td
  have h := C12_decomposition oom dt ho
  obtain ⟨hv, hd⟩ := dateFromDays_spec (daysSinceEpoch oom dt).1
  have hy := yday_range _ hv
  have hj := daysSinceJanuary_eq _ hv
  have htd : td = (daysSinceJanuary (dateFromDays (daysSinceEpoch oom dt).1) * 86400 +
      (timeFromSeconds (daysSinceEpoch oom dt).2.1).hour * 3600 +
      (timeFromSeconds (daysSinceEpoch oom dt).2.1).minute * 60 +
      (timeFromSeconds (daysSinceEpoch oom dt).2.1).second) * oom + (daysSinceEpoch oom dt).2.2 := rfl
  have hyr : year = (dateFromDays (daysSinceEpoch oom dt).1).year := rfl
  simp only at h
  have hj1 : dayNumber ⟨year, 1, 1⟩ = beforeYear year - beforeYear 1970 := by
    simp [dayNumber, beforeMonth]
  have hdn : dayNumber (dateFromDays (daysSinceEpoch oom dt).1) =
      dayNumber ⟨year, 1, 1⟩ + daysSinceJanuary (dateFromDays (daysSinceEpoch oom dt).1) := by
    rw [hj1, hj]
    unfold dayNumber
    rw [← hyr]; ring
  rw [← hj] at hy
  rw [← hyr] at hy
  clear_value td year
  rw [hdn] at h
  generalize daysSinceJanuary (dateFromDays (daysSinceEpoch oom dt).1) = J at *
  generalize dayNumber ⟨year, 1, 1⟩ = N at *
  generalize timeFromSeconds (daysSinceEpoch oom dt).2.1 = t at *
  generalize (daysSinceEpoch oom dt).2.2 = f at *
  obtain ⟨h1, h2, h3, h4, h5⟩ := h
  refine ⟨?_, ?_, ?_⟩
  · rw [htd, h5]; ring
  · rw [htd]
    have : 0 ≤ (J * 86400 + t.hour * 3600 + t.minute * 60 + t.second) * oom := by
      apply Int.mul_nonneg <;> omega
    omega
  · rw [htd]
    have hle : J * 86400 + t.hour * 3600 + t.minute * 60 + t.second + 1 ≤ yearLength year * 86400 := by omega
    have := Int.mul_le_mul_of_nonneg_right hle (show 0 ≤ oom by omega)
    have e : (J * 86400 + t.hour * 3600 + t.minute * 60 + t.second + 1) * oom =
      (J * 86400 + t.hour * 3600 + t.minute * 60 + t.second) * oom + oom := by ring
    omega

example : timedeltaSinceJanuary 1000 (-1) = 31535999999 := by decide

/-! ### C15 -/

/-- **C15**: for two units of the clock, converting a (non negative) fraction to a finer unit
is an exact multiplication; to a coarser unit it is the floor. -/
theorem C15_cast (r q : Resolution) (oom scale frac : Int) (h1 : r.orderOfMagnitude = some oom)
    (h2 : q.orderOfMagnitude = some scale) (hf : 0 ≤ frac) (hf' : frac < oom) :
    (oom ≤ scale → cast oom frac scale * oom = frac * scale) ∧
    (scale ≤ oom → cast oom frac scale * oom ≤ frac * scale ∧ frac * scale < (cast oom frac scale + 1) * oom) ∧
    0 ≤ cast oom frac scale ∧ cast oom frac scale < scale := by
  have t1 : ∀ b : Int, frac.tdiv b = frac / b := fun b => Int.tdiv_eq_ediv_of_nonneg hf
  cases r <;> simp only [Resolution.orderOfMagnitude, Option.some.injEq, reduceCtorEq] at h1 <;>
  cases q <;> simp only [Resolution.orderOfMagnitude, Option.some.injEq, reduceCtorEq] at h2 <;>
  subst h1 <;> subst h2 <;>
  (simp only [cast, t1]; norm_num [Int.tdiv]; try omega)

theorem ite_eq_some_split {p : Prop} [Decidable p] {a r : Resolution} {t : Option Resolution}
    (h : (if p then some a else t) = some r) : (p ∧ a = r) ∨ t = some r := by
  split at h
  · left; exact ⟨by assumption, Option.some.inj h⟩
  · right; exact h

/-- **C15**: names of units are read back, only the names written by the library are
accepted. -/
theorem C15_unit_names (r : Resolution) (s : String) :
    parseUnit r.unit = some r ∧ (parseUnit s = some r → s = r.unit) := by
  constructor
  · cases r <;> decide
  · intro h
    unfold parseUnit at h
    iterate 13
      obtain ⟨h1, h2⟩ | h := ite_eq_some_split h
      · rw [← h2]; exact h1
    cases h

/-- **C15**: the comparison of units is the comparison of their resolutions: finer units have
more ticks per second; only units from the second on have a number of ticks. -/
theorem C15_units_order (r q : Resolution) :
    ((∃ n, r.orderOfMagnitude = some n) ↔ 6 ≤ r.rank) ∧ (r.rank = q.rank → r = q) ∧
    (∀ n m, r.orderOfMagnitude = some n → q.orderOfMagnitude = some m → (r.rank < q.rank ↔ n < m)) ∧
    (∀ n, r.orderOfMagnitude = some n → resolutionOf n = r) := by
  refine ⟨?_, ?_, ?_, ?_⟩
  · cases r <;> simp [Resolution.orderOfMagnitude, Resolution.rank]
  · cases r <;> cases q <;> simp [Resolution.rank]
  · intro n m h1 h2
    cases r <;> simp only [Resolution.orderOfMagnitude, Option.some.injEq, reduceCtorEq] at h1 <;>
    cases q <;> simp only [Resolution.orderOfMagnitude, Option.some.injEq, reduceCtorEq] at h2 <;>
    subst h1 <;> subst h2 <;> simp [Resolution.rank]
  · intro n h1
    cases r <;> simp only [Resolution.orderOfMagnitude, Option.some.injEq, reduceCtorEq] at h1 <;>
    subst h1 <;> rfl

example : cast 1000000000 123456789 1000000 = 123456 ∧ cast 1000 7 1000000 = 7000 := by decide

end Pyinterp.Dateutils
