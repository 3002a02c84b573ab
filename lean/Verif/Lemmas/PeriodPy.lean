import Verif.Spec.PeriodPy
import Verif.Lemmas.Calendar
import Mathlib.Tactic.Linarith
import Mathlib.Tactic.Ring

/-
Conversions between the units of the dates.
-/
namespace Pyinterp.PeriodPy
open Dateutils Spec.Calendar Spec.PeriodPy

theorem dayNumber_month (n : Int) : dayNumber ⟨1970 + (n + 1) / 12, (n + 1) % 12 + 1, 1⟩ =
    dayNumber ⟨1970 + n / 12, n % 12 + 1, 1⟩ + monthLength (1970 + n / 12) (n % 12 + 1) := by
  by_cases h : n % 12 = 11
  · have h1 : (n + 1) / 12 = n / 12 + 1 := by omega
    have h2 : (n + 1) % 12 = 0 := by omega
    rw [h1, h2, h]
    have h3 := beforeMonth_13 (1970 + n / 12)
    have h4 := beforeYear_succ (1970 + n / 12)
    have h5 : monthLength (1970 + n / 12) (11 + 1) = 31 := by simp [monthLength]
    have h6 : beforeMonth (1970 + (n / 12 + 1)) (0 + 1) = 0 := rfl
    simp only [dayNumber, h5, h6]
    rw [show (11 : Int) + 1 = 12 from rfl, show 1970 + (n / 12 + 1) = 1970 + n / 12 + 1 by ring]
    omega
  · have h1 : (n + 1) / 12 = n / 12 := by omega
    have h2 : (n + 1) % 12 = n % 12 + 1 := by omega
    have h3 := beforeMonth_succ (1970 + n / 12) (n % 12 + 1) (by omega)
    rw [h1, h2]
    simp only [dayNumber]
    omega

theorem dayNumber_year (n : Int) : dayNumber ⟨1970 + (n + 1), 1, 1⟩ =
    dayNumber ⟨1970 + n, 1, 1⟩ + yearLength (1970 + n) := by
  have h4 := beforeYear_succ (1970 + n)
  have h5 : beforeMonth (1970 + (n + 1)) 1 = 0 := rfl
  have h6 : beforeMonth (1970 + n) 1 = 0 := rfl
  simp only [dayNumber, h5, h6]
  rw [show 1970 + (n + 1) = 1970 + n + 1 by ring]
  omega

theorem yearLength_pos (y : Int) : 0 < yearLength y := by
  unfold yearLength; split <;> decide

theorem start_lt_succ (u : Resolution) (n : Int) : start u n < start u (n + 1) := by
  cases u
  · simp only [start, dayNumber_year]
    have := yearLength_pos (1970 + n)
    unfold day; omega
  · simp only [start, dayNumber_month]
    have := (monthLength_pos (1970 + n / 12) (n % 12 + 1)).1
    unfold day; omega
  all_goals simp only [start, scale]; omega

theorem start_strictMono (u : Resolution) : StrictMono (start u) := by
  intro a b h
  obtain ⟨n, rfl⟩ : ∃ n : Nat, b = a + 1 + n := ⟨(b - a - 1).toNat, by omega⟩
  clear h
  induction n with
  | zero => simpa using start_lt_succ u a
  | succ n ih =>
    have e : a + 1 + ((n + 1 : Nat) : Int) = (a + 1 + (n : Int)) + 1 := by push_cast; ring
    rw [e]
    exact ih.trans (start_lt_succ u _)

theorem start_lt_iff {u : Resolution} {a b : Int} : start u a < start u b ↔ a < b :=
  (start_strictMono u).lt_iff_lt

theorem start_le_iff {u : Resolution} {a b : Int} : start u a ≤ start u b ↔ a ≤ b :=
  (start_strictMono u).le_iff_le

theorem tick_spec (u : Resolution) (t : Int) :
    start u (tick u t) ≤ t ∧ t < start u (tick u t + 1) := by
  cases u
  · simp only [start, tick]
    rw [dayNumber_year]
    obtain ⟨hv, hz⟩ := dateFromDays_spec (t / day)
    set d := dateFromDays (t / day)
    have hy := yday_range d hv
    have e : 1970 + (d.year - 1970) = d.year := by ring
    rw [e]
    have hj := daysSinceJanuary_eq _ hv
    have h6 : beforeMonth d.year 1 = 0 := rfl
    have hb : 0 ≤ beforeMonth d.year d.month := by
      rw [beforeMonth_eq _ _ hv.1 hv.2.1]
      split <;> (have := hv.1; have := hv.2.1; omega)
    have hh : dayNumber ⟨d.year, 1, 1⟩ ≤ t / day ∧
        t / day < dayNumber ⟨d.year, 1, 1⟩ + yearLength d.year := by
      rw [← hz]
      simp only [dayNumber, h6] at hj ⊢
      constructor <;> omega
    unfold day at hh ⊢
    omega
  · simp only [start, tick]
    rw [dayNumber_month]
    obtain ⟨hv, hz⟩ := dateFromDays_spec (t / day)
    set d := dateFromDays (t / day)
    obtain ⟨h1, h2, h3, h4⟩ := hv
    have e1 : ((d.year - 1970) * 12 + (d.month - 1)) / 12 = d.year - 1970 := by omega
    have e2 : ((d.year - 1970) * 12 + (d.month - 1)) % 12 + 1 = d.month := by omega
    have e : 1970 + (d.year - 1970) = d.year := by ring
    rw [e1, e2, e]
    have hh : dayNumber ⟨d.year, d.month, 1⟩ ≤ t / day ∧
        t / day < dayNumber ⟨d.year, d.month, 1⟩ + monthLength d.year d.month := by
      rw [← hz]
      simp only [dayNumber]
      constructor <;> omega
    unfold day at hh ⊢
    omega
  all_goals simp only [start, tick, scale]; omega

/-- The unit that contains an instant is after the unit `n` iff the instant is. -/
theorem le_tick_iff {u : Resolution} {n t : Int} : n ≤ tick u t ↔ start u n ≤ t := by
  obtain ⟨h1, h2⟩ := tick_spec u t
  constructor
  · exact fun h => (start_le_iff.2 h).trans h1
  · intro h
    have := start_lt_iff.1 (h.trans_lt h2)
    omega

theorem tick_le_iff {u : Resolution} {n t : Int} : tick u t ≤ n ↔ t < start u (n + 1) := by
  have := le_tick_iff (u := u) (n := n + 1) (t := t)
  omega

theorem tick_start (u : Resolution) (n : Int) : tick u (start u n) = n := by
  apply le_antisymm
  · rw [tick_le_iff]; exact start_lt_succ u n
  · rw [le_tick_iff]

theorem tick_mono (u : Resolution) {s t : Int} (h : s ≤ t) : tick u s ≤ tick u t := by
  rw [le_tick_iff]
  exact (tick_spec u s).1.trans h

theorem convert_unit (d : Date64) (u : Resolution) : (d.convert u).unit = u := by
  unfold Date64.convert; split <;> simp_all

theorem convert_value (d : Date64) (u : Resolution) : (d.convert u).value = tick u (instant d) := by
  unfold Date64.convert instant
  split
  · rename_i h; rw [← h, tick_start]
  · rfl

theorem convert_eq (d : Date64) (u : Resolution) : d.convert u = ⟨u, tick u (instant d)⟩ := by
  have h1 := convert_unit d u
  have h2 := convert_value d u
  cases h : d.convert u
  simp_all

/-- The conversion to units that subdivide those of the date is exact. -/
theorem convert_exact {d : Date64} {v : Resolution} (h : Refines d.unit v) :
    instant (d.convert v) = instant d := by
  rw [convert_eq]
  obtain ⟨m, hm⟩ := h d.value
  unfold instant
  simp only
  rw [← hm, tick_start]

theorem minUnit_self (u : Resolution) : minUnit u u = u := by cases u <;> rfl

theorem init_same (u : Resolution) (b e : Int) :
    PyPeriod.init ⟨u, b⟩ ⟨u, e⟩ true = ⟨u, ⟨b, e⟩⟩ := by
  simp [PyPeriod.init, minUnit_self, Date64.convert, Period.mk']

theorem asResolution_eq (p : PyPeriod) (u : Resolution) :
    p.asResolution u = ⟨u, ⟨tick u (start p.resolution p.base.begin_),
      tick u (start p.resolution p.base.last)⟩⟩ := by
  unfold PyPeriod.asResolution
  rw [convert_eq, convert_eq, init_same]
  rfl

theorem adapt_eq (p q : PyPeriod) :
    p.adapt q = ⟨p.resolution, ⟨tick p.resolution (start q.resolution q.base.begin_),
      tick p.resolution (start q.resolution q.base.last)⟩⟩ := by
  unfold PyPeriod.adapt
  by_cases h : p.resolution = q.resolution
  · rw [if_neg (by simpa using h), h, tick_start, tick_start]
  · rw [if_pos h, asResolution_eq]

end Pyinterp.PeriodPy
