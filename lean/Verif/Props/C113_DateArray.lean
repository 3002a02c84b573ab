import Verif.Model.DateArray
import Verif.Spec.DateArray
import Verif.Props.C11_Dates
import Verif.Props.C99_DateText

/-
C113: the functions of `pyinterp.core.dateutils` on numpy arrays of dates, with machine integers.
-/
set_option linter.unusedSectionVars false
namespace Pyinterp.DateArray
open Pyinterp Dateutils Temporal Spec.Calendar Spec.DateText Spec.DateArray

/-! ### The 32-bit computation of the date is exact -/

theorem s64_ok {x : Int} (h : |x| < 2 ^ 63) : s64 x = .ok x := by
  rw [abs_lt] at h
  unfold s64
  rw [if_pos ⟨by omega, by omega⟩]

theorem s32_ok {x : Int} (h0 : -2 ^ 31 ≤ x) (h1 : x < 2 ^ 31) : s32 x = .ok x := by
  unfold s32
  rw [if_pos ⟨h0, h1⟩]

theorem u32_eq {x : Int} (h0 : 0 ≤ x) (h1 : x < 2 ^ 32) : u32 x = x := by
  unfold u32; omega

theorem toInt32_eq {x : Int} (h0 : -2 ^ 31 ≤ x) (h1 : x < 2 ^ 31) : toInt32 x = x := by
  unfold toInt32; omega

theorem tdiv_nonneg' {a b : Int} (h : 0 ≤ a) : a.tdiv b = a / b := Int.tdiv_eq_ediv_of_nonneg h

/-- The day of a period of 400 years is that of a year and of a day of this year. -/
theorem doe_split (doe : Int) (h0 : 0 ≤ doe) (h1 : doe ≤ 146096) :
    ∃ yoe doy : Int, 0 ≤ yoe ∧ yoe ≤ 399 ∧ 0 ≤ doy ∧ doy ≤ 365 ∧
      doe = 365 * yoe + yoe / 4 - yoe / 100 + doy ∧
      (doe - doe / 1460 + doe / 36524 - doe / 146096) / 365 = yoe := by
  obtain ⟨c, hc⟩ : ∃ c : Int, c = min (doe / 36524) 3 := ⟨_, rfl⟩
  obtain ⟨q, hq⟩ : ∃ q : Int, q = (doe - 36524 * c) / 1461 := ⟨_, rfl⟩
  obtain ⟨r, hr⟩ : ∃ r : Int, r = min ((doe - 36524 * c - 1461 * q) / 365) 3 := ⟨_, rfl⟩
  have hc' : 0 ≤ c ∧ c ≤ 3 ∧ 0 ≤ doe - 36524 * c ∧ doe - 36524 * c ≤ 36524 ∧ (doe - 36524 * c = 36524 → c = 3) := by
    omega
  have hq' : 0 ≤ q ∧ q ≤ 24 ∧ 0 ≤ doe - 36524 * c - 1461 * q ∧ doe - 36524 * c - 1461 * q ≤ 1460 := by omega
  have hr' : 0 ≤ r ∧ r ≤ 3 ∧ 0 ≤ doe - 36524 * c - 1461 * q - 365 * r ∧
      doe - 36524 * c - 1461 * q - 365 * r ≤ 365 ∧ (doe - 36524 * c - 1461 * q - 365 * r = 365 → r = 3) := by omega
  clear hc hq hr
  obtain ⟨doy, hd⟩ : ∃ doy : Int, doy = doe - 36524 * c - 1461 * q - 365 * r := ⟨_, rfl⟩
  rw [← hd] at hr'
  have e4 : (100 * c + 4 * q + r) / 4 = 25 * c + q := by omega
  have e100 : (100 * c + 4 * q + r) / 100 = c := by omega
  have hdoe : doe = 365 * (100 * c + 4 * q + r) + (100 * c + 4 * q + r) / 4 - (100 * c + 4 * q + r) / 100 + doy := by
    rw [e4, e100]; omega
  refine ⟨100 * c + 4 * q + r, doy, by omega, by omega, by omega, by omega, hdoe, ?_⟩
  have := yoe_eq (100 * c + 4 * q + r) doy (by omega) (by omega) (by omega) ?_
  · simp only at this
    rw [← hdoe] at this
    exact this
  · split
    · omega
    · have : doy ≠ 365 := by omega
      omega

/-- `date_from_days` as compiled: the exact date when the intermediate results fit in 32 bits, undefined behaviour
otherwise. -/
theorem dateFromDays_machine (z : Int) (h : |z| ≤ 110000000000000) :
    dateFromDays z = (do
      let y ← s32 ((z + 719468) / 146097 * 400)
      let yoe := (Dateutils.dateFromDays z).year - (if (Dateutils.dateFromDays z).month ≤ 2 then 1 else 0) - y
      let y ← s32 (yoe + y)
      let y ← s32 (y + (if (Dateutils.dateFromDays z).month ≤ 2 then 1 else 0))
      pure ⟨y, (Dateutils.dateFromDays z).month, (Dateutils.dateFromDays z).day⟩) := by
  have h' := abs_le.mp h
  have hera := eraOf_eq z
  have hd : 0 ≤ z + 719468 - (z + 719468) / 146097 * 146097 ∧ z + 719468 - (z + 719468) / 146097 * 146097 ≤ 146096 := by
    omega
  have hnum : (if z + 719468 ≥ 0 then z + 719468 else z + 719468 - 146096).tdiv 146097 = (z + 719468) / 146097 := by
    have := hera
    unfold eraOf at this
    exact this
  have hs1 : s64 (z + 719468) = .ok (z + 719468) := s64_ok (by rw [abs_lt]; omega)
  have hs2 : s64 (if z + 719468 ≥ 0 then z + 719468 else z + 719468 - 146096) =
      .ok (if z + 719468 ≥ 0 then z + 719468 else z + 719468 - 146096) := by
    apply s64_ok
    rw [abs_lt]
    split <;> omega
  have he : toInt32 ((z + 719468) / 146097) = (z + 719468) / 146097 := toInt32_eq (by omega) (by omega)
  obtain ⟨yoe, doy, y0, y1, d0, d1, hdoe, hyoe⟩ := doe_split _ hd.1 hd.2
  unfold dateFromDays Dateutils.dateFromDays
  rw [hs1, hera]
  generalize (z + 719468) / 146097 = era at *
  generalize hD : z + 719468 - era * 146097 = doe at *
  obtain ⟨a, ha⟩ : ∃ a, a = doe / 1460 := ⟨_, rfl⟩
  obtain ⟨b, hb⟩ : ∃ b, b = doe / 36524 := ⟨_, rfl⟩
  obtain ⟨c, hc⟩ : ∃ c, c = doe / 146096 := ⟨_, rfl⟩
  have t1 : doe.tdiv 1460 = a := by rw [ha]; exact tdiv_nonneg' hd.1
  have t2 : doe.tdiv 36524 = b := by rw [hb]; exact tdiv_nonneg' hd.1
  have t3 : doe.tdiv 146096 = c := by rw [hc]; exact tdiv_nonneg' hd.1
  have t4 : yoe.tdiv 4 = yoe / 4 := tdiv_nonneg' y0
  have t5 : yoe.tdiv 100 = yoe / 100 := tdiv_nonneg' y0
  have hY : (doe - a + b - c).tdiv 365 = yoe := by
    rw [tdiv_nonneg' (by omega), ha, hb, hc]; exact hyoe
  have u0 : u32 doe = doe := u32_eq hd.1 (by omega)
  have u1 : u32 (doe - a) = doe - a := u32_eq (by omega) (by omega)
  have u2 : u32 (doe - a + b - c) = doe - a + b - c := u32_eq (by omega) (by omega)
  have u3 : u32 (365 * yoe + yoe / 4 - yoe / 100) = 365 * yoe + yoe / 4 - yoe / 100 := u32_eq (by omega) (by omega)
  have e2 : doe - (365 * yoe + yoe / 4 - yoe / 100) = doy := by omega
  have u4 : u32 doy = doy := u32_eq d0 (by omega)
  have u5 : u32 (5 * doy + 2) = 5 * doy + 2 := u32_eq (by omega) (by omega)
  have e3 : (5 * doy + 2).tdiv 153 = (5 * doy + 2) / 153 := tdiv_nonneg' (by omega)
  obtain ⟨mon, hm⟩ : ∃ mon, mon = (5 * doy + 2) / 153 := ⟨_, rfl⟩
  have u6 : u32 (153 * mon + 2) = 153 * mon + 2 := u32_eq (by omega) (by omega)
  have e5 : (153 * mon + 2).tdiv 5 = (153 * mon + 2) / 5 := tdiv_nonneg' (by omega)
  have u7 : u32 (doy - (153 * mon + 2) / 5 + 1) = doy - (153 * mon + 2) / 5 + 1 := u32_eq (by omega) (by omega)
  have u8 : (if mon < 10 then u32 (mon + 3) else u32 (mon - 9)) = if mon < 10 then mon + 3 else mon - 9 := by
    split
    · exact u32_eq (by omega) (by omega)
    · exact u32_eq (by omega) (by omega)
  have hy32 : toInt32 yoe = yoe := toInt32_eq (by omega) (by omega)
  simp only [bind, Except.bind, hs2, hnum, he, hD, u0, t1, t2, t3, u1, u2, hY, t4, t5, u3, e2, u4, u5, e3, ← hm, u6, e5,
    u7, u8, hy32]
  cases hs : s32 (era * 400) with
  | error => rfl
  | ok y =>
    have : y = era * 400 := by
      unfold s32 at hs
      split at hs
      · cases hs; rfl
      · cases hs
    subst this
    simp only
    have e : (yoe + era * 400 + (if (if mon < 10 then mon + 3 else mon - 9) ≤ 2 then 1 else 0) -
        (if (if mon < 10 then mon + 3 else mon - 9) ≤ 2 then 1 else 0) - era * 400) = yoe := by ring
    rw [e]

theorem dateFromDays_ok (z : Int) (h : |z| ≤ 700000000000) :
    dateFromDays z = .ok (Dateutils.dateFromDays z) ∧ |(Dateutils.dateFromDays z).year| < 2000000000 := by
  have h' := abs_le.mp h
  have hyear : |(Dateutils.dateFromDays z).year| < 2000000000 := by
    obtain ⟨hv, hd⟩ := dateFromDays_spec z
    have hy := yday_range _ hv
    have hyl : yearLength (Dateutils.dateFromDays z).year ≤ 366 := by unfold yearLength; split <;> omega
    unfold dayNumber beforeYear at hd
    rw [abs_lt]
    omega
  refine ⟨?_, hyear⟩
  have hyear' := abs_lt.mp hyear
  rw [dateFromDays_machine z (by omega)]
  have hm : (if (Dateutils.dateFromDays z).month ≤ 2 then (1 : Int) else 0) = 0 ∨
      (if (Dateutils.dateFromDays z).month ≤ 2 then (1 : Int) else 0) = 1 := by split <;> simp
  have : s32 ((z + 719468) / 146097 * 400) = .ok ((z + 719468) / 146097 * 400) := s32_ok (by omega) (by omega)
  generalize hb : (if (Dateutils.dateFromDays z).month ≤ 2 then (1 : Int) else 0) = b at *
  have e1 : (Dateutils.dateFromDays z).year - b - (z + 719468) / 146097 * 400 + (z + 719468) / 146097 * 400 =
    (Dateutils.dateFromDays z).year - b := by ring
  have e2 : (Dateutils.dateFromDays z).year - b + b = (Dateutils.dateFromDays z).year := by ring
  simp only [bind, Except.bind, this, e1, s32_ok (x := (Dateutils.dateFromDays z).year - b) (by omega) (by omega), e2,
    s32_ok (x := (Dateutils.dateFromDays z).year) (by omega) (by omega)]
  rfl

theorem dateFromDays_ub (z : Int) (h : |z| ≤ 110000000000000) (h1 : 784600000000 ≤ |z|) :
    dateFromDays z = .error .ub := by
  have h' := abs_le.mp h
  rw [dateFromDays_machine z h]
  have : s32 ((z + 719468) / 146097 * 400) = .error .ub := by
    unfold s32
    rw [if_neg]
    rintro ⟨a, b⟩
    rcases abs_cases z with ⟨e, _⟩ | ⟨e, _⟩ <;> rw [e] at h1 <;> omega
  rw [this]
  rfl

/-- The date, the time of the day and the fraction of second computed on mathematical integers. -/
def moment (oom v : Int) : Moment :=
  ⟨Dateutils.dateFromDays (Dateutils.daysSinceEpoch oom v).1, timeFromSeconds (Dateutils.daysSinceEpoch oom v).2.1,
    (Dateutils.daysSinceEpoch oom v).2.2⟩

theorem oom_eq {r : Resolution} {oom : Int} (h : r.orderOfMagnitude = some oom) :
    oom = 10 ^ decimals r ∧ 1 ≤ oom ∧ oom ≤ 10 ^ 18 ∧ (r ≠ .second → 1000 ≤ oom) ∧ (r = .second → oom = 1) := by
  cases r <;> simp only [Resolution.orderOfMagnitude, Option.some.injEq, reduceCtorEq] at h <;> subst h <;>
    simp [decimals]

theorem epoch_eq (oom v : Int) (ho : 0 < oom) : (epoch oom v).1 = v / oom ∧ (epoch oom v).2 = v % oom := by
  have hs := tdiv_spec v oom ho
  have key : ∀ q f : Int, 0 ≤ f → f < oom → v = q * oom + f → q = v / oom ∧ f = v % oom := by
    intro q f h0 h1 e
    have := (Int.ediv_emod_unique ho (a := v) (r := f) (q := q)).mpr ⟨by rw [e]; ring, h0, h1⟩
    exact ⟨this.1.symm, this.2.symm⟩
  unfold epoch
  simp only
  split
  · rename_i hneg
    rcases Int.le_total 0 v with hd | hd
    · have := hs.2.1 hd; omega
    · have := hs.2.2 hd
      exact key _ _ (by omega) (by omega) (by linarith [hs.1, mul_comm oom (v.tdiv oom)])
  · rename_i hneg
    rcases Int.le_total 0 v with hd | hd
    · have := hs.2.1 hd
      exact key _ _ (by omega) (by omega) (by linarith [hs.1, mul_comm oom (v.tdiv oom)])
    · have := hs.2.2 hd
      exact key _ _ (by omega) (by omega) (by linarith [hs.1, mul_comm oom (v.tdiv oom)])

/-- The decomposition of a 64-bit date never overflows. -/
theorem epoch_in_range (oom v : Int) (ho : 1 ≤ oom) (ho' : oom ≤ 10 ^ 18) (h : -2 ^ 63 ≤ v ∧ v < 2 ^ 63) :
    daysSinceEpoch oom v = .ok (Dateutils.daysSinceEpoch oom v) ∧
      |(Dateutils.daysSinceEpoch oom v).1| ≤ 110000000000000 := by
  obtain ⟨e1, e2⟩ := epoch_eq oom v (by omega)
  have hf := Int.emod_nonneg v (show oom ≠ 0 by omega)
  have hf' := Int.emod_lt_of_pos v (show 0 < oom by omega)
  have hfrac : 0 ≤ (epoch oom v).2 ∧ (epoch oom v).2 < 2 ^ 63 := by
    rw [e2]; omega
  have hsec : -2 ^ 63 ≤ (epoch oom v).1 ∧ (epoch oom v).1 < 2 ^ 63 := by
    rw [e1]
    constructor
    · apply Int.le_ediv_of_mul_le (by omega)
      nlinarith
    · apply Int.ediv_lt_of_lt_mul (by omega)
      nlinarith
  have ht := tdiv_spec (epoch oom v).1 86400 (by omega)
  have hdays : |(Dateutils.daysSinceEpoch oom v).1| ≤ 110000000000000 := by
    unfold Dateutils.daysSinceEpoch
    simp only
    rw [abs_le]
    split <;> omega
  refine ⟨?_, hdays⟩
  have hd := abs_le.mp hdays
  have e4 : (Dateutils.daysSinceEpoch oom v).2.1 = (epoch oom v).1 := rfl
  have e3 : (Dateutils.daysSinceEpoch oom v).2.2 = (epoch oom v).2 := rfl
  unfold daysSinceEpoch
  simp only [e4, e3, s64_ok (x := (Dateutils.daysSinceEpoch oom v).1) (by rw [abs_lt]; omega), bind, Except.bind]
  unfold s64
  rw [if_pos hsec, if_pos ⟨by omega, hfrac.2⟩]
  rfl

theorem days_eq (oom v : Int) (ho : 0 < oom) : (Dateutils.daysSinceEpoch oom v).1 = v / oom / 86400 := by
  have e := (epoch_eq oom v ho).1
  unfold Dateutils.daysSinceEpoch
  simp only
  rw [e]
  have := tdiv_spec (v / oom) 86400 (by omega)
  split <;> omega

theorem days_bound {r : Resolution} {oom v : Int} (hr : r.orderOfMagnitude = some oom) (hv : InRange r v) :
    |(Dateutils.daysSinceEpoch oom v).1| ≤ 700000000000 := by
  obtain ⟨_, h1, h2, h3, h4⟩ := oom_eq hr
  obtain ⟨v1, v2, v3⟩ := hv
  rw [days_eq oom v (by omega)]
  by_cases hs : r = .second
  · have hb := v3 hs
    rw [h4 hs, Int.ediv_one, abs_le]
    omega
  · have ho := h3 hs
    have hlo : -(10 ^ 16) ≤ v / oom := by
      apply Int.le_ediv_of_mul_le (by omega)
      nlinarith
    have hhi : v / oom < 10 ^ 16 := by
      apply Int.ediv_lt_of_lt_mul (by omega)
      nlinarith
    rw [abs_le]
    omega

theorem isMoment {r : Resolution} {oom : Int} (hr : r.orderOfMagnitude = some oom) (v : Int) :
    IsMoment r v (moment oom v) := by
  obtain ⟨ho, h1, _, _, _⟩ := oom_eq hr
  have h := C12_decomposition oom v (by omega)
  simp only at h
  obtain ⟨a, b, c, d, e⟩ := h
  refine ⟨⟨(dateFromDays_spec _).1, a, b, c, d.1, by rw [← ho]; exact d.2⟩, ?_⟩
  cases r <;> simp only [Resolution.orderOfMagnitude, reduceCtorEq] at hr <;>
    simp only [Stands, ← ho] <;> exact e

theorem machine_days {r : Resolution} {oom v : Int} (hr : r.orderOfMagnitude = some oom) (hv : InRange r v) :
    daysSinceEpoch oom v = .ok (Dateutils.daysSinceEpoch oom v) := by
  obtain ⟨_, h1, h2, _, _⟩ := oom_eq hr
  exact (epoch_in_range oom v h1 h2 ⟨hv.1, hv.2.1⟩).1

theorem machine_iso (z : Int) (h : |z| ≤ 700000000000) : isocalendar z = .ok (Dateutils.isocalendar z) := by
  obtain ⟨hd, hy⟩ := dateFromDays_ok z h
  have hy' := abs_lt.mp hy
  unfold isocalendar Dateutils.isocalendar
  rw [hd]
  simp only [bind, Except.bind]
  split
  · rw [s32_ok (by omega) (by omega)]; rfl
  · split
    · rw [s32_ok (by omega) (by omega)]; rfl
    · rfl

theorem isoDate (oom v : Int) : IsoDate (moment oom v).date
    (Dateutils.isocalendar (Dateutils.daysSinceEpoch oom v).1) := by
  obtain ⟨h1, h2, h3⟩ := C13_isocalendar (Dateutils.daysSinceEpoch oom v).1
  have hn : dayNumber (moment oom v).date = (Dateutils.daysSinceEpoch oom v).1 := (dateFromDays_spec _).2
  refine ⟨h1.1, h1.2.1, ?_, Dateutils.dateFromDays ((Dateutils.daysSinceEpoch oom v).1 -
    (Dateutils.isocalendar (Dateutils.daysSinceEpoch oom v).1).weekday + 4), (dateFromDays_spec _).1, ?_, h3.1, ?_⟩
  · rw [h1.2.2, weekday_eq]; unfold sundayBased; rw [hn]
  · rw [(dateFromDays_spec _).2, hn]
  · rw [(dateFromDays_spec _).2]; exact h3.2

theorem mapM_map {α β : Type} (f : α → Out β) (g : α → β) (l : List α) (h : ∀ a ∈ l, f a = .ok (g a)) :
    l.mapM f = .ok (l.map g) := by
  induction l with
  | nil => rfl
  | cons a l ih =>
    rw [List.mapM_cons, h a List.mem_cons_self, ih fun b hb => h b (List.mem_cons_of_mem _ hb)]
    rfl

theorem mapM_error {α β : Type} (f : α → Out β) (l : List α) (e : Err) (a : α) (ha : a ∈ l) (hf : f a = .error e)
    (h : ∀ b ∈ l, f b = .error e ∨ ∃ c, f b = .ok c) : l.mapM f = .error e := by
  induction l with
  | nil => cases ha
  | cons b l ih =>
    rw [List.mapM_cons]
    rcases h b List.mem_cons_self with hb | ⟨c, hb⟩
    · rw [hb]; rfl
    · rw [hb]
      have hal : a ∈ l := by
        rcases List.mem_cons.mp ha with rfl | h'
        · rw [hf] at hb; cases hb
        · exact h'
      rw [ih hal fun b hb => h b (List.mem_cons_of_mem _ hb)]
      rfl

/-- The text of the type of the arrays of dates of unit `r`. -/
def typeName (r : Resolution) : String := "datetime64[" ++ r.unit ++ "]"

theorem fractionalSeconds_eq {r : Resolution} {oom : Int} (hr : r.orderOfMagnitude = some oom) :
    fractionalSeconds (typeName r) = .ok oom := by
  have : parseDType (typeName r) = .ok ⟨.datetime64, r⟩ := by cases r <;> decide
  unfold fractionalSeconds
  rw [this]
  simp only [bind, Except.bind, pure, Except.pure, hr]
  rfl

/-! ### C113 -/

/-- **C113**: for an array of one dimension of dates in seconds or in a unit below, `date`, `time`, `weekday` and
`isocalendar` return arrays of the same size; the element of an index is the date, the time, the day of the week and
the ISO week of the moment that the element of this index stands for. -/
theorem C113_calendar (r : Resolution) (oom : Int) (hr : r.orderOfMagnitude = some oom) (a : NArray)
    (hd : a.dtype = typeName r) (hn : a.ndim = 1) (hv : ∀ v ∈ a.values, InRange r v) :
    ∃ ms : List Moment, List.Forall₂ (IsMoment r) a.values ms ∧
      date a = .ok (ms.map (·.date)) ∧ time a = .ok (ms.map (·.time)) ∧
      weekdays a = .ok (ms.map fun m => sundayBased m.date) ∧
      ∃ cs, isocalendars a = .ok cs ∧ List.Forall₂ (fun m c => IsoDate m.date c) ms cs := by
  have hf : fractionalSeconds a.dtype = .ok oom := by rw [hd]; exact fractionalSeconds_eq hr
  have he : elements a = .ok a.values := by unfold elements; rw [if_neg (by simp [hn])]
  refine ⟨a.values.map (moment oom), ?_, ?_, ?_, ?_, a.values.map fun v =>
    Dateutils.isocalendar (Dateutils.daysSinceEpoch oom v).1, ?_, ?_⟩
  · rw [List.forall₂_map_right_iff, List.forall₂_same]
    exact fun v _ => isMoment hr v
  · unfold date
    simp only [hf, he, bind, Except.bind]
    rw [List.map_map]
    apply mapM_map
    intro v h
    simp only [machine_days hr (hv v h)]
    exact (dateFromDays_ok _ (days_bound hr (hv v h))).1
  · unfold time
    simp only [hf, he, bind, Except.bind]
    rw [List.map_map]
    apply mapM_map
    intro v h
    simp only [machine_days hr (hv v h)]
    rfl
  · unfold weekdays
    simp only [hf, he, bind, Except.bind]
    rw [List.map_map]
    apply mapM_map
    intro v h
    simp only [machine_days hr (hv v h), weekday_eq]
    show Except.ok _ = Except.ok (sundayBased (Dateutils.dateFromDays _))
    unfold sundayBased
    rw [(dateFromDays_spec _).2]
  · unfold isocalendars
    simp only [hf, he, bind, Except.bind]
    apply mapM_map
    intro v h
    simp only [machine_days hr (hv v h)]
    exact machine_iso _ (days_bound hr (hv v h))
  · rw [List.forall₂_map_right_iff, List.forall₂_map_left_iff, List.forall₂_same]
    exact fun v _ => isoDate oom v

/-- The type of the result of `timedelta_since_january`. -/
theorem resolutionOf_eq {r : Resolution} {oom : Int} (hr : r.orderOfMagnitude = some oom) :
    (⟨.timedelta64, resolutionOf oom⟩ : DType).name = "timedelta64[" ++ r.unit ++ "]" := by
  cases r <;> simp only [Resolution.orderOfMagnitude, Option.some.injEq, reduceCtorEq] at hr <;> subst hr <;> decide

/-- One element of `timedelta_since_january`. -/
theorem january_elem {r : Resolution} {oom v : Int} (hr : r.orderOfMagnitude = some oom) (hv : InRange r v)
    (h : Dateutils.timedeltaSinceJanuary oom v < 2 ^ 63) : (do
    let (days, seconds, frac) ← daysSinceEpoch oom v
    let d ← dateFromDays days
    let hms := timeFromSeconds seconds
    let s ← s64 (daysSinceJanuary d * 86400 + hms.hour * 3600 + hms.minute * 60 + hms.second)
    let s ← s64 (s * oom)
    s64 (s + frac)) = .ok (Dateutils.timedeltaSinceJanuary oom v) := by
  obtain ⟨_, h1, _, _, _⟩ := oom_eq hr
  simp only [machine_days hr hv, (dateFromDays_ok _ (days_bound hr hv)).1, bind, Except.bind]
  have hm := isMoment hr v
  obtain ⟨⟨hv', a, b, c, d, _⟩, _⟩ := hm
  have d' : 0 ≤ (Dateutils.daysSinceEpoch oom v).2.2 := d
  have hj := daysSinceJanuary_eq _ hv'
  have hy := yday_range _ hv'
  unfold moment at hv' a b c d hj hy
  simp only at hv' a b c d hj hy
  rw [← hj] at hy
  have e : Dateutils.timedeltaSinceJanuary oom v =
      (daysSinceJanuary (Dateutils.dateFromDays (Dateutils.daysSinceEpoch oom v).1) * 86400 +
      (timeFromSeconds (Dateutils.daysSinceEpoch oom v).2.1).hour * 3600 +
      (timeFromSeconds (Dateutils.daysSinceEpoch oom v).2.1).minute * 60 +
      (timeFromSeconds (Dateutils.daysSinceEpoch oom v).2.1).second) * oom + (Dateutils.daysSinceEpoch oom v).2.2 := rfl
  rw [e] at h ⊢
  have hS : 0 ≤ daysSinceJanuary (Dateutils.dateFromDays (Dateutils.daysSinceEpoch oom v).1) * 86400 +
      (timeFromSeconds (Dateutils.daysSinceEpoch oom v).2.1).hour * 3600 +
      (timeFromSeconds (Dateutils.daysSinceEpoch oom v).2.1).minute * 60 +
      (timeFromSeconds (Dateutils.daysSinceEpoch oom v).2.1).second := by omega
  generalize daysSinceJanuary (Dateutils.dateFromDays (Dateutils.daysSinceEpoch oom v).1) * 86400 +
      (timeFromSeconds (Dateutils.daysSinceEpoch oom v).2.1).hour * 3600 +
      (timeFromSeconds (Dateutils.daysSinceEpoch oom v).2.1).minute * 60 +
      (timeFromSeconds (Dateutils.daysSinceEpoch oom v).2.1).second = S at *
  have hSo : S ≤ S * oom := by nlinarith
  rw [s64_ok (by rw [abs_lt]; omega)]
  simp only
  rw [s64_ok (by rw [abs_lt]; omega)]
  simp only
  have hlast : |S * oom + (Dateutils.daysSinceEpoch oom v).2.2| < 2 ^ 63 := by
    rw [abs_lt]
    constructor
    · linarith
    · exact h
  rw [s64_ok hlast]

/-- **C113**: `timedelta_since_january` gives the time elapsed since 1 January of the year of each date, in the unit of
the dates: for all the dates down to the nanosecond, for the dates since 1970 with the shorter units. -/
theorem C113_since_january (r : Resolution) (oom : Int) (hr : r.orderOfMagnitude = some oom) (a : NArray)
    (hd : a.dtype = typeName r) (hn : a.ndim = 1) (hv : ∀ v ∈ a.values, InRange r v)
    (hu : decimals r ≤ 9 ∨ ∀ v ∈ a.values, 0 ≤ v) :
    ∃ ms : List Moment, List.Forall₂ (IsMoment r) a.values ms ∧
      timedeltaSinceJanuary a = .ok ("timedelta64[" ++ r.unit ++ "]",
        List.zipWith (fun v m => sinceJanuary r v m) a.values ms) := by
  have hf : fractionalSeconds a.dtype = .ok oom := by rw [hd]; exact fractionalSeconds_eq hr
  have he : elements a = .ok a.values := by unfold elements; rw [if_neg (by simp [hn])]
  obtain ⟨ho, h1, h2, _, _⟩ := oom_eq hr
  refine ⟨a.values.map (moment oom), ?_, ?_⟩
  · rw [List.forall₂_map_right_iff, List.forall₂_same]
    exact fun v _ => isMoment hr v
  · unfold timedeltaSinceJanuary
    simp only [hf, he, bind, Except.bind]
    rw [mapM_map _ (Dateutils.timedeltaSinceJanuary oom)]
    · simp only [resolutionOf_eq hr, pure, Except.pure]
      congr 2
      rw [List.zipWith_map_right, List.zipWith_self]
      apply List.map_congr_left
      intro v _
      have := (C14_since_january oom v (by omega)).1
      rw [this, ho]
      rfl
    · intro v h
      apply january_elem hr (hv v h)
      obtain ⟨t1, t2, t3⟩ := C14_since_january oom v (by omega)
      by_cases h9 : decimals r ≤ 9
      · have : oom ≤ 10 ^ 9 := by
          rw [ho]
          exact_mod_cast Nat.pow_le_pow_right (by norm_num) h9
        have hyl : yearLength (Dateutils.dateFromDays (Dateutils.daysSinceEpoch oom v).1).year ≤ 366 := by
          unfold yearLength; split <;> omega
        have hp : yearLength (Dateutils.dateFromDays (Dateutils.daysSinceEpoch oom v).1).year * 86400 * oom ≤
            366 * 86400 * 10 ^ 9 := by
          apply Int.mul_le_mul (by omega) this (by omega) (by omega)
        omega
      · have hv0 := (hu.resolve_left h9) v h
        have hvr := hv v h
        have hday : 0 ≤ dayNumber ⟨(Dateutils.dateFromDays (Dateutils.daysSinceEpoch oom v).1).year, 1, 1⟩ := by
          have hz : 0 ≤ (Dateutils.daysSinceEpoch oom v).1 := by
            rw [days_eq oom v (by omega)]
            have := Int.ediv_nonneg hv0 (show 0 ≤ oom by omega)
            omega
          obtain ⟨hval, hnum⟩ := dateFromDays_spec (Dateutils.daysSinceEpoch oom v).1
          have hyd := yday_range _ hval
          have hyl : yearLength (Dateutils.dateFromDays (Dateutils.daysSinceEpoch oom v).1).year ≤ 366 := by
            unfold yearLength; split <;> omega
          have : 1970 ≤ (Dateutils.dateFromDays (Dateutils.daysSinceEpoch oom v).1).year := by
            unfold dayNumber beforeYear at hnum
            by_contra hlt
            push Not at hlt
            have : (Dateutils.dateFromDays (Dateutils.daysSinceEpoch oom v).1).year ≤ 1969 := by omega
            have hb := beforeYear_succ (Dateutils.dateFromDays (Dateutils.daysSinceEpoch oom v).1).year
            unfold beforeYear at hb
            omega
          unfold dayNumber beforeYear beforeMonth
          simp
          omega
        have : 0 ≤ dayNumber ⟨(Dateutils.dateFromDays (Dateutils.daysSinceEpoch oom v).1).year, 1, 1⟩ * 86400 * oom := by
          positivity
        rw [t1]
        have := hvr.2.1
        omega

/-- **C113**: `datetime` gives the Python objects of the moments, with the microseconds rounded down; it raises exactly
when the year of one of them is not between 1 and 9999. -/
theorem C113_datetime (r : Resolution) (oom : Int) (hr : r.orderOfMagnitude = some oom) (a : NArray)
    (hd : a.dtype = typeName r) (hn : a.ndim = 1) (hv : ∀ v ∈ a.values, InRange r v) :
    ∃ ms : List Moment, List.Forall₂ (IsMoment r) a.values ms ∧
      ((∀ m ∈ ms, 1 ≤ m.date.year ∧ m.date.year ≤ 9999) →
        datetime a = .ok (ms.map fun m => (m.date, m.time, microseconds r m))) ∧
      ((¬ ∀ m ∈ ms, 1 ≤ m.date.year ∧ m.date.year ≤ 9999) → datetime a = .error .exn) := by
  have hf : fractionalSeconds a.dtype = .ok oom := by rw [hd]; exact fractionalSeconds_eq hr
  have he : elements a = .ok a.values := by unfold elements; rw [if_neg (by simp [hn])]
  obtain ⟨ho, h1, h2, _, _⟩ := oom_eq hr
  have hus : ∀ v, toInt32 (cast oom (Dateutils.daysSinceEpoch oom v).2.2 1000000) = microseconds r (moment oom v) := by
    intro v
    obtain ⟨⟨_, _, _, _, d0, d1⟩, _⟩ := isMoment hr v
    have d0' : 0 ≤ (Dateutils.daysSinceEpoch oom v).2.2 := d0
    have d1' : (Dateutils.daysSinceEpoch oom v).2.2 < oom := d1.trans_eq ho.symm
    obtain ⟨c1, c2, c3, c4⟩ := C15_cast r .microsecond oom 1000000 (Dateutils.daysSinceEpoch oom v).2.2 hr rfl d0' d1'
    rw [toInt32_eq (by omega) (by omega)]
    unfold microseconds
    rw [← ho]
    show _ = (Dateutils.daysSinceEpoch oom v).2.2 * 10 ^ 6 / oom
    rcases Int.le_total oom 1000000 with hle | hle
    · have := c1 hle
      rw [show (10 : Int) ^ 6 = 1000000 by norm_num, ← this, Int.mul_ediv_cancel _ (by omega)]
    · have := c2 hle
      apply le_antisymm
      · exact Int.le_ediv_of_mul_le (by omega) this.1
      · exact Int.le_of_lt_add_one (Int.ediv_lt_of_lt_mul (by omega) this.2)
  refine ⟨a.values.map (moment oom), ?_, ?_, ?_⟩
  · rw [List.forall₂_map_right_iff, List.forall₂_same]
    exact fun v _ => isMoment hr v
  · intro hy
    unfold datetime
    simp only [hf, he, bind, Except.bind]
    rw [List.map_map]
    apply mapM_map
    intro v h
    simp only [machine_days hr (hv v h), (dateFromDays_ok _ (days_bound hr (hv v h))).1, hus]
    unfold pyDatetime
    exact if_pos (hy (moment oom v) (List.mem_map_of_mem h))
  · intro hy
    push Not at hy
    obtain ⟨m, hm, hy⟩ := hy
    obtain ⟨v, h, rfl⟩ := List.mem_map.mp hm
    unfold datetime
    simp only [hf, he, bind, Except.bind]
    refine mapM_error _ _ _ v h ?_ ?_
    · simp only [machine_days hr (hv v h), (dateFromDays_ok _ (days_bound hr (hv v h))).1]
      unfold pyDatetime
      rw [if_neg]
      rintro ⟨y1, y2⟩
      have := hy y1
      exact absurd y2 (not_le.mpr this)
    · intro w hw
      simp only [machine_days hr (hv w hw), (dateFromDays_ok _ (days_bound hr (hv w hw))).1]
      unfold pyDatetime
      split
      · exact .inr ⟨_, rfl⟩
      · exact .inl rfl

/-- **C113**: arrays with another number of dimensions, of another type, or of dates in a unit longer than the second
are refused by all the functions. -/
theorem C113_refused (a : NArray)
    (h : a.ndim ≠ 1 ∨ ∀ r oom, r.orderOfMagnitude = some oom → a.dtype ≠ typeName r) :
    date a = .error .exn ∧ time a = .error .exn ∧ weekdays a = .error .exn ∧ isocalendars a = .error .exn ∧
      timedeltaSinceJanuary a = .error .exn ∧ datetime a = .error .exn := by
  have key : fractionalSeconds a.dtype = .error .exn ∨
      (∃ oom, fractionalSeconds a.dtype = .ok oom) ∧ elements a = .error .exn := by
    unfold fractionalSeconds
    cases hp : parseDType a.dtype with
    | error e =>
      left
      have : e = .exn := by
        unfold parseDType at hp
        split at hp <;> cases hp
        rfl
      rw [this]; rfl
    | ok d =>
      have hname : a.dtype = d.name := by
        unfold parseDType at hp
        split at hp
        · rename_i d' hfind
          cases hp
          have := List.find?_some hfind
          exact (of_decide_eq_true this).symm
        · cases hp
      simp only [bind, Except.bind]
      by_cases hdt : d.datetype = .datetime64
      · cases ho : d.resolution.orderOfMagnitude with
        | none => left; rw [if_neg (by simp [hdt])]; rfl
        | some oom =>
          right
          refine ⟨⟨oom, by rw [if_neg (by simp [hdt])]; rfl⟩, ?_⟩
          rcases h with h | h
          · unfold elements; rw [if_pos h]
          · exact absurd (by rw [hname]; unfold DType.name typeName; rw [hdt]; rfl) (h d.resolution oom ho)
      · left; rw [if_pos hdt]; rfl
  rcases key with hk | ⟨⟨oom, hk⟩, hk'⟩
  · refine ⟨?_, ?_, ?_, ?_, ?_, ?_⟩ <;>
      simp only [date, time, weekdays, isocalendars, timedeltaSinceJanuary, datetime, hk, bind, Except.bind]
  · refine ⟨?_, ?_, ?_, ?_, ?_, ?_⟩ <;>
      simp only [date, time, weekdays, isocalendars, timedeltaSinceJanuary, datetime, hk, hk', bind, Except.bind]

/-- **C113** is false for dates in seconds beyond the year 2147484000 or so: 32-bit overflow. This is the case of NaT
(the integer -2^63): it is not recognised, and in seconds its date is undefined behaviour. -/
theorem C113_far_false (v : Int) (h : -2 ^ 63 ≤ v ∧ v < 2 ^ 63) (h1 : v ≤ -67800000000000000 ∨ 67800000000000000 ≤ v)
    (b : Bool) :
    date ⟨"datetime64[s]", 1, b, [v]⟩ = .error .ub ∧ isocalendars ⟨"datetime64[s]", 1, b, [v]⟩ = .error .ub ∧
      timedeltaSinceJanuary ⟨"datetime64[s]", 1, b, [v]⟩ = .error .ub ∧
      datetime ⟨"datetime64[s]", 1, b, [v]⟩ = .error .ub := by
  have hf : fractionalSeconds "datetime64[s]" = .ok 1 := fractionalSeconds_eq (r := .second) rfl
  obtain ⟨hm, hb⟩ := epoch_in_range 1 v (by norm_num) (by norm_num) h
  have hd : dateFromDays (Dateutils.daysSinceEpoch 1 v).1 = .error .ub := by
    apply dateFromDays_ub _ hb
    rw [days_eq 1 v (by norm_num), Int.ediv_one, le_abs]
    omega
  refine ⟨?_, ?_, ?_, ?_⟩ <;>
    simp [date, isocalendars, isocalendar, timedeltaSinceJanuary, datetime, hf, elements, hm, hd, bind, Except.bind]

/-- **C113** is false of NaT: with units below the second it is taken for a date; it is the result of an undefined
operation in seconds. -/
theorem C113_nat_false : date ⟨"datetime64[ns]", 1, true, [-2 ^ 63]⟩ = .ok [⟨1677, 9, 21⟩] ∧
    datetime ⟨"datetime64[us]", 1, true, [-2 ^ 63]⟩ = .error .exn ∧
    date ⟨"datetime64[s]", 1, true, [-2 ^ 63]⟩ = .error .ub := by
  refine ⟨by decide +kernel, by decide +kernel, ?_⟩
  exact (C113_far_false (-2 ^ 63) (by norm_num) (by norm_num) true).1

/-- **C113** is false for `timedelta_since_january` of the dates before 1970 in picoseconds, femtoseconds and
attoseconds: the result does not fit in 64 bits, for any of them (undefined behaviour). -/
theorem C113_since_january_false (r : Resolution) (oom : Int) (hr : r.orderOfMagnitude = some oom)
    (hu : 9 < decimals r) (v : Int) (hv : -2 ^ 63 ≤ v) (h0 : v < 0) (b : Bool) :
    timedeltaSinceJanuary ⟨typeName r, 1, b, [v]⟩ = .error .ub := by
  obtain ⟨ho, h1, h2, _, _⟩ := oom_eq hr
  have ho12 : 10 ^ 12 ≤ oom := by
    cases r <;> simp [decimals] at hu <;> simp only [Resolution.orderOfMagnitude, Option.some.injEq] at hr <;>
      subst hr <;> norm_num
  have hir : InRange r v := ⟨hv, by omega, by rintro rfl; simp [decimals] at hu⟩
  have hs : -9223373 ≤ v / oom ∧ v / oom ≤ -1 := by
    constructor
    · apply Int.le_ediv_of_mul_le (by omega)
      nlinarith
    · have := Int.ediv_lt_of_lt_mul (a := v) (b := 0) (c := oom) (by omega) (by simpa using h0)
      omega
  have hdays := days_eq oom v (by omega)
  have hdn : -107 ≤ (Dateutils.daysSinceEpoch oom v).1 ∧ (Dateutils.daysSinceEpoch oom v).1 ≤ -1 := by
    rw [hdays]; omega
  have hsec : (Dateutils.daysSinceEpoch oom v).2.1 = v / oom := (epoch_eq oom v (by omega)).1
  have hf : fractionalSeconds (typeName r) = .ok oom := fractionalSeconds_eq hr
  have hyday : 258 ≤ daysSinceJanuary (Dateutils.dateFromDays (Dateutils.daysSinceEpoch oom v).1) ∧
      daysSinceJanuary (Dateutils.dateFromDays (Dateutils.daysSinceEpoch oom v).1) ≤ 366 := by
    generalize (Dateutils.daysSinceEpoch oom v).1 = z at hdn
    obtain ⟨z1, z2⟩ := hdn
    interval_cases z <;> decide
  obtain ⟨⟨_, a, c, d, _, _⟩, _⟩ := isMoment hr v
  unfold moment at a c d
  simp only at a c d
  rw [show timedeltaSinceJanuary ⟨typeName r, 1, b, [v]⟩ = (do
      let oom ← fractionalSeconds (typeName r)
      let x ← (do
        let (days, seconds, frac) ← daysSinceEpoch oom v
        let d ← dateFromDays days
        let hms := timeFromSeconds seconds
        let s ← s64 (daysSinceJanuary d * 86400 + hms.hour * 3600 + hms.minute * 60 + hms.second)
        let s ← s64 (s * oom)
        s64 (s + frac))
      pure ((⟨.timedelta64, resolutionOf oom⟩ : DType).name, [x])) by
    unfold timedeltaSinceJanuary elements
    simp only [hf, bind, Except.bind, ne_eq, not_true_eq_false, if_false, List.mapM_cons, List.mapM_nil]
    split <;> rename_i he
    · split at he
      · rename_i e2 he2
        cases he
        rfl
      · cases he
    · split at he
      · cases he
      · rename_i w hw
        cases he
        rfl]
  simp only [hf, machine_days hr hir, (dateFromDays_ok _ (days_bound hr hir)).1, bind, Except.bind]
  generalize hS : daysSinceJanuary (Dateutils.dateFromDays (Dateutils.daysSinceEpoch oom v).1) * 86400 +
      (timeFromSeconds (Dateutils.daysSinceEpoch oom v).2.1).hour * 3600 +
      (timeFromSeconds (Dateutils.daysSinceEpoch oom v).2.1).minute * 60 +
      (timeFromSeconds (Dateutils.daysSinceEpoch oom v).2.1).second = S
  have hS' : 22291200 ≤ S ∧ S ≤ 40000000 := by omega
  have hbig : s64 (S * oom) = .error .ub := by
    unfold s64
    rw [if_neg]
    rintro ⟨_, hlt⟩
    have : 22291200 * 10 ^ 12 ≤ S * oom := by
      apply Int.mul_le_mul hS'.1 ho12 (by omega) (by omega)
    omega
  rw [s64_ok (by rw [abs_lt]; omega)]
  simp only [hbig]

/-- Non vacuity of C113: two dates, one before 1970, in milliseconds, with all their parts. -/
example : InRange .millisecond (-1) ∧ InRange .millisecond 951782400123 ∧
    date ⟨typeName .millisecond, 1, true, [-1, 951782400123]⟩ = .ok [⟨1969, 12, 31⟩, ⟨2000, 2, 29⟩] ∧
    time ⟨typeName .millisecond, 1, true, [-1, 951782400123]⟩ = .ok [⟨23, 59, 59⟩, ⟨0, 0, 0⟩] ∧
    weekdays ⟨typeName .millisecond, 1, true, [-1, 951782400123]⟩ = .ok [3, 2] ∧
    isocalendars ⟨typeName .millisecond, 1, true, [-1, 951782400123]⟩ = .ok [⟨1970, 1, 3⟩, ⟨2000, 9, 2⟩] ∧
    timedeltaSinceJanuary ⟨typeName .millisecond, 1, true, [-1]⟩ = .ok ("timedelta64[ms]", [31535999999]) ∧
    datetime ⟨typeName .millisecond, 1, true, [-1]⟩ = .ok [(⟨1969, 12, 31⟩, ⟨23, 59, 59⟩, 999000)] ∧
    date ⟨"datetime64[D]", 1, true, [0]⟩ = .error .exn ∧ date ⟨typeName .second, 2, true, [0]⟩ = .error .exn := by
  refine ⟨⟨by norm_num, by norm_num, by simp⟩, ⟨by norm_num, by norm_num, by simp⟩, ?_⟩
  decide +kernel

end Pyinterp.DateArray
