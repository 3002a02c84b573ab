import Verif.Spec.Calendar
import Mathlib.Tactic.Ring
import Mathlib.Tactic.IntervalCases

namespace Pyinterp.Dateutils
open Pyinterp.Spec.Calendar

/-- relation between C++ division and floor division, for `omega` -/
theorem tdiv_spec (x n : Int) (hn : 0 < n) :
    x = n * x.tdiv n + x.tmod n ∧ (0 ≤ x → 0 ≤ x.tmod n ∧ x.tmod n < n) ∧
    (x ≤ 0 → -n < x.tmod n ∧ x.tmod n ≤ 0) := by
  refine ⟨(Int.mul_tdiv_add_tmod x n).symm, ?_, ?_⟩
  · intro h
    exact ⟨Int.tmod_nonneg n h, Int.tmod_lt_of_pos x hn⟩
  · intro h
    have h1 : (-x).tmod n = -(x.tmod n) := Int.neg_tmod ..
    have h2 := Int.tmod_nonneg n (show 0 ≤ -x by omega)
    have h3 := Int.tmod_lt_of_pos (-x) hn
    omega

theorem eraOf_eq (days : Int) : eraOf days = (days + 719468) / 146097 := by
  unfold eraOf
  simp only
  split
  · rw [Int.tdiv_eq_ediv_of_nonneg (by omega)]
  · have : ∀ x : Int, x < 0 → (x - 146096).tdiv 146097 = x / 146097 := by
      intro x hx
      have := tdiv_spec (x - 146096) 146097 (by omega)
      omega
    exact this _ (by omega)

theorem beforeYear_succ (y : Int) : beforeYear (y + 1) = beforeYear y + yearLength y := by
  unfold beforeYear yearLength Leap
  split_ifs <;> omega

theorem beforeMonth_eq (y m : Int) (h1 : 1 ≤ m) (h2 : m ≤ 12) : beforeMonth y m =
    (367 * m - 362) / 12 - (if m ≤ 2 then 0 else if Leap y then 1 else 2) := by
  unfold beforeMonth
  by_cases hl : Leap y <;>
    (interval_cases m <;> simp [List.range_succ, monthLength, hl])

theorem sumMonths_eq (m : Int) (h1 : 1 ≤ m) (h2 : m ≤ 12) :
    sumMonths m = (367 * m - 362) / 12 - (if m ≤ 2 then 0 else 2) := by
  interval_cases m <;> decide

theorem isLeapYear_eq (y : Int) : isLeapYear y = if Leap y then 1 else 0 := by
  unfold isLeapYear
  have h25 : y.tmod 25 = 0 ↔ y % 25 = 0 := by
    have := tdiv_spec y 25 (by omega)
    omega
  have h16 : (y % 4 = 0 ∧ (y % 25 ≠ 0 ∨ y % 16 = 0)) ↔ (4 ∣ y ∧ (¬ 100 ∣ y ∨ 400 ∣ y)) := by omega
  have : (y % 4 = 0 ∧ (y.tmod 25 ≠ 0 ∨ y % 16 = 0)) ↔ (4 ∣ y ∧ (¬ 100 ∣ y ∨ 400 ∣ y)) := by
    rw [← h16, ne_eq, h25]
  by_cases h : Leap y
  · rw [if_pos (this.mpr h), if_pos h]
  · rw [if_neg (fun h' => h (this.mp h')), if_neg h]


/-- year of the era -/
theorem yoe_eq (yoe doy : Int) (h0 : 0 ≤ yoe) (h1 : yoe ≤ 399) (h2 : 0 ≤ doy)
    (h3 : doy < 365 + (if (yoe + 1) % 4 = 0 ∧ ((yoe + 1) % 100 ≠ 0 ∨ yoe = 399) then 1 else 0)) :
    let doe := 365 * yoe + yoe / 4 - yoe / 100 + doy
    (doe - doe / 1460 + doe / 36524 - doe / 146096) / 365 = yoe := by
  intro doe
  have hd : doe = 365 * yoe + yoe / 4 - yoe / 100 + doy := rfl
  clear_value doe
  obtain ⟨c, q, r, hy, hc0, hc1, hq0, hq1, hr0, hr1⟩ : ∃ c q r : Int, yoe = 100 * c + 4 * q + r ∧
      0 ≤ c ∧ c ≤ 3 ∧ 0 ≤ q ∧ q ≤ 24 ∧ 0 ≤ r ∧ r ≤ 3 :=
    ⟨yoe / 100, (yoe % 100) / 4, yoe % 4, by omega, by omega, by omega, by omega, by omega, by omega, by omega⟩
  have e1 : yoe / 4 = 25 * c + q := by omega
  have e2 : yoe / 100 = c := by omega
  rw [e1, e2] at hd
  have hdoy : doy ≤ 365 ∧ (doy = 365 → r = 3 ∧ (q = 24 → c = 3)) := by
    split at h3 <;> omega
  clear h3 e1 e2
  subst hy
  have hdd : doe = 1460 * (25 * c + q) + (24 * c + q + 365 * r + doy) := by rw [hd]; ring
  have hk : doe / 1460 = 25 * c + q + (if 1460 ≤ 24 * c + q + 365 * r + doy then 1 else 0) := by
    split <;> omega
  have hc : doe / 36524 - doe / 146096 = c := by
    by_cases hlast : doe = 146096
    · omega
    · have h1 : doe / 146096 = 0 := by omega
      have h2 : doe / 36524 = c := by omega
      omega
  have hnum : doe - doe / 1460 + doe / 36524 - doe / 146096 = 365 * (100 * c + 4 * q + r) + (doy -
      (if 1460 ≤ 24 * c + q + 365 * r + doy then 1 else 0)) := by
    rw [hk]; omega
  rw [hnum]
  split <;> omega

/-- the algorithm on the shifted calendar (years starting on 1 March) -/
theorem dateFromDays_march (y' doy : Int) (h2 : 0 ≤ doy)
    (h3 : doy < 365 + (if Leap (y' + 1) then 1 else 0)) :
    dateFromDays (365 * y' + y' / 4 - y' / 100 + y' / 400 + doy - 719468) =
      (let mon := (5 * doy + 2) / 153
       let month := if mon < 10 then mon + 3 else mon - 9
       ⟨y' + (if month ≤ 2 then 1 else 0), month, doy - (153 * mon + 2) / 5 + 1⟩) := by
  obtain ⟨era, yoe, hy, hy0, hy1⟩ : ∃ era yoe : Int, y' = 400 * era + yoe ∧ 0 ≤ yoe ∧ yoe ≤ 399 :=
    ⟨y' / 400, y' % 400, by omega, by omega, by omega⟩
  have hl : Leap (y' + 1) ↔ ((yoe + 1) % 4 = 0 ∧ ((yoe + 1) % 100 ≠ 0 ∨ yoe = 399)) := by
    unfold Leap; omega
  simp only [hl] at h3
  have hdoe : 365 * y' + y' / 4 - y' / 100 + y' / 400 + doy =
      era * 146097 + (365 * yoe + yoe / 4 - yoe / 100 + doy) := by
    subst hy; omega
  have hyoe := yoe_eq yoe doy hy0 hy1 h2 h3
  simp only at hyoe
  generalize hD : 365 * yoe + yoe / 4 - yoe / 100 + doy = doe at *
  have hdr : 0 ≤ doe ∧ doe < 146097 := by
    split at h3 <;> omega
  have hera : eraOf (365 * y' + y' / 4 - y' / 100 + y' / 400 + doy - 719468) = era := by
    rw [eraOf_eq, hdoe]; omega
  have e0 : 365 * y' + y' / 4 - y' / 100 + y' / 400 + doy - 719468 + 719468 - era * 146097 = doe := by
    rw [hdoe]; ring
  unfold dateFromDays
  simp only [hera, e0]
  have t1 : ∀ a b : Int, 0 ≤ a → a.tdiv b = a / b := fun a b h => Int.tdiv_eq_ediv_of_nonneg h
  have e1 : (doe - doe.tdiv 1460 + doe.tdiv 36524 - doe.tdiv 146096).tdiv 365 = yoe := by
    rw [t1 doe _ hdr.1, t1 doe _ hdr.1, t1 doe _ hdr.1, t1 _ _ (by omega), hyoe]
  simp only [e1]
  have e2 : doe - (365 * yoe + yoe.tdiv 4 - yoe.tdiv 100) = doy := by
    rw [t1 _ _ hy0, t1 _ _ hy0]; omega
  simp only [e2]
  have e3 : (5 * doy + 2).tdiv 153 = (5 * doy + 2) / 153 := t1 _ _ (by omega)
  simp only [e3]
  have e4 : (153 * ((5 * doy + 2) / 153) + 2).tdiv 5 = (153 * ((5 * doy + 2) / 153) + 2) / 5 := t1 _ _ (by omega)
  simp only [e4, Date.mk.injEq, and_true]
  subst hy; ring

theorem dateFromDays_dayNumber (d : Date) (h : Valid d) : dateFromDays (dayNumber d) = d := by
  obtain ⟨y, m, d⟩ := d
  obtain ⟨h1, h2, h3, h4⟩ := h
  simp only at h1 h2 h3 h4
  unfold dayNumber
  simp only
  rw [beforeMonth_eq y m h1 h2]
  have hly : ∀ b : Int, Leap y ∨ ¬ Leap y := fun _ => Classical.em _
  by_cases hm : m ≤ 2
  · have key := dateFromDays_march (y - 1) (306 + 31 * (m - 1) + d - 1) (by omega) (by
      rw [show y - 1 + 1 = y by ring]
      unfold monthLength at h4
      have : m = 1 ∨ m = 2 := by omega
      rcases this with rfl | rfl <;> by_cases hl : Leap y <;> simp [hl] at h4 ⊢ <;> omega)
    have e : beforeYear y - beforeYear 1970 + ((367 * m - 362) / 12 - if m ≤ 2 then 0 else if Leap y then 1 else 2) + (d - 1)
        = 365 * (y - 1) + (y - 1) / 4 - (y - 1) / 100 + (y - 1) / 400 + (306 + 31 * (m - 1) + d - 1) - 719468 := by
      simp only [hm, if_true, beforeYear]
      omega
    rw [e, key]
    have hd : d ≤ 31 := by unfold monthLength at h4; split_ifs at h4 <;> omega
    have hd2 : m = 2 → d ≤ 29 := by
      intro hm2; subst hm2; simp only [monthLength, if_true] at h4; split_ifs at h4 <;> omega
    have : m = 1 ∨ m = 2 := by omega
    rcases this with rfl | rfl
    · have e1 : (5 * (306 + 31 * (1 - 1) + d - 1) + 2) / 153 = 10 := by omega
      simp only [e1]
      simp only [Date.mk.injEq]
      refine ⟨?_, ?_, ?_⟩ <;> norm_num <;> omega
    · have := hd2 rfl
      have e1 : (5 * (306 + 31 * (2 - 1) + d - 1) + 2) / 153 = 11 := by omega
      simp only [e1]
      simp only [Date.mk.injEq]
      refine ⟨?_, ?_, ?_⟩ <;> norm_num <;> omega
  · have hd : d ≤ 31 := by unfold monthLength at h4; split_ifs at h4 <;> omega
    have hd30 : (m = 4 ∨ m = 6 ∨ m = 9 ∨ m = 11) → d ≤ 30 := by
      intro hm2; unfold monthLength at h4; rw [if_neg (by omega), if_pos hm2] at h4; exact h4
    have key := dateFromDays_march y ((153 * (m - 3) + 2) / 5 + d - 1) (by omega) (by
      split <;> omega)
    have e : beforeYear y - beforeYear 1970 + ((367 * m - 362) / 12 - if m ≤ 2 then 0 else if Leap y then 1 else 2) + (d - 1)
        = 365 * y + y / 4 - y / 100 + y / 400 + ((153 * (m - 3) + 2) / 5 + d - 1) - 719468 := by
      simp only [hm, if_false, beforeYear]
      have hmm : (367 * m - 362) / 12 = (153 * (m - 3) + 2) / 5 + 61 := by
        have : 3 ≤ m := by omega
        interval_cases m <;> rfl
      by_cases hl : Leap y
      · simp only [hl, if_true]; unfold Leap at hl; omega
      · simp only [hl, if_false]; unfold Leap at hl; omega
    rw [e, key]
    have e1 : (5 * ((153 * (m - 3) + 2) / 5 + d - 1) + 2) / 153 = m - 3 := by
      have : 3 ≤ m := by omega
      clear key e hly h4
      interval_cases m <;> omega
    simp only [e1]
    simp only [Date.mk.injEq]
    refine ⟨?_, ?_, ?_⟩ <;> (try split_ifs) <;> omega

theorem monthLength_pos (y m : Int) : 28 ≤ monthLength y m ∧ monthLength y m ≤ 31 := by
  unfold monthLength; split_ifs <;> omega

theorem beforeMonth_succ (y m : Int) (h : 1 ≤ m) : beforeMonth y (m + 1) = beforeMonth y m + monthLength y m := by
  unfold beforeMonth
  obtain ⟨k, rfl⟩ : ∃ k : Nat, m = k + 1 := ⟨m.toNat - 1, by omega⟩
  have e1 : ((k : Int) + 1 + 1).toNat - 1 = k + 1 := by omega
  have e2 : ((k : Int) + 1).toNat - 1 = k := by omega
  rw [e1, e2, List.range_succ]
  simp

theorem beforeMonth_13 (y : Int) : beforeMonth y 12 + 31 = yearLength y := by
  rw [beforeMonth_eq y 12 (by omega) (by omega)]
  unfold yearLength
  by_cases h : Leap y <;> simp [h]

theorem dayNumber_next (d : Date) (h : Valid d) : Valid (next d) ∧ dayNumber (next d) = dayNumber d + 1 := by
  obtain ⟨y, m, d⟩ := d
  obtain ⟨h1, h2, h3, h4⟩ := h
  simp only at h1 h2 h3 h4
  unfold next
  simp only
  split
  · refine ⟨⟨h1, h2, ?_, ?_⟩, ?_⟩
    · simp only; omega
    · simp only; omega
    · simp only [dayNumber]; omega
  · have hd : d = monthLength y m := by omega
    split
    · refine ⟨⟨?_, ?_, ?_, ?_⟩, ?_⟩
      · simp only; omega
      · simp only; omega
      · simp only; omega
      · simp only; have := monthLength_pos y (m + 1); omega
      · simp only [dayNumber, beforeMonth_succ y m h1, hd]; omega
    · have hm : m = 12 := by omega
      subst hm
      have h12 : monthLength y 12 = 31 := by simp [monthLength]
      refine ⟨⟨?_, ?_, ?_, ?_⟩, ?_⟩
      · simp only; omega
      · simp only; omega
      · simp only; omega
      · simp only; have := monthLength_pos (y + 1) 1; omega
      · simp only [dayNumber]
        have hb1 : beforeMonth (y + 1) 1 = 0 := by simp [beforeMonth]
        have := beforeYear_succ y
        have := beforeMonth_13 y
        omega

theorem exists_prev (d : Date) (h : Valid d) : ∃ e, Valid e ∧ next e = d := by
  obtain ⟨y, m, d⟩ := d
  obtain ⟨h1, h2, h3, h4⟩ := h
  simp only at h1 h2 h3 h4
  by_cases hd : 1 < d
  · refine ⟨⟨y, m, d - 1⟩, ⟨h1, h2, ?_, ?_⟩, ?_⟩
    · simp only; omega
    · simp only; omega
    · unfold next
      simp only
      rw [if_pos (by omega)]
      simp only [Date.mk.injEq, true_and]; omega
  · have hd1 : d = 1 := by omega
    subst hd1
    by_cases hm : 1 < m
    · have := monthLength_pos y (m - 1)
      refine ⟨⟨y, m - 1, monthLength y (m - 1)⟩, ⟨?_, ?_, ?_, ?_⟩, ?_⟩
      · simp only; omega
      · simp only; omega
      · simp only; omega
      · simp only; omega
      · unfold next
        simp only [lt_self_iff_false, if_false]
        rw [if_pos (by omega)]
        simp
    · have hm1 : m = 1 := by omega
      subst hm1
      have h12 : monthLength (y - 1) 12 = 31 := by simp [monthLength]
      refine ⟨⟨y - 1, 12, 31⟩, ⟨?_, ?_, ?_, ?_⟩, ?_⟩
      · simp only; omega
      · simp only; omega
      · simp only; omega
      · simp only; omega
      · unfold next
        simp [h12]

theorem dayNumber_surj (z : Int) : ∃ d, Valid d ∧ dayNumber d = z := by
  have h0 : Valid ⟨1970, 1, 1⟩ ∧ dayNumber ⟨1970, 1, 1⟩ = 0 := by
    refine ⟨⟨?_, ?_, ?_, ?_⟩, ?_⟩ <;> decide
  have up : ∀ n : Nat, ∃ d, Valid d ∧ dayNumber d = n := by
    intro n
    induction n with
    | zero => exact ⟨_, h0⟩
    | succ n ih =>
      obtain ⟨d, hv, hd⟩ := ih
      obtain ⟨n1, n2⟩ := dayNumber_next d hv
      exact ⟨_, n1, by rw [n2, hd]; push_cast; rfl⟩
  have down : ∀ n : Nat, ∃ d, Valid d ∧ dayNumber d = -(n : Int) := by
    intro n
    induction n with
    | zero => exact ⟨_, h0⟩
    | succ n ih =>
      obtain ⟨d, hv, hd⟩ := ih
      obtain ⟨e, he, hne⟩ := exists_prev d hv
      obtain ⟨n1, n2⟩ := dayNumber_next e he
      rw [hne] at n2
      exact ⟨e, he, by omega⟩
  rcases Int.le_total 0 z with h | h
  · obtain ⟨d, h1, h2⟩ := up z.toNat
    exact ⟨d, h1, by omega⟩
  · obtain ⟨d, h1, h2⟩ := down (-z).toNat
    exact ⟨d, h1, by omega⟩

theorem dateFromDays_spec (z : Int) : Valid (dateFromDays z) ∧ dayNumber (dateFromDays z) = z := by
  obtain ⟨d, h1, h2⟩ := dayNumber_surj z
  have := dateFromDays_dayNumber d h1
  rw [h2] at this
  rw [this]; exact ⟨h1, h2⟩

theorem daysSinceJanuary_eq (d : Date) (h : Valid d) :
    daysSinceJanuary d = beforeMonth d.year d.month + (d.day - 1) := by
  obtain ⟨h1, h2, _, _⟩ := h
  unfold daysSinceJanuary
  rw [beforeMonth_eq _ _ h1 h2, sumMonths_eq _ h1 h2, isLeapYear_eq]
  by_cases hm : d.month ≤ 2
  · simp [hm]; omega
  · simp only [hm, if_false]
    split_ifs <;> omega

theorem yday_range (d : Date) (h : Valid d) :
    0 ≤ beforeMonth d.year d.month + (d.day - 1) ∧
    beforeMonth d.year d.month + (d.day - 1) < yearLength d.year := by
  obtain ⟨h1, h2, h3, h4⟩ := h
  have : beforeMonth d.year d.month + monthLength d.year d.month ≤ yearLength d.year := by
    rw [beforeMonth_eq _ _ h1 h2]
    unfold yearLength monthLength
    generalize d.month = m at *
    by_cases hl : Leap d.year <;> simp only [hl, if_true, if_false] <;> split_ifs <;> omega
  have : 0 ≤ beforeMonth d.year d.month := by
    rw [beforeMonth_eq _ _ h1 h2]; split_ifs <;> omega
  omega

theorem weekday_eq (z : Int) : weekday z = (z + 4) % 7 := by
  unfold weekday
  split
  · exact Int.tmod_eq_emod_of_nonneg (by omega)
  · have := tdiv_spec (z + 5) 7 (by omega)
    omega

end Pyinterp.Dateutils

