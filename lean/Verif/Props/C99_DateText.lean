import Verif.Model.DateText
import Verif.Spec.DateText
import Verif.Props.C11_Dates
import Mathlib.Data.Nat.Log
import Mathlib.Tactic.Ring

/-
C99 – the text of a date.
-/
namespace Pyinterp.Dateutils
open Pyinterp Pyinterp.Spec.Calendar Pyinterp.Spec.DateText

theorem value_eq (s : List Char) : value s = Nat.ofDigitChars 10 s 0 := rfl

theorem setw_field {w : Nat} {n : Int} (hw : 0 < w) (h0 : 0 ≤ n) (h1 : n < 10 ^ w) : Field w n (setw w (dec n)) := by
  have hd : dec n = Nat.toDigits 10 n.natAbs := by
    unfold dec; rw [if_neg (by omega)]
  have hlt : n.natAbs < 10 ^ w := by
    have : ((n.natAbs : Nat) : Int) < ((10 ^ w : Nat) : Int) := by
      rw [Int.natAbs_of_nonneg h0]; exact_mod_cast h1
    exact_mod_cast this
  have hlen := (Nat.length_toDigits_le_iff (b := 10) (by omega) hw).mpr hlt
  refine ⟨?_, ?_, ?_⟩
  · rw [setw, hd, List.length_append, List.length_replicate]; omega
  · intro c hc
    rw [setw, hd] at hc
    rcases List.mem_append.mp hc with h | h
    · rw [List.eq_of_mem_replicate h]; rfl
    · exact Nat.isDigit_of_mem_toDigits (by omega) (by omega) h
  · rw [value_eq, setw, hd, Nat.ofDigitChars_append, Nat.ofDigitChars_replicate_zero, Nat.mul_zero,
      Nat.ofDigitChars_ten_toDigits]
    exact Int.natAbs_of_nonneg h0

theorem dec_year (n : Int) : Year n (dec n) := by
  unfold dec
  split
  · rename_i h
    refine Or.inr ⟨h, _, rfl, Nat.toDigits_ne_nil, fun c hc => Nat.isDigit_of_mem_toDigits (by omega) (by omega) hc, ?_⟩
    rw [value_eq, Nat.ofDigitChars_ten_toDigits]; omega
  · rename_i h
    refine Or.inl ⟨by omega, Nat.toDigits_ne_nil, fun c hc => Nat.isDigit_of_mem_toDigits (by omega) (by omega) hc, ?_⟩
    rw [value_eq, Nat.ofDigitChars_ten_toDigits]; omega

theorem monthLength_le (y m : Int) : monthLength y m ≤ 31 := by
  unfold monthLength; split <;> [(split <;> omega); (split <;> omega)]

theorem dateText_is {d : Date} (h : Valid d) : DateIs d (dateText d) := by
  obtain ⟨h1, h2, h3, h4⟩ := h
  have := monthLength_le d.year d.month
  exact ⟨_, _, _, dec_year _, setw_field (by omega) (by omega) (by omega), setw_field (by omega) (by omega) (by omega), rfl⟩

theorem second_is {m : Moment} {r : Resolution} (h : ValidMoment r m) : SecondIs m
    (dateText m.date ++ 'T' :: (setw 2 (dec m.time.hour) ++ ':' :: (setw 2 (dec m.time.minute) ++
        ':' :: setw 2 (dec m.time.second)))) := by
  obtain ⟨h1, h2, h3, h4, -⟩ := h
  exact ⟨_, _, _, _, dateText_is h1, setw_field (by omega) (by omega) (by omega),
    setw_field (by omega) (by omega) (by omega), setw_field (by omega) (by omega) (by omega), rfl⟩

theorem sub_second (oom : Int) (r : Resolution) (ho : oom = 10 ^ decimals r) (v : Int) :
    ∃ m : Moment, m.date = dateFromDays (daysSinceEpoch oom v).1 ∧
      m.time = timeFromSeconds (daysSinceEpoch oom v).2.1 ∧ m.frac = (daysSinceEpoch oom v).2.2 ∧ ValidMoment r m ∧
      v = (((dayNumber m.date * 24 + m.time.hour) * 60 + m.time.minute) * 60 + m.time.second) * 10 ^ decimals r
        + m.frac := by
  have hp : 0 < oom := by rw [ho]; positivity
  obtain ⟨h1, h2, h3, h4, h5⟩ := C12_decomposition oom v hp
  refine ⟨⟨dateFromDays (daysSinceEpoch oom v).1, timeFromSeconds (daysSinceEpoch oom v).2.1,
    (daysSinceEpoch oom v).2.2⟩, rfl, rfl, rfl, ⟨(C11_round_trip _).1, h1, h2, h3, h4.1, ?_⟩, ?_⟩
  · rw [← ho]; exact h4.2
  · rw [← ho]; exact h5

/-- **C99**: the text of a date is its ISO 8601 text, down to its unit: year, month, day, hours, minutes, seconds and
decimals of the moment that is `value` units after 1970, in this order, with two digits for each field but the year, and
as many decimals as the unit has. -/
theorem C99_text (r : Resolution) (v : Int) :
    ∃ s m, datetime64ToString v r = .ok s ∧ ValidMoment r m ∧ Stands r m v ∧ TextIs r m s := by
  obtain ⟨hy, hm, hw, hh, hn⟩ := C12_coarse_units v
  have t0 : (0 : Int) ≤ 0 ∧ (0 : Int) < 24 := by omega
  have t1 : (0 : Int) ≤ 0 ∧ (0 : Int) < 60 := by omega
  have sub : ∀ r : Resolution, ∀ oom : Int, r.orderOfMagnitude = some oom → oom = 10 ^ decimals r →
      ndigits oom = decimals r → 0 < decimals r →
      (∀ s, (match r.orderOfMagnitude with
        | none => (.error .exn : Out (List Char))
        | some oom =>
          let (days, seconds, fractional) := daysSinceEpoch oom v
          let date := dateFromDays days
          let time := timeFromSeconds seconds
          let s := dateText date ++ 'T' :: (setw 2 (dec time.hour) ++ ':' :: (setw 2 (dec time.minute) ++
            ':' :: setw 2 (dec time.second)))
          if 0 < ndigits oom then .ok (s ++ '.' :: setw (ndigits oom) (dec fractional)) else .ok s) = .ok s →
        datetime64ToString v r = .ok s) →
      ∃ s m, datetime64ToString v r = .ok s ∧ ValidMoment r m ∧
        v = (((dayNumber m.date * 24 + m.time.hour) * 60 + m.time.minute) * 60 + m.time.second) * 10 ^ decimals r
          + m.frac ∧ ∃ t f, SecondIs m t ∧ Field (decimals r) m.frac f ∧ s = t ++ '.' :: f := by
    intro r oom h1 h2 h3 h4 h5
    obtain ⟨m, e1, e2, e3, hv, hs⟩ := sub_second oom r h2 v
    refine ⟨_, m, h5 _ ?_, hv, hs, _, _, second_is hv, setw_field h4 hv.2.2.2.2.1 hv.2.2.2.2.2, rfl⟩
    rw [h1]
    simp only [h3, if_pos h4, e1, e2, e3]
  cases r with
  | year =>
    refine ⟨_, ⟨dateFromYears v, ⟨0, 0, 0⟩, 0⟩, rfl, ⟨?_, t0, t1, t1, le_refl _, one_pos⟩, ?_, dec_year _⟩
    · rw [hy]
      have := monthLength_pos (1970 + v) 1
      exact ⟨le_refl _, by simp only; omega, le_refl _, by simp only; omega⟩
    · show v = (dateFromYears v).year - 1970
      rw [hy]; simp only; omega
  | month =>
    refine ⟨_, ⟨dateFromMonths v, ⟨0, 0, 0⟩, 0⟩, rfl, ⟨hm.1, t0, t1, t1, le_refl _, one_pos⟩, hm.2.2.symm,
      _, _, dec_year _, setw_field (by omega) ?_ ?_, rfl⟩
    · have := hm.1.1; simp only at this ⊢; omega
    · have := hm.1.2.1; simp only at this ⊢; omega
  | week =>
    exact ⟨_, ⟨dateFromWeeks v, ⟨0, 0, 0⟩, 0⟩, rfl, ⟨hw.1, t0, t1, t1, le_refl _, one_pos⟩, hw.2.symm, dateText_is hw.1⟩
  | day =>
    exact ⟨_, ⟨dateFromDays v, ⟨0, 0, 0⟩, 0⟩, rfl, ⟨(C11_round_trip v).1, t0, t1, t1, le_refl _, one_pos⟩,
      (C11_round_trip v).2.symm, dateText_is (C11_round_trip v).1⟩
  | hour =>
    obtain ⟨h1, h2, h3, h4, h5, h6⟩ := hh
    refine ⟨_, ⟨(datetimeFromHours v).1, (datetimeFromHours v).2, 0⟩, rfl,
      ⟨h1, ⟨h2, h3⟩, ?_, ?_, le_refl _, one_pos⟩, h6.symm, _, _, dateText_is h1, setw_field (by omega) h2 ?_, rfl⟩
    · rw [h4]; exact t1
    · rw [h5]; exact t1
    · simp only at h3 ⊢; omega
  | minute =>
    obtain ⟨h1, h2, h3, h4, h5, h6, h7⟩ := hn
    refine ⟨_, ⟨(datetimeFromMinutes v).1, (datetimeFromMinutes v).2, 0⟩, rfl,
      ⟨h1, ⟨h2, h3⟩, ⟨h4, h5⟩, ?_, le_refl _, one_pos⟩, h7.symm, _, _, _, dateText_is h1, setw_field (by omega) h2 ?_,
      setw_field (by omega) h4 ?_, rfl⟩
    · rw [h6]; exact t1
    · simp only at h3 ⊢; omega
    · simp only at h5 ⊢; omega
  | second =>
    obtain ⟨m, e1, e2, e3, hv, hs⟩ := sub_second 1 .second (by decide) v
    refine ⟨_, m, ?_, hv, hs, second_is hv⟩
    have : ndigits 1 = 0 := by decide +kernel
    simp only [datetime64ToString, Resolution.orderOfMagnitude, this, e1, e2]
    rfl
  | millisecond => exact sub _ _ rfl (by decide) (by decide +kernel) (by decide) (fun _ h => h)
  | microsecond => exact sub _ _ rfl (by decide) (by decide +kernel) (by decide) (fun _ h => h)
  | nanosecond => exact sub _ _ rfl (by decide) (by decide +kernel) (by decide) (fun _ h => h)
  | picosecond => exact sub _ _ rfl (by decide) (by decide +kernel) (by decide) (fun _ h => h)
  | femtosecond => exact sub _ _ rfl (by decide) (by decide +kernel) (by decide) (fun _ h => h)
  | attosecond => exact sub _ _ rfl (by decide) (by decide +kernel) (by decide) (fun _ h => h)

example : datetime64ToString (-1) .millisecond = .ok "1969-12-31T23:59:59.999".toList := by decide +kernel
example : datetime64ToString 951782400 .second = .ok "2000-02-29T00:00:00".toList := by decide +kernel

/-! ### The text determines the date -/

theorem field_inj {w : Nat} {n n' : Int} {s : List Char} (h : Field w n s) (h' : Field w n' s) : n = n' :=
  h.2.2.symm.trans h'.2.2

theorem year_inj {n n' : Int} {s : List Char} (h : Year n s) (h' : Year n' s) : n = n' := by
  rcases h with ⟨a, b, c, d⟩ | ⟨a, t, b, c, e, d⟩ <;> rcases h' with ⟨a', b', c', d'⟩ | ⟨a', t', b', c', e', d'⟩
  · omega
  · subst b'
    have := c '-' (by simp)
    exact absurd this (by decide)
  · subst b
    have := c' '-' (by simp)
    exact absurd this (by decide)
  · subst b
    have : t = t' := by simpa using b'
    subst this
    omega

theorem split_last {c : Char} {a a' b b' : List Char} (h : a ++ c :: b = a' ++ c :: b') (hl : b.length = b'.length) :
    a = a' ∧ b = b' := by
  have := List.append_inj' h (by simp [hl])
  exact ⟨this.1, by simpa using this.2⟩

theorem date_inj {d d' : Date} {s : List Char} (h : DateIs d s) (h' : DateIs d' s) : d = d' := by
  obtain ⟨a, b, c, h1, h2, h3, e⟩ := h
  obtain ⟨a', b', c', h1', h2', h3', e'⟩ := h'
  subst e
  obtain ⟨x1, x2⟩ := split_last e' (by simp [h2.1, h2'.1, h3.1, h3'.1])
  obtain ⟨x3, x4⟩ := split_last x2 (by simp [h3.1, h3'.1])
  subst x1 x3 x4
  obtain ⟨y, m, n⟩ := d
  obtain ⟨y', m', n'⟩ := d'
  simp only at *
  rw [year_inj h1 h1', field_inj h2 h2', field_inj h3 h3']

theorem second_inj {m m' : Moment} {s : List Char} (h : SecondIs m s) (h' : SecondIs m' s) :
    m.date = m'.date ∧ m.time = m'.time := by
  obtain ⟨d, a, b, c, h1, h2, h3, h4, e⟩ := h
  obtain ⟨d', a', b', c', h1', h2', h3', h4', e'⟩ := h'
  subst e
  obtain ⟨x1, x2⟩ := split_last e' (by simp [h2.1, h2'.1, h3.1, h3'.1, h4.1, h4'.1])
  obtain ⟨x3, x4⟩ := split_last x2 (by simp [h3.1, h3'.1, h4.1, h4'.1])
  obtain ⟨x5, x6⟩ := split_last x4 (by simp [h4.1, h4'.1])
  subst x1 x3 x5 x6
  refine ⟨date_inj h1 h1', ?_⟩
  obtain ⟨da, ⟨y, m, n⟩, f⟩ := m
  obtain ⟨da', ⟨y', m', n'⟩, f'⟩ := m'
  simp only at *
  rw [field_inj h2 h2', field_inj h3 h3', field_inj h4 h4']

/-- A text is the text of one date only. -/
theorem text_inj {r : Resolution} {m m' : Moment} {v v' : Int} {s : List Char} (h : TextIs r m s) (h' : TextIs r m' s)
    (hm : ValidMoment r m)
    (hm' : ValidMoment r m') (hv : Stands r m v) (hv' : Stands r m' v') : v = v' := by
  cases r with
  | year =>
    have := year_inj h h'
    simp only [Stands] at hv hv'; omega
  | month =>
    obtain ⟨a, b, h1, h2, e⟩ := h
    obtain ⟨a', b', h1', h2', e'⟩ := h'
    subst e
    obtain ⟨x1, x2⟩ := split_last e' (by simp [h2.1, h2'.1])
    subst x1 x2
    have := year_inj h1 h1'
    have := field_inj h2 h2'
    simp only [Stands] at hv hv'; omega
  | week =>
    have := date_inj h h'
    simp only [Stands] at hv hv'; rw [this] at hv; omega
  | day =>
    have := date_inj h h'
    simp only [Stands] at hv hv'; rw [this] at hv; omega
  | hour =>
    obtain ⟨a, b, h1, h2, e⟩ := h
    obtain ⟨a', b', h1', h2', e'⟩ := h'
    subst e
    obtain ⟨x1, x2⟩ := split_last e' (by simp [h2.1, h2'.1])
    subst x1 x2
    have h3 := date_inj h1 h1'
    have := field_inj h2 h2'
    simp only [Stands] at hv hv'; rw [h3] at hv; omega
  | minute =>
    obtain ⟨a, b, c, h1, h2, h4, e⟩ := h
    obtain ⟨a', b', c', h1', h2', h4', e'⟩ := h'
    subst e
    obtain ⟨x1, x2⟩ := split_last e' (by simp [h2.1, h2'.1, h4.1, h4'.1])
    obtain ⟨x3, x4⟩ := split_last x2 (by simp [h4.1, h4'.1])
    subst x1 x3 x4
    have h3 := date_inj h1 h1'
    have := field_inj h2 h2'
    have := field_inj h4 h4'
    simp only [Stands] at hv hv'; rw [h3] at hv; omega
  | second =>
    obtain ⟨x, y⟩ := second_inj h h'
    have f1 := hm.2.2.2.2
    have f2 := hm'.2.2.2.2
    simp only [Stands, decimals, pow_zero] at hv hv' f1 f2
    rw [x, y] at hv
    omega
  | millisecond =>
    obtain ⟨t, f, h1, h2, e⟩ := h
    obtain ⟨t', f', h1', h2', e'⟩ := h'
    subst e
    obtain ⟨x1, x2⟩ := split_last e' (by simp [h2.1, h2'.1])
    subst x1 x2
    obtain ⟨x, y⟩ := second_inj h1 h1'
    have z := field_inj h2 h2'
    simp only [Stands] at hv hv'
    rw [hv, hv', x, y, z]
  | microsecond =>
    obtain ⟨t, f, h1, h2, e⟩ := h
    obtain ⟨t', f', h1', h2', e'⟩ := h'
    subst e
    obtain ⟨x1, x2⟩ := split_last e' (by simp [h2.1, h2'.1])
    subst x1 x2
    obtain ⟨x, y⟩ := second_inj h1 h1'
    have z := field_inj h2 h2'
    simp only [Stands] at hv hv'
    rw [hv, hv', x, y, z]
  | nanosecond =>
    obtain ⟨t, f, h1, h2, e⟩ := h
    obtain ⟨t', f', h1', h2', e'⟩ := h'
    subst e
    obtain ⟨x1, x2⟩ := split_last e' (by simp [h2.1, h2'.1])
    subst x1 x2
    obtain ⟨x, y⟩ := second_inj h1 h1'
    have z := field_inj h2 h2'
    simp only [Stands] at hv hv'
    rw [hv, hv', x, y, z]
  | picosecond =>
    obtain ⟨t, f, h1, h2, e⟩ := h
    obtain ⟨t', f', h1', h2', e'⟩ := h'
    subst e
    obtain ⟨x1, x2⟩ := split_last e' (by simp [h2.1, h2'.1])
    subst x1 x2
    obtain ⟨x, y⟩ := second_inj h1 h1'
    have z := field_inj h2 h2'
    simp only [Stands] at hv hv'
    rw [hv, hv', x, y, z]
  | femtosecond =>
    obtain ⟨t, f, h1, h2, e⟩ := h
    obtain ⟨t', f', h1', h2', e'⟩ := h'
    subst e
    obtain ⟨x1, x2⟩ := split_last e' (by simp [h2.1, h2'.1])
    subst x1 x2
    obtain ⟨x, y⟩ := second_inj h1 h1'
    have z := field_inj h2 h2'
    simp only [Stands] at hv hv'
    rw [hv, hv', x, y, z]
  | attosecond =>
    obtain ⟨t, f, h1, h2, e⟩ := h
    obtain ⟨t', f', h1', h2', e'⟩ := h'
    subst e
    obtain ⟨x1, x2⟩ := split_last e' (by simp [h2.1, h2'.1])
    subst x1 x2
    obtain ⟨x, y⟩ := second_inj h1 h1'
    have z := field_inj h2 h2'
    simp only [Stands] at hv hv'
    rw [hv, hv', x, y, z]

/-- **C99**: two dates of the same unit with the same text are the same date. -/
theorem C99_injective (r : Resolution) (v w : Int) (h : datetime64ToString v r = datetime64ToString w r) : v = w := by
  obtain ⟨s, m, h1, h4, h2, h3⟩ := C99_text r v
  obtain ⟨s', m', h1', h4', h2', h3'⟩ := C99_text r w
  rw [h1, h1'] at h
  have e : s = s' := by injection h
  subst e
  exact text_inj h3 h3' h4 h4' h2 h2'

end Pyinterp.Dateutils
