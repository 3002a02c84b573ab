import Mathlib.Data.List.GetD
import Verif.Props.C81_PassNumbers

/-
C82: `iterate` enumerates the consecutive passes, each at its date, and ends; the durations of the passes are these of a cycle.
-/
namespace Pyinterp
open Passes Spec

theorem pyGet_nonneg {T : Type} {l : List T} {i : Nat} (h : i < l.length) : pyGet l (i : Int) = .ok l[i] := by
  unfold pyGet
  have : ¬ ((i : Int) < 0) := by omega
  simp only [this, if_false, Int.toNat_natCast, List.getElem?_eq_getElem h]

theorem pyGet_last {T : Type} {l : List T} (h : l ≠ []) : pyGet l (-1) = .ok (l.getLast h) := by
  have hl : 0 < l.length := List.length_pos_iff.mpr h
  unfold pyGet
  have h1 : ¬ (-1 + (l.length : Int) < 0) := by omega
  have h2 : (-1 + (l.length : Int)).toNat = l.length - 1 := by omega
  simp only [show ((-1 : Int) < 0) by decide, if_true, h1, if_false, h2]
  rw [List.getElem?_eq_getElem (by omega)]
  simp only [List.getLast_eq_getElem]

variable {K : Type}

/-- The period of an orbit: from the first pass to the end of the last step. -/
def Passes.Orbit.period (o : Orbit K) : Int :=
  o.time.getLastD 0 + (o.time.getD 1 0 - o.time.getD 0 0) - o.passTime.getD 0 0

theorem getLastD_eq {T : Type} {l : List T} (h : l ≠ []) (d : T) : l.getLastD d = l.getLast h := by
  cases l with
  | nil => exact absurd rfl h
  | cons a t => rfl

/-- The duration of a pass, in the two cases. -/
theorem passDuration_eq (o : Orbit K) (ht : 2 ≤ o.time.length) {p : Nat} (h1 : 1 ≤ p) (hp : p ≤ o.passTime.length) :
    o.passDuration p = .ok (if p = o.passTime.length then o.period + o.passTime.getD 0 0 - o.passTime.getD (p - 1) 0
      else o.passTime.getD p 0 - o.passTime.getD (p - 1) 0) := by
  have hne : o.passTime ≠ [] := List.length_pos_iff.mp (by omega)
  have hte : o.time ≠ [] := List.length_pos_iff.mp (by omega)
  unfold Orbit.passDuration Orbit.passesPerCycle
  dsimp only
  rw [if_neg (by push Not; constructor <;> omega)]
  by_cases h : p = o.passTime.length
  · rw [if_pos (by exact_mod_cast h), if_pos h]
    have g1 : pyGet o.time 1 = .ok o.time[1] := pyGet_nonneg (i := 1) (by omega)
    have g0 : pyGet o.time 0 = .ok o.time[0] := pyGet_nonneg (i := 0) (by omega)
    rw [pyGet_last hte, pyGet_last hne, g1, g0]
    show Except.ok _ = Except.ok _
    congr 1
    have e1 : o.passTime.getD (p - 1) 0 = o.passTime.getLast hne := by
      rw [List.getLast_eq_getElem, h, List.getD_eq_getElem _ _ (by omega)]
    unfold Orbit.period
    rw [e1, getLastD_eq hte, List.getD_eq_getElem _ _ (show 1 < o.time.length by omega),
      List.getD_eq_getElem _ _ (show 0 < o.time.length by omega)]
    ring
  · rw [if_neg (by exact_mod_cast h), if_neg h]
    rw [pyGet_nonneg (show p < o.passTime.length by omega), show ((p : Int) - 1) = ((p - 1 : Nat) : Int) by omega,
      pyGet_nonneg (show p - 1 < o.passTime.length by omega)]
    show Except.ok _ = Except.ok _
    rw [List.getD_eq_getElem _ _ (show p < o.passTime.length by omega),
      List.getD_eq_getElem _ _ (show p - 1 < o.passTime.length by omega)]

/-- C82. The duration of a pass is the time to the next pass: to the next date of `pass_time`, for the last pass to the first pass of
the next cycle. -/
theorem C82_duration {rd : ℚ → ℚ} (hr : Nearest53 rd) (o : Orbit K) (ho : o.passTime ≠ []) (ht : 2 ≤ o.time.length) {number : ℤ}
    (h1 : 1 ≤ number) (hb : number + 1 + o.passTime.length ≤ 2 ^ 53) :
    ∃ c p c' p' d, o.decode rd number = .ok (c, p) ∧ o.decode rd (number + 1) = .ok (c', p') ∧ o.passDuration p = .ok d ∧
      passDate o.passTime o.period c' p' = passDate o.passTime o.period c p + d := by
  set n := o.passTime.length with hn
  have hn0 : 0 < n := by rw [hn]; exact List.length_pos_iff.mpr ho
  have hdec : ∀ m : ℤ, 1 ≤ m → m + n ≤ 2 ^ 53 → o.decode rd m = .ok ((m - 1) / n + 1, (m - 1) % n + 1) := by
    intro m hm hmb
    have ht := trunc_rd hr (a := m - 1) hn0 (by omega) (by omega)
    unfold Orbit.decode
    simp only [Orbit.passesPerCycle, ← hn]
    rw [if_neg (by omega), Int.fmod_eq_emod_of_nonneg _ (by omega)]
    simp only [Int.cast_natCast]
    rw [ht]
  obtain ⟨r, hrr⟩ : ∃ r : Nat, (r : ℤ) = (number - 1) % n :=
    ⟨((number - 1) % n).toNat, Int.toNat_of_nonneg (Int.emod_nonneg _ (by omega))⟩
  have hrn : r < n := by
    have := Int.emod_lt_of_pos (number - 1) (show (0 : ℤ) < n by omega)
    omega
  have hdm := Int.mul_ediv_add_emod (number - 1) n
  set q := (number - 1) / (n : ℤ) with hq
  have hd := passDuration_eq o ht (p := r + 1) (by omega) (by omega)
  by_cases hcase : r + 1 = n
  · have hq' : (number + 1 - 1) / (n : ℤ) = q + 1 := by
      have : number + 1 - 1 = n * (q + 1) := by rw [mul_add]; omega
      rw [this, Int.mul_ediv_cancel_left _ (by omega)]
    have hr' : (number + 1 - 1) % (n : ℤ) = 0 := by
      have : number + 1 - 1 = n * (q + 1) := by rw [mul_add]; omega
      rw [this, Int.mul_emod_right]
    rw [if_pos (by omega)] at hd
    refine ⟨_, _, _, _, _, hdec _ h1 (by omega), hdec _ (by omega) (by omega), by rw [← hrr]; exact_mod_cast hd, ?_⟩
    rw [hq', hr', ← hrr]
    unfold passDate
    rw [show ((0 : ℤ) + 1 - 1).toNat = 0 by rfl, show ((r : ℤ) + 1 - 1).toNat = r by omega, show r + 1 - 1 = r by omega]
    ring
  · have hq' : (number + 1 - 1) / (n : ℤ) = q := by
      have : number + 1 - 1 = (r + 1 : ℤ) + n * q := by omega
      rw [this, Int.add_mul_ediv_left _ _ (by omega), Int.ediv_eq_zero_of_lt (by omega) (by omega)]
      omega
    have hr' : (number + 1 - 1) % (n : ℤ) = r + 1 := by
      have : number + 1 - 1 = (r + 1 : ℤ) + n * q := by omega
      rw [this, Int.add_mul_emod_self_left, Int.emod_eq_of_lt (by omega) (by omega)]
    rw [if_neg (by omega)] at hd
    refine ⟨_, _, _, _, _, hdec _ h1 (by omega), hdec _ (by omega) (by omega), by rw [← hrr]; exact_mod_cast hd, ?_⟩
    rw [hq', hr', ← hrr]
    unfold passDate
    rw [show ((r : ℤ) + 1 + 1 - 1).toNat = r + 1 by omega, show ((r : ℤ) + 1 - 1).toNat = r by omega, show r + 1 - 1 = r by omega]
    ring

/-- The loop, characterised by the dates of the passes. -/
theorem iterateFrom_spec {rd : ℚ → ℚ} (hr : Nearest53 rd) (o : Orbit K) (ho : o.passTime ≠ []) (ht : 2 ≤ o.time.length)
    (last : Int) (k : Nat) : ∀ (date number : Int), 1 ≤ number → number + k + o.passTime.length ≤ 2 ^ 53 →
    ∃ (l : List (Int × Int × Int)) (pass : Nat → Int × Int), o.iterateFrom rd last k date number = .ok l ∧ l.length ≤ k ∧
      (∀ i, i ≤ k → o.decode rd (number + i) = .ok (pass i)) ∧
      (∀ i (h : i < l.length), l[i] = ((pass i).1, (pass i).2,
        date + passDate o.passTime o.period (pass i).1 (pass i).2 - passDate o.passTime o.period (pass 0).1 (pass 0).2)) ∧
      (∀ i, i < l.length →
        date + passDate o.passTime o.period (pass i).1 (pass i).2 - passDate o.passTime o.period (pass 0).1 (pass 0).2 ≤ last) ∧
      (l.length < k → last < date + passDate o.passTime o.period (pass l.length).1 (pass l.length).2 -
        passDate o.passTime o.period (pass 0).1 (pass 0).2) := by
  induction k with
  | zero =>
    intro date number h1 hb
    obtain ⟨c, p, hcp, _⟩ := C81_encode_decode hr o ho h1 (by omega)
    refine ⟨[], fun _ => (c, p), rfl, by simp, ?_, by simp, by simp, by simp⟩
    intro i hi
    have : i = 0 := by omega
    subst this; simpa using hcp
  | succ k ih =>
    intro date number h1 hb
    obtain ⟨c, p, c', p', d, e1, e2, e3, e4⟩ := C82_duration hr o ho ht h1 (by push_cast at hb; omega)
    obtain ⟨l, pass, i1, i2, i3, i4, i5, i6⟩ := ih (date + d) (number + 1) (by omega) (by push_cast at hb; omega)
    have hp0 : pass 0 = (c', p') := by
      have := i3 0 (by omega)
      simp only [Nat.cast_zero, add_zero, e2] at this
      exact (Except.ok.inj this).symm
    let pass' : Nat → Int × Int := fun i => match i with | 0 => (c, p) | i + 1 => pass i
    have hdec : ∀ i, i ≤ k + 1 → o.decode rd (number + i) = .ok (pass' i) := by
      intro i hi
      cases i with
      | zero => simpa [pass'] using e1
      | succ i =>
        have := i3 i (by omega)
        simp only [pass']
        rw [← this]; congr 1; push_cast; ring
    unfold Orbit.iterateFrom
    by_cases hd : date ≤ last
    · rw [if_pos hd, e1]
      refine ⟨(c, p, date) :: l, pass', ?_, by simp; omega, hdec, ?_, ?_, ?_⟩
      · show (do let d ← o.passDuration p
                 let rest ← Orbit.iterateFrom rd o last k (date + d) (number + 1)
                 Except.ok ((c, p, date) :: rest)) = _
        rw [e3]
        show (do let rest ← Orbit.iterateFrom rd o last k (date + d) (number + 1)
                 Except.ok ((c, p, date) :: rest)) = _
        rw [i1]; rfl
      · intro i hi
        cases i with
        | zero => simp [pass']
        | succ i =>
          have := i4 i (by simpa using hi)
          simp only [List.getElem_cons_succ, pass']
          rw [this, hp0]
          simp only [Prod.mk.injEq, true_and]
          omega
      · intro i hi
        cases i with
        | zero => simpa [pass'] using hd
        | succ i =>
          have := i5 i (by simpa using hi)
          rw [hp0] at this
          simp only [pass']
          dsimp only at this
          omega
      · intro hl
        have := i6 (by simpa using hl)
        rw [hp0] at this
        simp only [List.length_cons, pass']
        dsimp only at this
        omega
    · rw [if_neg hd]
      refine ⟨[], pass', rfl, by simp, hdec, by simp, by simp, ?_⟩
      intro _
      simp only [List.length_nil, pass']
      omega

/-- C82. What a caller of `iterate` receives when it asks for at most `k` items: the passes `absolute_pass_number`,
`absolute_pass_number + 1`, ... in this order, without omission, each with its date – the cycles follow each other with the period of
the orbit and the dates of the passes in a cycle are `pass_time` – as long as the date is not after the last one; the enumeration
stops before `k` items exactly when the date of the next pass is after the last date. -/
theorem C82_items {rd : ℚ → ℚ} (hr : Nearest53 rd) (o : Orbit K) (ho : o.passTime ≠ []) (ht : 2 ≤ o.time.length)
    (now first last number : Int) (k : Nat) (hf : first ≠ 0) (hl : last ≠ 0) (h1 : 1 ≤ number)
    (hb : number + k + o.passTime.length ≤ 2 ^ 53) :
    ∃ (l : List (Int × Int × Int)) (pass : Nat → Int × Int), o.iterate rd now (some first) (some last) number k = .ok l ∧
      l.length ≤ k ∧ (∀ i, i ≤ k → o.decode rd (number + i) = .ok (pass i)) ∧
      (∀ i (h : i < l.length), l[i].1 = (pass i).1 ∧ l[i].2.1 = (pass i).2 ∧ l[i].2.2 ≤ last ∧
        l[i].2.2 - first = passDate o.passTime o.period (pass i).1 (pass i).2 -
          passDate o.passTime o.period (pass 0).1 (pass 0).2) ∧
      (l.length < k → last - first < passDate o.passTime o.period (pass l.length).1 (pass l.length).2 -
        passDate o.passTime o.period (pass 0).1 (pass 0).2) := by
  obtain ⟨l, pass, i1, i2, i3, i4, i5, i6⟩ := iterateFrom_spec hr o ho ht last k first number h1 hb
  have hte : o.time ≠ [] := List.length_pos_iff.mp (by omega)
  refine ⟨l, pass, ?_, i2, i3, ?_, ?_⟩
  · unfold Orbit.iterate Orbit.cycleDuration
    rw [pyGet_last hte]
    show o.iterateFrom rd (orDate (some last) _) k (orDate (some first) now) number = _
    simp only [orDate, if_neg hf, if_neg hl]
    exact i1
  · intro i h
    have := i4 i h
    have h5 := i5 i h
    rw [this]
    refine ⟨rfl, rfl, h5, ?_⟩
    dsimp only
    omega
  · intro h
    have := i6 h
    omega

/-- Later passes have later dates, when the dates of the passes grow and the last pass has a positive duration. -/
theorem passDate_lt {rd : ℚ → ℚ} (hr : Nearest53 rd) (o : Orbit K) (ho : o.passTime ≠ []) (ht : 2 ≤ o.time.length)
    (hinc : o.passTime.Pairwise (· < ·)) (hper : o.passTime.getLast ho - o.passTime.getD 0 0 < o.period) {number : ℤ}
    (h1 : 1 ≤ number) (hb : number + 1 + o.passTime.length ≤ 2 ^ 53) {c p c' p' : ℤ}
    (e1 : o.decode rd number = .ok (c, p)) (e2 : o.decode rd (number + 1) = .ok (c', p')) :
    passDate o.passTime o.period c p + 1 ≤ passDate o.passTime o.period c' p' := by
  obtain ⟨c1, p1, c2, p2, d, f1, f2, f3, f4⟩ := C82_duration hr o ho ht h1 hb
  rw [e1] at f1; rw [e2] at f2
  obtain ⟨rfl, rfl⟩ := Prod.mk.inj (Except.ok.inj f1)
  obtain ⟨rfl, rfl⟩ := Prod.mk.inj (Except.ok.inj f2)
  obtain ⟨c3, p3, g1, g2, g3, g4, _⟩ := C81_encode_decode hr o ho h1 (by omega)
  rw [e1] at g1
  obtain ⟨rfl, rfl⟩ := Prod.mk.inj (Except.ok.inj g1)
  obtain ⟨r, rfl⟩ : ∃ r : Nat, p = r := ⟨p.toNat, by omega⟩
  rw [passDuration_eq o ht (by omega) (by omega)] at f3
  have hd := Except.ok.inj f3
  have : 0 < d := by
    rw [← hd]
    split_ifs with h
    · have e : o.passTime.getD (r - 1) 0 = o.passTime.getLast ho := by
        rw [List.getLast_eq_getElem, h, List.getD_eq_getElem _ _ (by omega)]
      omega
    · rw [List.getD_eq_getElem _ _ (show r < o.passTime.length by omega),
        List.getD_eq_getElem _ _ (show r - 1 < o.passTime.length by omega)]
      have := List.pairwise_iff_getElem.mp hinc (r - 1) r (by omega) (by omega) (by omega)
      omega
  omega

/-- C82. The enumeration ends: with growing dates of passes, a caller receives all the passes up to the last date after at most
`last - first + 2` requests, and the dates it receives grow. -/
theorem C82_ends {rd : ℚ → ℚ} (hr : Nearest53 rd) (o : Orbit K) (ho : o.passTime ≠ []) (ht : 2 ≤ o.time.length)
    (hinc : o.passTime.Pairwise (· < ·)) (hper : o.passTime.getLast ho - o.passTime.getD 0 0 < o.period)
    (now first last number : Int) (hf : first ≠ 0) (hl : last ≠ 0) (h1 : 1 ≤ number) (k : Nat) (hk0 : 0 < k)
    (hk : last - first + 2 ≤ k) (hb : number + k + o.passTime.length ≤ 2 ^ 53) :
    ∃ l, o.iterate rd now (some first) (some last) number k = .ok l ∧ l.length < k ∧
      (l.map (fun x => x.2.2)).Pairwise (· < ·) := by
  obtain ⟨l, pass, j1, j2, j3, j4, _⟩ := C82_items hr o ho ht now first last number k hf hl h1 hb
  have hstep : ∀ i, i + 1 ≤ k → passDate o.passTime o.period (pass i).1 (pass i).2 + 1 ≤
      passDate o.passTime o.period (pass (i + 1)).1 (pass (i + 1)).2 := by
    intro i hi
    refine passDate_lt hr o ho ht hinc hper (number := number + i) (by omega) (by push_cast at hb ⊢; omega)
      (j3 i (by omega)) ?_
    have := j3 (i + 1) hi
    rw [← this]; congr 1; push_cast; ring
  have hmono : ∀ m i, i + m ≤ k → passDate o.passTime o.period (pass i).1 (pass i).2 + m ≤
      passDate o.passTime o.period (pass (i + m)).1 (pass (i + m)).2 := by
    intro m
    induction m with
    | zero => intro i _; simp
    | succ m ih =>
      intro i hi
      have a1 := ih i (by omega)
      have a2 := hstep (i + m) (by omega)
      rw [show i + (m + 1) = i + m + 1 by ring]
      push_cast
      omega
  refine ⟨l, j1, ?_, ?_⟩
  · by_contra hc
    have hlk : l.length = k := by omega
    obtain ⟨_, _, b1, b2⟩ := j4 (k - 1) (by omega)
    have a1 := hmono (k - 1) 0 (by omega)
    simp only [zero_add] at a1
    omega
  · rw [List.pairwise_map]
    refine List.pairwise_iff_getElem.mpr ?_
    intro i j hi hj hij
    obtain ⟨_, _, _, b2⟩ := j4 i hi
    obtain ⟨_, _, _, b3⟩ := j4 j hj
    have a1 := hmono (j - i) i (by omega)
    rw [show i + (j - i) = j by omega] at a1
    omega

/-- C82. The durations of the passes of a cycle add up to the period. -/
theorem C82_cycle (o : Orbit K) (ho : o.passTime ≠ []) (ht : 2 ≤ o.time.length) :
    ∃ ds : List Int, (List.range o.passTime.length).mapM (fun i : Nat => o.passDuration ((i : Int) + 1)) = .ok ds ∧
      ds.length = o.passTime.length ∧ ds.sum = o.period := by
  set n := o.passTime.length with hn
  have hn0 : 0 < n := by rw [hn]; exact List.length_pos_iff.mpr ho
  have key : ∀ m, m < n → ∃ ds : List Int, (List.range m).mapM (fun i : Nat => o.passDuration ((i : Int) + 1)) = .ok ds ∧
      ds.length = m ∧ ds.sum = o.passTime.getD m 0 - o.passTime.getD 0 0 := by
    intro m
    induction m with
    | zero => intro _; exact ⟨[], rfl, rfl, by simp⟩
    | succ m ih =>
      intro hm
      obtain ⟨ds, e1, e2, e3⟩ := ih (by omega)
      have hd := passDuration_eq o ht (p := m + 1) (by omega) (by omega)
      rw [if_neg (by omega)] at hd
      refine ⟨ds ++ [o.passTime.getD (m + 1) 0 - o.passTime.getD m 0], ?_, by simp [e2], by simp [e3]⟩
      rw [List.range_succ, List.mapM_append, e1]
      simp only [List.mapM_cons, List.mapM_nil]
      rw [show ((m : Int) + 1) = ((m + 1 : Nat) : Int) by push_cast; ring, hd]
      rfl
  obtain ⟨ds, e1, e2, e3⟩ := key (n - 1) (by omega)
  have hd := passDuration_eq o ht (p := n) (by omega) (by omega)
  rw [if_pos (by omega)] at hd
  refine ⟨ds ++ [o.period + o.passTime.getD 0 0 - o.passTime.getD (n - 1) 0], ?_, by simp [e2]; omega, by simp [e3]⟩
  rw [show List.range n = List.range (n - 1) ++ [n - 1] by rw [← List.range_succ]; congr 1; omega, List.mapM_append, e1]
  simp only [List.mapM_cons, List.mapM_nil]
  rw [show (((n - 1 : Nat) : Int) + 1) = ((n : Nat) : Int) by omega, hd]
  rfl

/-- C82. A pass outside the cycle has no duration. -/
theorem C82_refused (o : Orbit K) (p : Int) (h : p < 1 ∨ (o.passTime.length : Int) < p) : o.passDuration p = .error .exn := by
  unfold Orbit.passDuration Orbit.passesPerCycle
  dsimp only
  rw [if_pos (by omega)]

/-- C82. The duration of an orbit: two passes are an orbit, the quotient of the duration of the cycle by half of the (even) number of
passes, rounded down to the microsecond. -/
theorem C82_orbit_duration (o : Orbit K) (m : Nat) (hm : 0 < m) (hp : o.passTime.length = 2 * m) (ho : o.time ≠ [])
    (h0 : 0 ≤ o.time.getLast ho) :
    ∃ d, o.orbitDuration = .ok d ∧ d * m ≤ o.time.getLast ho / 1000 ∧ o.time.getLast ho / 1000 < (d + 1) * m := by
  unfold Orbit.orbitDuration Orbit.cycleDuration Orbit.passesPerCycle
  rw [pyGet_last ho]
  refine ⟨o.time.getLast ho / 1000 / m, ?_, ?_, ?_⟩
  · show (if o.passTime.length / 2 = 0 then _ else _) = _
    rw [hp, show 2 * m / 2 = m by omega, if_neg (by omega)]
    congr 1
    rw [Int.tdiv_eq_ediv_of_nonneg h0]
    set t := o.time.getLast ho / 1000
    have ht : 0 ≤ t := Int.ediv_nonneg h0 (by norm_num)
    unfold trunc
    have hmq : (0 : ℚ) < ((m : ℤ) : ℚ) := by exact_mod_cast hm
    rw [if_neg (not_lt.mpr (div_nonneg (by exact_mod_cast ht) hmq.le))]
    exact Rat.floor_intCast_div_natCast t m
  · exact Int.ediv_mul_le _ (by omega)
  · exact Int.lt_ediv_add_one_mul_self _ (by omega)

/-- Finding (C82): the duration of an orbit of one pass is a division by zero. -/
theorem C82_one_pass_false (o : Orbit K) (hp : o.passTime.length = 1) (ho : o.time ≠ []) : o.orbitDuration = .error .exn := by
  unfold Orbit.orbitDuration Orbit.cycleDuration Orbit.passesPerCycle
  rw [pyGet_last ho]
  show (if o.passTime.length / 2 = 0 then _ else _) = _
  rw [hp]; rfl

/-- Finding (C82): the first date 1970-01-01T00:00:00 is false for `or`: the enumeration begins now instead. -/
theorem C82_epoch_false (rd : ℚ → ℚ) (o : Orbit K) (now : Int) (last : Option Int) (number : Int) (k : Nat) :
    o.iterate rd now (some 0) last number k = o.iterate rd now none last number k := rfl

/-- Three passes of 10, 12 and 8 + 2 nanoseconds (the last step): the hypotheses hold and the enumeration gives the expected dates. -/
def sampleOrbit : Orbit ℚ := ⟨[], [], [0, 10, 22], [0, 2, 4, 10, 22, 30], []⟩

example : sampleOrbit.period = 32 := by decide +kernel

example : ∃ l, sampleOrbit.iterate round53 0 (some 100) (some 150) 2 100 = .ok l ∧ l.length < 100 ∧
    (l.map (fun x => x.2.2)).Pairwise (· < ·) :=
  C82_ends round53_nearest sampleOrbit (by decide) (by decide) (by decide) (by decide +kernel) 0 100 150 2 (by decide) (by decide)
    (by decide) 100 (by decide) (by decide) (by decide)

end Pyinterp
