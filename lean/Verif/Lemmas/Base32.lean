import Verif.Model.Geohash
import Mathlib.Tactic.IntervalCases
import Mathlib.Tactic.Ring
import Mathlib.Data.List.Induction
import Mathlib.Tactic.NormNum

/-
Base 32 text.
-/
namespace Pyinterp.Geohash

theorem alphabet_length : alphabet.length = 32 := rfl

theorem digit_getD (d : Nat) (h : d < 32) : digit (alphabet.getD d '\x00') = some d := by
  interval_cases d <;> decide

theorem getD_mem (d : Nat) (h : d < 32) : alphabet.getD d '\x00' ∈ alphabet := by
  interval_cases d <;> decide

theorem nul_not_mem : '\x00' ∉ alphabet := by decide

theorem digit_of_mem {c : Char} (h : c ∈ alphabet) :
    ∃ d, d < 32 ∧ digit c = some d ∧ alphabet.getD d '\x00' = c ∧ c ≠ '\x00' := by
  simp only [alphabet, List.mem_cons, List.not_mem_nil, or_false] at h
  rcases h with h | h | h | h | h | h | h | h | h | h | h | h | h | h | h | h | h | h | h | h | h |
    h | h | h | h | h | h | h | h | h | h | h <;> subst h <;>
    first
    | exact ⟨0, by decide, by decide, by decide, by decide⟩
    | exact ⟨1, by decide, by decide, by decide, by decide⟩
    | exact ⟨2, by decide, by decide, by decide, by decide⟩
    | exact ⟨3, by decide, by decide, by decide, by decide⟩
    | exact ⟨4, by decide, by decide, by decide, by decide⟩
    | exact ⟨5, by decide, by decide, by decide, by decide⟩
    | exact ⟨6, by decide, by decide, by decide, by decide⟩
    | exact ⟨7, by decide, by decide, by decide, by decide⟩
    | exact ⟨8, by decide, by decide, by decide, by decide⟩
    | exact ⟨9, by decide, by decide, by decide, by decide⟩
    | exact ⟨10, by decide, by decide, by decide, by decide⟩
    | exact ⟨11, by decide, by decide, by decide, by decide⟩
    | exact ⟨12, by decide, by decide, by decide, by decide⟩
    | exact ⟨13, by decide, by decide, by decide, by decide⟩
    | exact ⟨14, by decide, by decide, by decide, by decide⟩
    | exact ⟨15, by decide, by decide, by decide, by decide⟩
    | exact ⟨16, by decide, by decide, by decide, by decide⟩
    | exact ⟨17, by decide, by decide, by decide, by decide⟩
    | exact ⟨18, by decide, by decide, by decide, by decide⟩
    | exact ⟨19, by decide, by decide, by decide, by decide⟩
    | exact ⟨20, by decide, by decide, by decide, by decide⟩
    | exact ⟨21, by decide, by decide, by decide, by decide⟩
    | exact ⟨22, by decide, by decide, by decide, by decide⟩
    | exact ⟨23, by decide, by decide, by decide, by decide⟩
    | exact ⟨24, by decide, by decide, by decide, by decide⟩
    | exact ⟨25, by decide, by decide, by decide, by decide⟩
    | exact ⟨26, by decide, by decide, by decide, by decide⟩
    | exact ⟨27, by decide, by decide, by decide, by decide⟩
    | exact ⟨28, by decide, by decide, by decide, by decide⟩
    | exact ⟨29, by decide, by decide, by decide, by decide⟩
    | exact ⟨30, by decide, by decide, by decide, by decide⟩
    | exact ⟨31, by decide, by decide, by decide, by decide⟩

theorem digit_isNone_iff (c : Char) : (digit c).isNone = true ↔ c ∉ alphabet := by
  unfold digit
  rw [Option.isNone_iff_eq_none, List.idxOf?_eq_none_iff]

theorem low_digit (h : BitVec 64) : (h &&& 0x1f#64).toNat = h.toNat % 32 := by
  rw [BitVec.toNat_and]
  exact Nat.and_two_pow_sub_one_eq_mod h.toNat 5

theorem shift5 (h : BitVec 64) (n : Nat) : (h >>> n).toNat = h.toNat / 2 ^ n := by
  rw [BitVec.toNat_ushiftRight, Nat.shiftRight_eq_div_pow]

theorem push_digit (X d : Nat) (hd : d < 32) :
    (BitVec.ofNat 64 X <<< 5) ||| BitVec.ofNat 64 d = BitVec.ofNat 64 (X * 32 + d) := by
  apply BitVec.eq_of_toNat_eq
  rw [BitVec.toNat_or, BitVec.toNat_shiftLeft]
  simp only [BitVec.toNat_ofNat]
  rw [Nat.mod_eq_of_lt (by omega : d < 2 ^ 64)]
  have e : (X % 2 ^ 64) <<< 5 % 2 ^ 64 = (X % 2 ^ 59) <<< 5 := by
    rw [Nat.shiftLeft_eq, Nat.shiftLeft_eq]; omega
  rw [e, ← Nat.shiftLeft_add_eq_or_of_lt (by omega : d < 2 ^ 5), Nat.shiftLeft_eq]
  omega

theorem decode32Go_encode32 (n : Nat) : ∀ (h : BitVec 64) (t : List Char) (X k : Nat),
    decode32Go (encode32 h n ++ t) (BitVec.ofNat 64 X) k =
      decode32Go t (BitVec.ofNat 64 (X * 32 ^ n + h.toNat % 32 ^ n)) (k + n) := by
  induction n with
  | zero => intro h t X k; simp [encode32, Nat.mod_one]
  | succ n ih =>
    intro h t X k
    have hd : h.toNat % 32 < 32 := Nat.mod_lt _ (by norm_num)
    rw [encode32, List.append_assoc, ih, List.singleton_append, decode32Go, low_digit]
    have hne : alphabet.getD (h.toNat % 32) '\x00' ≠ '\x00' := by
      intro e
      exact nul_not_mem (e ▸ getD_mem _ hd)
    rw [if_neg hne, digit_getD _ hd]
    simp only
    rw [push_digit _ _ hd, shift5]
    have e : (X * 32 ^ n + h.toNat / 2 ^ 5 % 32 ^ n) * 32 + h.toNat % 32 =
        X * 32 ^ (n + 1) + h.toNat % 32 ^ (n + 1) := by
      have : h.toNat % 32 ^ (n + 1) = h.toNat % 32 + 32 * (h.toNat / 32 % 32 ^ n) := by
        rw [pow_succ, Nat.mul_comm (32 ^ n) 32, Nat.mod_mul]
      rw [this, pow_succ]
      norm_num
      ring
    rw [e, Nat.add_assoc]

theorem pow32 (n : Nat) : 32 ^ n = 2 ^ (5 * n) := by rw [pow_mul]; norm_num

theorem decode32_encode32 (h : BitVec 64) (n : Nat) (hh : h.toNat < 2 ^ (5 * n)) :
    decode32 (encode32 h n) = .ok (h, n) := by
  have := decode32Go_encode32 n h [] 0 0
  rw [List.append_nil] at this
  unfold decode32
  rw [show (0#64 : BitVec 64) = BitVec.ofNat 64 0 from rfl, this, Nat.mod_eq_of_lt (by rwa [pow32])]
  simp [decode32Go]

theorem encode32_mem (n : Nat) : ∀ (h : BitVec 64), ∀ c ∈ encode32 h n, c ∈ alphabet := by
  induction n with
  | zero => intro h c hc; simp [encode32] at hc
  | succ n ih =>
    intro h c hc
    rw [encode32, List.mem_append] at hc
    rcases hc with hc | hc
    · exact ih _ _ hc
    · rw [List.mem_singleton] at hc
      rw [hc, low_digit]
      exact getD_mem _ (Nat.mod_lt _ (by norm_num))

theorem encode32_length (n : Nat) : ∀ h : BitVec 64, (encode32 h n).length = n := by
  induction n with
  | zero => intro h; rfl
  | succ n ih => intro h; rw [encode32, List.length_append, ih]; rfl

theorem decode32Go_append (s t : List Char) : ∀ (h : BitVec 64) (k : Nat),
    (∀ c ∈ s, c ∈ alphabet) →
    decode32Go (s ++ t) h k = (do let r ← decode32Go s h k; decode32Go t r.1 r.2) := by
  induction s with
  | nil => intro h k _; rfl
  | cons c s ih =>
    intro h k hs
    obtain ⟨d, hd, e1, e2, e3⟩ := digit_of_mem (hs c (by simp))
    rw [List.cons_append, decode32Go, decode32Go, if_neg e3, if_neg e3, e1]
    simp only
    exact ih _ _ fun c hc => hs c (by simp [hc])

/-- A code over the alphabet is decoded, and its text is given back. -/
theorem decode32_of_mem (s : List Char) (hs : ∀ c ∈ s, c ∈ alphabet) (hl : s.length ≤ 12) :
    ∃ h, decode32 s = .ok (h, s.length) ∧ h.toNat < 2 ^ (5 * s.length) ∧
      encode32 h s.length = s := by
  induction s using List.reverseRecOn with
  | nil => exact ⟨0#64, rfl, by simp, rfl⟩
  | append_singleton s c ih =>
    rw [List.length_append, List.length_singleton] at hl
    obtain ⟨h, e1, e2, e3⟩ := ih (fun c hc => hs c (by simp [hc])) (by omega)
    obtain ⟨d, hd, f1, f2, f3⟩ := digit_of_mem (hs c (by simp))
    have hb : h.toNat < 2 ^ 55 :=
      lt_of_lt_of_le e2 (Nat.pow_le_pow_right (by norm_num) (by omega))
    have hval : ((h <<< 5) ||| BitVec.ofNat 64 d).toNat = h.toNat * 32 + d := by
      have := push_digit h.toNat d hd
      rw [BitVec.ofNat_toNat, BitVec.setWidth_eq] at this
      rw [this, BitVec.toNat_ofNat, Nat.mod_eq_of_lt (by omega)]
    refine ⟨(h <<< 5) ||| BitVec.ofNat 64 d, ?_, ?_, ?_⟩
    · unfold decode32 at e1 ⊢
      rw [decode32Go_append _ _ _ _ (fun c hc => hs c (by simp [hc])), e1]
      simp only [bind, Except.bind]
      rw [decode32Go, if_neg f3, f1]
      simp [decode32Go]
    · rw [hval, List.length_append, List.length_singleton, Nat.mul_add, pow_add]
      omega
    · rw [List.length_append, List.length_singleton, encode32, low_digit, hval]
      have e4 : ((h <<< 5) ||| BitVec.ofNat 64 d) >>> 5 = h := by
        apply BitVec.eq_of_toNat_eq
        rw [shift5, hval]; omega
      rw [e4, e3, show (h.toNat * 32 + d) % 32 = d by omega, f2]

/-- Removing the last characters is removing the last bits. -/
theorem encode32_take (n k : Nat) : ∀ h : BitVec 64,
    (encode32 h (n + k)).take n = encode32 (h >>> (5 * k)) n := by
  induction k with
  | zero =>
    intro h
    rw [Nat.mul_zero, BitVec.ushiftRight_zero, Nat.add_zero]
    exact List.take_of_length_le (encode32_length n h).le
  | succ k ih =>
    intro h
    rw [← Nat.add_assoc, encode32, List.take_append_of_le_length (by rw [encode32_length]; omega), ih,
      ← BitVec.shiftRight_add, show 5 + 5 * k = 5 * (k + 1) by ring]

theorem validate_iff (s : List Char) :
    validate s = true ↔ ∀ c ∈ s.takeWhile (· ≠ '\x00'), c ∈ alphabet := by
  induction s with
  | nil => simp [validate]
  | cons c s ih =>
    rw [validate]
    by_cases hc : c = '\x00'
    · simp [hc]
    · rw [if_neg hc, List.takeWhile_cons_of_pos (by simpa using hc)]
      by_cases hd : (digit c).isNone = true
      · rw [if_pos hd]
        have := (digit_isNone_iff c).1 hd
        simp [this]
      · rw [if_neg hd, ih]
        rw [digit_isNone_iff, not_not] at hd
        simp [hd]

theorem decode32Go_iff (s : List Char) : ∀ (h : BitVec 64) (k : Nat),
    (∃ r, decode32Go s h k = .ok r ∧ r.2 = k + (s.takeWhile (· ≠ '\x00')).length) ∧
      validate s = true ∨ decode32Go s h k = .error .exn ∧ validate s = false := by
  induction s with
  | nil => intro h k; left; exact ⟨⟨_, rfl, rfl⟩, rfl⟩
  | cons c s ih =>
    intro h k
    rw [decode32Go, validate]
    by_cases hc : c = '\x00'
    · left; simp [hc]
    · rw [if_neg hc, if_neg hc, List.takeWhile_cons_of_pos (by simpa using hc)]
      cases hd : digit c with
      | none => right; simp
      | some d =>
        simp only [Option.isNone_some, Bool.false_eq_true, if_false]
        rcases ih ((h <<< 5) ||| BitVec.ofNat 64 d) (k + 1) with ⟨⟨r, e1, e2⟩, e3⟩ | e
        · left
          refine ⟨⟨r, e1, ?_⟩, e3⟩
          rw [e2, List.length_cons]; omega
        · right; exact e

end Pyinterp.Geohash
