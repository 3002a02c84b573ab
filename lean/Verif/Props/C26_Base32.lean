import Verif.Lemmas.Base32
import Verif.Spec.Geohash

/-
C26: text of a geohash.
-/
namespace Pyinterp
open Geohash

/-- The characters of a geohash, in order: digits then letters, without a, i, l, o. -/
def Spec.geohashChars : List Char := "0123456789bcdefghjkmnpqrstuvwxyz".toList

/-- C26: decoding the text of a hash gives back the hash and its number of characters. -/
theorem C26_hash_text_hash (h : BitVec 64) (n : Nat) (hh : h.toNat < 2 ^ (5 * n)) :
    decode32 (encode32 h n) = .ok (h, n) := decode32_encode32 h n hh

example : (48#64).toNat < 2 ^ (5 * 2) ∧ encode32 48#64 2 = ['1', 'h'] := by decide

/-- C26: the text of a hash has the requested number of characters, all of them in
the geohash alphabet. -/
theorem C26_alphabet (h : BitVec 64) (n : Nat) :
    (encode32 h n).length = n ∧ ∀ c ∈ encode32 h n, c ∈ Spec.geohashChars :=
  ⟨encode32_length n h, fun c hc => encode32_mem n h c hc⟩

/-- C26: each character is the base 32 digit of its rank, most significant first. -/
theorem C26_digits (h : BitVec 64) (n k : Nat) (hk : k < n) :
    (encode32 h n)[k]? = Spec.geohashChars[h.toNat / 32 ^ (n - 1 - k) % 32]? := by
  induction n generalizing h k with
  | zero => omega
  | succ n ih =>
    rw [encode32]
    have hd : h.toNat % 32 < 32 := Nat.mod_lt _ (by norm_num)
    by_cases hk' : k < n
    · rw [List.getElem?_append_left (by rw [encode32_length]; exact hk'), ih _ _ hk', shift5]
      congr 2
      rw [Nat.div_div_eq_div_mul, show n + 1 - 1 - k = 1 + (n - 1 - k) by omega, pow_add, pow_one,
        show (2 : ℕ) ^ 5 = 32 from rfl]
    · have : k = n := by omega
      subst this
      rw [List.getElem?_append_right (by rw [encode32_length]), encode32_length, Nat.sub_self,
        low_digit, show k + 1 - 1 - k = 0 by omega, pow_zero, Nat.div_one]
      have e : Spec.geohashChars = alphabet := by decide
      rw [e, List.getElem?_cons_zero, List.getD_eq_getElem?_getD,
        List.getElem?_eq_getElem (by rw [alphabet_length]; exact hd)]
      rfl

example : (encode32 48#64 2)[1]? = some 'h' := by decide

/-- C26: encoding what was decoded from a text over the alphabet gives back the text. -/
theorem C26_text_hash_text (s : List Char) (hs : ∀ c ∈ s, c ∈ Spec.geohashChars)
    (hl : s.length ≤ 12) :
    ∃ h, decode32 s = .ok (h, s.length) ∧ h.toNat < 2 ^ (5 * s.length) ∧
      encode32 h s.length = s := decode32_of_mem s hs hl

example : (∀ c ∈ ['1', 'h'], c ∈ Spec.geohashChars) ∧ decode32 ['1', 'h'] = .ok (48#64, 2) := by
  decide

/-- C26: `validate` accepts exactly the texts over the alphabet; the text stops at the
first NUL character of the buffer. -/
theorem C26_validate (s : List Char) :
    validate s = true ↔ ∀ c ∈ s.takeWhile (· ≠ '\x00'), c ∈ Spec.geohashChars :=
  validate_iff s

/-- C26: decoding raises an exception exactly on the texts that are not valid, and
otherwise returns the number of characters before the first NUL. -/
theorem C26_decode_total (s : List Char) :
    (validate s = true → ∃ h, decode32 s = .ok (h, (s.takeWhile (· ≠ '\x00')).length)) ∧
    (validate s = false → decode32 s = .error .exn) := by
  rcases decode32Go_iff s 0#64 0 with ⟨⟨r, e1, e2⟩, e3⟩ | ⟨e1, e2⟩
  · refine ⟨fun _ => ⟨r.1, ?_⟩, fun h => (by rw [e3] at h; cases h)⟩
    unfold decode32
    rw [e1, ← Nat.zero_add (List.length _), ← e2]
  · exact ⟨fun h => (by rw [e2] at h; cases h), fun _ => e1⟩

example : validate ['1', 'h', '\x00'] = true ∧ validate ['1', 'a'] = false := by decide

/-- C26: a shorter code of the same point is a prefix of the text. -/
theorem C26_prefix (h : BitVec 64) (n k : Nat) :
    (encode32 h (n + k)).take n = encode32 (h >>> (5 * k)) n := encode32_take n k h

end Pyinterp
