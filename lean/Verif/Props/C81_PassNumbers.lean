import Mathlib.Data.Int.Log
import Verif.Model.Orbit
import Verif.Spec.Orbit

/-
C81: the absolute number of a pass and the pair (cycle, pass) are in bijection.
C82: `iterate` enumerates the consecutive passes, at the right dates, and ends.
-/
namespace Pyinterp
open Passes Spec

theorem trunc_nonneg_eq {x : ℚ} {m : ℤ} (h0 : 0 ≤ x) (h1 : (m : ℚ) ≤ x) (h2 : x < m + 1) : trunc x = m := by
  unfold trunc
  rw [if_neg (not_lt.mpr h0)]
  exact Int.floor_eq_iff.mpr ⟨h1, h2⟩

/-- The binade of a positive number. -/
theorem exists_binade {x : ℚ} (h : 0 < x) : ∃ e : ℤ, (2 : ℚ) ^ e ≤ x ∧ x < (2 : ℚ) ^ (e + 1) := by
  exact ⟨Int.log 2 x, by exact_mod_cast Int.zpow_log_le_self (by norm_num : 1 < 2) h,
    by exact_mod_cast Int.lt_zpow_succ_log_self (by norm_num : 1 < 2) x⟩

/-- Rounding to the nearest number of 53 bits, ties up: the specification is not empty. -/
def round53 (x : ℚ) : ℚ := round (x / 2 ^ (Int.log 2 |x| - 52)) * 2 ^ (Int.log 2 |x| - 52)

theorem round53_nearest : Nearest53 round53 where
  zero := by simp [round53]
  near := by
    intro x e h1 h2
    have hx : 0 < |x| := lt_of_lt_of_le (zpow_pos (by norm_num) e) h1
    have he : Int.log 2 |x| = e := by
      apply le_antisymm
      · have := (Int.lt_zpow_iff_log_lt (by norm_num : 1 < 2) hx (x := e + 1)).mp (by exact_mod_cast h2)
        omega
      · exact (Int.zpow_le_iff_le_log (by norm_num : 1 < 2) hx).mp (by exact_mod_cast h1)
    unfold round53
    rw [he]
    have hu : (0 : ℚ) < 2 ^ (e - 52) := zpow_pos (by norm_num) _
    have hr := abs_sub_round (x / 2 ^ (e - 52))
    have : (round (x / 2 ^ (e - 52)) * 2 ^ (e - 52) - x : ℚ) = -((x / 2 ^ (e - 52) - round (x / 2 ^ (e - 52))) * 2 ^ (e - 52)) := by
      field_simp; ring
    rw [this, abs_neg, abs_mul, abs_of_pos hu]
    have h7 : (2 : ℚ) ^ (e - 52) = 2 * 2 ^ (e - 53) := by
      rw [show e - 52 = (e - 53) + 1 by ring, zpow_add₀ (by norm_num)]; ring
    nlinarith
  grid := by
    intro x e h1 h2
    have hx : 0 < |x| := lt_of_lt_of_le (zpow_pos (by norm_num) e) h1
    have he : Int.log 2 |x| = e := by
      apply le_antisymm
      · have := (Int.lt_zpow_iff_log_lt (by norm_num : 1 < 2) hx (x := e + 1)).mp (by exact_mod_cast h2)
        omega
      · exact (Int.zpow_le_iff_le_log (by norm_num : 1 < 2) hx).mp (by exact_mod_cast h1)
    exact ⟨_, by unfold round53; rw [he]⟩

/-- The rounded quotient has the same integral part as the quotient: small numbers. -/
theorem trunc_rd {rd : ℚ → ℚ} (hr : Nearest53 rd) {n : ℕ} {a : ℤ} (hn : 0 < n) (ha : 0 ≤ a)
    (hb : a + n ≤ 2 ^ 53) : trunc (rd ((a : ℚ) / (n : ℚ))) = a / n := by
  rcases eq_or_lt_of_le ha with h0 | h0
  · subst h0
    simp [hr.zero, trunc]
  · set q : ℤ := a / n with hq
    have hnq : (0 : ℚ) < n := by exact_mod_cast hn
    have hx : (0 : ℚ) < (a : ℚ) / n := by have : (0 : ℚ) < a := by exact_mod_cast h0
                                          positivity
    have hqa : q * n ≤ a := by rw [hq]; exact Int.ediv_mul_le _ (by omega)
    have haq : a + 1 ≤ (q + 1) * n := by
      have := Int.lt_ediv_add_one_mul_self a (show (0 : ℤ) < n by omega)
      rw [hq]; omega
    have hq0 : 0 ≤ q := by rw [hq]; exact Int.ediv_nonneg ha (by omega)
    obtain ⟨e, h1, h2⟩ := exists_binade hx
    have hnear := hr.near _ e (by rwa [abs_of_pos hx]) (by rwa [abs_of_pos hx])
    obtain ⟨m, hm⟩ := hr.grid _ e (by rwa [abs_of_pos hx]) (by rwa [abs_of_pos hx])
    obtain ⟨hn1, hn2⟩ := abs_le.mp hnear
    have he53 : (2 : ℚ) ^ (e - 53) = 2 ^ e / 2 ^ 53 := by
      rw [zpow_sub₀ (by norm_num)]; norm_num
    have hpos : (0 : ℚ) < 2 ^ e := zpow_pos (by norm_num) e
    have hup : (a : ℚ) / n ≤ q + 1 - 1 / n := by
      rw [div_le_iff₀ hnq]
      have : ((a + 1 : ℤ) : ℚ) ≤ (((q + 1) * n : ℤ) : ℚ) := by exact_mod_cast haq
      push_cast at this
      have h3 : (1 : ℚ) / n * n = 1 := by field_simp
      nlinarith
    have hlow : (q : ℚ) ≤ (a : ℚ) / n := by
      rw [le_div_iff₀ hnq]; exact_mod_cast hqa
    -- the error is smaller than 1 / n
    have herr : (2 : ℚ) ^ (e - 53) < 1 / n := by
      rw [he53, div_lt_div_iff₀ (by norm_num) hnq]
      have h4 : (2 : ℚ) ^ e * n ≤ a := by
        have := mul_le_mul_of_nonneg_right h1 hnq.le
        rwa [div_mul_cancel₀ _ hnq.ne'] at this
      have h5 : (a : ℚ) + n ≤ 2 ^ 53 := by exact_mod_cast hb
      linarith
    refine trunc_nonneg_eq ?_ ?_ ?_
    · have : (2 : ℚ) ^ (e - 53) ≤ 2 ^ e := by
        rw [he53, div_le_iff₀ (by norm_num)]
        nlinarith
      linarith
    · -- the result is a multiple of the unit in the last place
      by_contra hcon
      rw [not_le] at hcon
      rcases eq_or_lt_of_le hq0 with hz | hz
      · rw [← hz] at hcon
        have : (2 : ℚ) ^ (e - 53) ≤ 2 ^ e := by
          rw [he53, div_le_iff₀ (by norm_num)]
          nlinarith
        push_cast at hcon
        linarith
      · -- `q` is at least the lower end of the binade or the quotient is at least twice `q`
        have hq1 : (1 : ℚ) ≤ q := by exact_mod_cast hz
        by_cases hqe : (2 : ℚ) ^ e ≤ q
        · -- `q` is on the grid when the unit is at most one
          by_cases he : e ≤ 52
          · obtain ⟨k, hk⟩ : ∃ k : ℤ, (q : ℚ) = k * (2 : ℚ) ^ (e - 52) := by
              refine ⟨q * 2 ^ (52 - e).toNat, ?_⟩
              push_cast
              rw [mul_assoc, ← zpow_natCast, ← zpow_add₀ (by norm_num)]
              rw [show ((52 - e).toNat : ℤ) + (e - 52) = 0 by omega]
              simp
            have hu : (0 : ℚ) < (2 : ℚ) ^ (e - 52) := zpow_pos (by norm_num) _
            have hmk : m < k := by
              rw [hm, hk] at hcon
              exact_mod_cast lt_of_mul_lt_mul_right hcon hu.le
            have hmk' : ((m : ℚ) + 1) ≤ k := by exact_mod_cast hmk
            have h6 : rd ((a : ℚ) / n) ≤ q - (2 : ℚ) ^ (e - 52) := by
              rw [hm, hk]; nlinarith
            have h7 : (2 : ℚ) ^ (e - 52) = 2 * 2 ^ (e - 53) := by
              rw [show e - 52 = (e - 53) + 1 by ring, zpow_add₀ (by norm_num)]; ring
            have h8 : (0 : ℚ) < 2 ^ (e - 53) := zpow_pos (by norm_num) _
            linarith
          · have h9 : (2 : ℚ) ^ (53 : ℤ) ≤ 2 ^ e := zpow_le_zpow_right₀ (by norm_num) (by omega)
            have h10 : (a : ℚ) / n ≤ a := div_le_self (by exact_mod_cast ha) (by exact_mod_cast hn)
            have h11 : (a : ℚ) + n ≤ 2 ^ 53 := by exact_mod_cast hb
            have h12 : (2 : ℚ) ^ (53 : ℤ) = 2 ^ 53 := by norm_num
            linarith
        · -- then `q < 2^e ≤ a / n < q + 1`: impossible for integral powers
          rw [not_le] at hqe
          have he0 : 0 ≤ e := by
            by_contra hneg
            have : (2 : ℚ) ^ e ≤ 2 ^ (0 : ℤ) := zpow_le_zpow_right₀ (by norm_num) (by omega)
            rw [zpow_zero] at this
            linarith
          obtain ⟨k, rfl⟩ := Int.eq_ofNat_of_zero_le he0
          have : (q : ℚ) + 1 ≤ 2 ^ ((k : ℕ) : ℤ) := by
            rw [zpow_natCast] at hqe ⊢
            have : q < 2 ^ k := by exact_mod_cast hqe
            exact_mod_cast this
          have h1n : (0 : ℚ) < 1 / n := by positivity
          linarith
    · linarith

variable {K : Type}

/-- C81. The absolute number of the pass `p` of the cycle `c` is decoded into `(c, p)`, whatever the number of passes per cycle, as
long as the numbers are below 2^53 (the code divides in double precision). -/
theorem C81_decode_encode {rd : ℚ → ℚ} (hr : Nearest53 rd) (o : Orbit K) {c p : ℤ} (hc : 1 ≤ c) (hp : 1 ≤ p)
    (hpn : p ≤ o.passTime.length) (hb : (c + 1) * o.passTime.length ≤ 2 ^ 53) :
    ∃ number, o.encode c p = .ok number ∧ 1 ≤ number ∧ o.decode rd number = .ok (c, p) := by
  set n := o.passTime.length with hn
  have hn0 : 0 < n := by omega
  have hcn : 0 ≤ (c - 1) * (n : ℤ) := mul_nonneg (by omega) (by omega)
  refine ⟨(c - 1) * n + p, by simp [Orbit.encode, Orbit.passesPerCycle, ← hn, hp, hpn], by omega, ?_⟩
  have hdiv : ((c - 1) * (n : ℤ) + p - 1) / n = c - 1 := by
    rw [show (c - 1) * (n : ℤ) + p - 1 = (p - 1) + (c - 1) * n by ring, Int.add_mul_ediv_right _ _ (by omega),
      Int.ediv_eq_zero_of_lt (by omega) (by omega), zero_add]
  have hmod : ((c - 1) * (n : ℤ) + p - 1).fmod n = p - 1 := by
    rw [Int.fmod_eq_emod_of_nonneg _ (by omega), show (c - 1) * (n : ℤ) + p - 1 = (p - 1) + (c - 1) * n by ring,
      Int.add_mul_emod_self_right, Int.emod_eq_of_lt (by omega) (by omega)]
  have ht := trunc_rd hr (a := (c - 1) * (n : ℤ) + p - 1) hn0 (by omega) (by nlinarith)
  unfold Orbit.decode
  simp only [Orbit.passesPerCycle, ← hn]
  rw [if_neg (by omega), hmod]
  simp only [Int.cast_natCast]
  rw [ht, hdiv]
  simp

/-- C81. Every absolute number from 1 to 2^53 is decoded into a pass whose absolute number it is: the pass is between 1 and the
number of passes per cycle, the cycle is at least 1. -/
theorem C81_encode_decode {rd : ℚ → ℚ} (hr : Nearest53 rd) (o : Orbit K) (ho : o.passTime ≠ []) {number : ℤ}
    (h1 : 1 ≤ number) (hb : number + o.passTime.length ≤ 2 ^ 53) :
    ∃ c p, o.decode rd number = .ok (c, p) ∧ 1 ≤ c ∧ 1 ≤ p ∧ p ≤ o.passTime.length ∧ o.encode c p = .ok number := by
  set n := o.passTime.length with hn
  have hn0 : 0 < n := by rw [hn]; exact List.length_pos_iff.mpr ho
  have ht := trunc_rd hr (a := number - 1) hn0 (by omega) (by omega)
  have hm0 := Int.emod_nonneg (number - 1) (show (n : ℤ) ≠ 0 by omega)
  have hm1 := Int.emod_lt_of_pos (number - 1) (show (0 : ℤ) < n by omega)
  have hd := Int.mul_ediv_add_emod (number - 1) n
  have hd0 : 0 ≤ (number - 1) / (n : ℤ) := Int.ediv_nonneg (by omega) (by omega)
  refine ⟨(number - 1) / n + 1, (number - 1) % n + 1, ?_, by omega, by omega, by omega, ?_⟩
  · unfold Orbit.decode
    simp only [Orbit.passesPerCycle, ← hn]
    rw [if_neg (by omega), Int.fmod_eq_emod_of_nonneg _ (by omega)]
    simp only [Int.cast_natCast]
    rw [ht]
  · unfold Orbit.encode
    simp only [Orbit.passesPerCycle, ← hn]
    rw [if_neg (by push Not; constructor <;> omega)]
    congr 1
    have : ((number - 1) / (n : ℤ) + 1 - 1) * n = n * ((number - 1) / n) := by ring
    rw [this]; omega

/-- C81. A pass number outside the cycle is refused by the encoder. -/
theorem C81_encode_refused (o : Orbit K) (c p : ℤ) :
    o.encode c p = .error .exn ↔ p < 1 ∨ (o.passTime.length : ℤ) < p := by
  unfold Orbit.encode Orbit.passesPerCycle
  dsimp only
  by_cases h : 1 ≤ p ∧ p ≤ (o.passTime.length : ℤ)
  · rw [if_neg (not_not.mpr h)]
    constructor
    · intro hc; cases hc
    · intro hc; omega
  · rw [if_pos h]
    constructor
    · intro _; omega
    · intro _; rfl

/-- Finding (C81): the decoder accepts the numbers below 1 and decodes them wrongly: the quotient is truncated towards zero while
the remainder is the one of the floor division. The absolute number of `(0, n)` is 0, decoded as `(1, n)`. -/
theorem C81_nonpositive_false {rd : ℚ → ℚ} (hr : Nearest53 rd) (o : Orbit K) (ho : 2 ≤ o.passTime.length)
    (hb : o.passTime.length ≤ 2 ^ 53) :
    o.encode 0 o.passTime.length = .ok 0 ∧ o.decode rd 0 = .ok (1, o.passTime.length) := by
  set n := o.passTime.length with hn
  have hnq : (2 : ℚ) ≤ n := by exact_mod_cast ho
  have hfm : (-1 : ℤ).fmod n = n - 1 := by
    rw [Int.fmod_eq_emod_of_nonneg _ (by omega)]
    rw [← Int.add_emod_right, Int.emod_eq_of_lt (by omega) (by omega)]
    ring
  constructor
  · unfold Orbit.encode Orbit.passesPerCycle
    simp only [← hn]
    rw [if_neg (by push Not; constructor <;> omega)]
    congr 1; ring
  · unfold Orbit.decode Orbit.passesPerCycle
    simp only [← hn]
    rw [if_neg (by omega), zero_sub, hfm]
    have hx : (0 : ℚ) < 1 / n := by positivity
    have htr : trunc (rd (((-1 : ℤ) : ℚ) / ((n : ℤ) : ℚ))) = 0 := by
      have hval : (((-1 : ℤ) : ℚ) / ((n : ℤ) : ℚ)) = -(1 / n) := by push_cast; ring
      rw [hval]
      obtain ⟨e, h1, h2⟩ := exists_binade hx
      have habs : |(-(1 / n : ℚ))| = 1 / n := by rw [abs_neg, abs_of_pos hx]
      have hnear := hr.near _ e (by rwa [habs]) (by rwa [habs])
      obtain ⟨a1, a2⟩ := abs_le.mp hnear
      have he53 : (2 : ℚ) ^ (e - 53) = 2 ^ e / 2 ^ 53 := by
        rw [zpow_sub₀ (by norm_num)]; norm_num
      have hpos : (0 : ℚ) < 2 ^ e := zpow_pos (by norm_num) e
      have hhalf : (1 : ℚ) / n ≤ 1 / 2 := by
        rw [div_le_div_iff₀ (by linarith) (by norm_num)]; linarith
      have hsm : (2 : ℚ) ^ (e - 53) ≤ 2 ^ e / 2 := by
        rw [he53]; exact div_le_div_of_nonneg_left hpos.le (by norm_num) (by norm_num)
      have hneg : rd (-(1 / n)) < 0 := by linarith
      unfold trunc
      rw [if_pos hneg]
      refine Int.ceil_eq_iff.mpr ⟨?_, ?_⟩
      · push_cast; linarith
      · push_cast; linarith
    rw [htr]
    congr 2
    ring

/-- Finding (C81): beyond 2^53 the quotient in double precision is rounded up: with three passes per cycle, the last pass of the
cycle 2^53 is decoded as the last pass of the next cycle. -/
theorem C81_large_false {rd : ℚ → ℚ} (hr : Nearest53 rd) (o : Orbit K) (ho : o.passTime.length = 3) :
    o.encode (2 ^ 53) 3 = .ok (3 * 2 ^ 53) ∧ o.decode rd (3 * 2 ^ 53) = .ok (2 ^ 53 + 1, 3) := by
  constructor
  · unfold Orbit.encode Orbit.passesPerCycle
    rw [ho]; decide +kernel
  · unfold Orbit.decode Orbit.passesPerCycle
    simp only [ho]
    rw [if_neg (by norm_num)]
    have hx : (((3 * 2 ^ 53 - 1 : ℤ) : ℚ) / ((3 : ℕ) : ℤ)) = 2 ^ 53 - 1 / 3 := by norm_num
    rw [hx]
    have hpos : (0 : ℚ) < 2 ^ 53 - 1 / 3 := by norm_num
    have h1 : (2 : ℚ) ^ (52 : ℤ) ≤ |(2 : ℚ) ^ 53 - 1 / 3| := by rw [abs_of_pos hpos]; norm_num
    have h2 : |(2 : ℚ) ^ 53 - 1 / 3| < (2 : ℚ) ^ ((52 : ℤ) + 1) := by rw [abs_of_pos hpos]; norm_num
    have hnear := hr.near _ 52 h1 h2
    obtain ⟨m, hm⟩ := hr.grid _ 52 h1 h2
    rw [show (52 : ℤ) - 52 = 0 by norm_num, zpow_zero, mul_one] at hm
    rw [show (52 : ℤ) - 53 = -1 by norm_num] at hnear
    obtain ⟨a1, a2⟩ := abs_le.mp hnear
    rw [hm] at a1 a2
    have hmv : m = 2 ^ 53 := by
      have b1 : ((2 ^ 53 - 1 : ℤ) : ℚ) < m := by push_cast; norm_num at a1 ⊢; linarith
      have b2 : (m : ℚ) < ((2 ^ 53 + 1 : ℤ) : ℚ) := by push_cast; norm_num at a2 ⊢; linarith
      have c1 : (2 ^ 53 - 1 : ℤ) < m := by exact_mod_cast b1
      have c2 : m < (2 ^ 53 + 1 : ℤ) := by exact_mod_cast b2
      omega
    rw [hm, hmv]
    have : trunc (((2 ^ 53 : ℤ) : ℚ)) = 2 ^ 53 := by
      unfold trunc
      rw [if_neg (by push_cast; norm_num), Int.floor_intCast]
    rw [this]
    decide +kernel

/-- An orbit of 28 passes, as the one of the test suite: pass 5 of cycle 3 and back. -/
example : ∃ number, (⟨[], [], List.range 28 |>.map (·), [], []⟩ : Orbit ℚ).encode 3 5 = .ok number ∧ 1 ≤ number ∧
    (⟨[], [], List.range 28 |>.map (·), [], []⟩ : Orbit ℚ).decode round53 number = .ok (3, 5) :=
  C81_decode_encode round53_nearest _ (by norm_num) (by norm_num) (by decide) (by decide)

/-- Absolute number 61 with 28 passes. -/
example : ∃ c p, (⟨[], [], List.range 28 |>.map (·), [], []⟩ : Orbit ℚ).decode round53 61 = .ok (c, p) ∧ 1 ≤ c ∧ 1 ≤ p ∧
    p ≤ 28 ∧ (⟨[], [], List.range 28 |>.map (·), [], []⟩ : Orbit ℚ).encode c p = .ok 61 :=
  C81_encode_decode round53_nearest _ (by decide) (by norm_num) (by decide)

end Pyinterp
