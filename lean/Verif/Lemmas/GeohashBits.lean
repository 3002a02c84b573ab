import Verif.Model.Geohash
import Mathlib.Tactic.IntervalCases

/-
Bits of the interleaving functions.
-/
namespace Pyinterp.Geohash

theorem getLsbD_spread (x : BitVec 32) (i : Nat) (h : i < 64) :
    (spread x).getLsbD i = (decide (i % 2 = 0) && x.getLsbD (i / 2)) := by
  interval_cases i <;> simp [spread]


theorem getLsbD_squash (x : BitVec 64) (i : Nat) (h : i < 32) :
    (squash x).getLsbD i = x.getLsbD (2 * i) := by
  interval_cases i <;> simp [squash]

theorem getLsbD_pdep (x : BitVec 64) (i : Nat) (h : i < 64) :
    (pdepq x 0x5555555555555555#64).getLsbD i = (decide (i % 2 = 0) && x.getLsbD (i / 2)) := by
  unfold pdepq
  rw [BitVec.getLsbD_ofFnLE]
  interval_cases i <;> simp [rank]

theorem select_even (i : Nat) (h : i < 32) : select 0x5555555555555555#64 i 0 64 = 2 * i := by
  interval_cases i <;> decide +kernel

theorem select_odd (i : Nat) (h : i < 32) : select 0xAAAAAAAAAAAAAAAA#64 i 0 64 = 2 * i + 1 := by
  interval_cases i <;> decide +kernel

theorem getLsbD_pext_even (x : BitVec 64) (i : Nat) (h : i < 32) :
    (pextq x 0x5555555555555555#64).getLsbD i = x.getLsbD (2 * i) := by
  unfold pextq
  rw [BitVec.getLsbD_ofFnLE]
  simp [select_even i h, show i < 64 by omega]

theorem getLsbD_pext_odd (x : BitVec 64) (i : Nat) (h : i < 32) :
    (pextq x 0xAAAAAAAAAAAAAAAA#64).getLsbD i = x.getLsbD (2 * i + 1) := by
  unfold pextq
  rw [BitVec.getLsbD_ofFnLE]
  simp [select_odd i h, show i < 64 by omega]

theorem deinterleaveBim2_eq (x : BitVec 64) : deinterleaveBim2 x = deinterleave x := by
  unfold deinterleaveBim2 deinterleave
  congr 1
  · apply BitVec.eq_of_getLsbD_eq
    intro i hi
    rw [BitVec.getLsbD_setWidth, getLsbD_pext_even _ _ hi, getLsbD_squash _ _ hi]
    simp [hi]
  · apply BitVec.eq_of_getLsbD_eq
    intro i hi
    rw [BitVec.getLsbD_setWidth, getLsbD_pext_odd _ _ hi, getLsbD_squash _ _ hi]
    simp [hi, Nat.add_comm]

theorem deinterleaver_eq (cpu : Cpu) (x : BitVec 64) : deinterleaver cpu x = deinterleave x := by
  cases cpu
  · exact deinterleaveBim2_eq x
  · rfl

theorem pdep_eq_spread (x : BitVec 64) :
    pdepq x 0x5555555555555555#64 = spread (x.setWidth 32) := by
  apply BitVec.eq_of_getLsbD_eq
  intro i hi
  rw [getLsbD_pdep _ _ hi, getLsbD_spread _ _ hi, BitVec.getLsbD_setWidth]
  simp [show i / 2 < 32 by omega]

theorem getLsbD_interleave_even (x y : BitVec 32) (i : Nat) (h : i < 32) :
    (interleave x y).getLsbD (2 * i) = x.getLsbD i := by
  unfold interleave
  rw [BitVec.getLsbD_or, BitVec.getLsbD_shiftLeft, getLsbD_spread _ _ (by omega)]
  rcases Nat.eq_zero_or_pos i with rfl | hp
  · simp
  · rw [getLsbD_spread _ _ (by omega)]
    simp [show (2 * i - 1) % 2 = 1 by omega]

theorem getLsbD_interleave_odd (x y : BitVec 32) (i : Nat) (h : i < 32) :
    (interleave x y).getLsbD (2 * i + 1) = y.getLsbD i := by
  unfold interleave
  rw [BitVec.getLsbD_or, BitVec.getLsbD_shiftLeft, getLsbD_spread _ _ (by omega),
    getLsbD_spread _ _ (by omega)]
  simp [show (2 * i + 1) % 2 = 1 by omega]
  omega

theorem deinterleave_interleave (x y : BitVec 32) : deinterleave (interleave x y) = (x, y) := by
  unfold deinterleave
  congr 1
  · apply BitVec.eq_of_getLsbD_eq
    intro i hi
    rw [getLsbD_squash _ _ hi, getLsbD_interleave_even _ _ _ hi]
  · apply BitVec.eq_of_getLsbD_eq
    intro i hi
    rw [getLsbD_squash _ _ hi, BitVec.getLsbD_ushiftRight, Nat.add_comm,
      getLsbD_interleave_odd _ _ _ hi]

theorem interleave_deinterleave (z : BitVec 64) :
    interleave (deinterleave z).1 (deinterleave z).2 = z := by
  apply BitVec.eq_of_getLsbD_eq
  intro i hi
  unfold deinterleave
  rcases Nat.even_or_odd' i with ⟨k, rfl | rfl⟩
  · rw [getLsbD_interleave_even _ _ _ (by omega), getLsbD_squash _ _ (by omega)]
  · rw [getLsbD_interleave_odd _ _ _ (by omega), getLsbD_squash _ _ (by omega),
      BitVec.getLsbD_ushiftRight, Nat.add_comm]

end Pyinterp.Geohash
