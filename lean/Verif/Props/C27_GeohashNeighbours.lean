import Verif.Lemmas.GeohashGrid
import Mathlib.Data.Rat.Floor

/-
C27: neighbours of a geohash cell.
-/
namespace Pyinterp
open Geohash Spec

variable {K : Type} [Field K] [LinearOrder K] [IsStrictOrderedRing K] [FloorRing K]

theorem adjacent_step {p i j : Nat} {dx dy : ℤ}
    (h0 : 0 ≤ (j : ℤ) + dy) (h1 : (j : ℤ) + dy < 2 ^ latBits p) :
    Adjacent (cellBox p i j : Box K) (cellBox p (step (lonBits p) i dx) (step (latBits p) j dy))
      dx dy := by
  have hL : (0 : K) < 2 ^ lonBits p := by positivity
  have hB : (0 : K) < 2 ^ latBits p := by positivity
  unfold Adjacent cellBox
  simp only
  refine ⟨⟨-(((i : ℤ) + dx) / 2 ^ lonBits p), ?_⟩, ?_, ?_, ?_⟩
  · have e : ((step (lonBits p) i dx : ℕ) : ℤ) =
        (i : ℤ) + dx - 2 ^ lonBits p * (((i : ℤ) + dx) / 2 ^ lonBits p) := by
      unfold step
      rw [Int.toNat_of_nonneg (Int.emod_nonneg _ (by positivity)), Int.emod_def]
    have e' : ((step (lonBits p) i dx : ℕ) : K) =
        (i : K) + (dx : K) - 2 ^ lonBits p * ((((i : ℤ) + dx) / 2 ^ lonBits p : ℤ) : K) := by
      exact_mod_cast congrArg (Int.cast (R := K)) e
    rw [e']
    push_cast
    field_simp
    ring
  · have e := step_in h0 h1
    have e' : ((step (latBits p) j dy : ℕ) : K) = (j : K) + (dy : K) := by
      exact_mod_cast congrArg (Int.cast (R := K)) e
    rw [e']
    field_simp
    ring
  · ring
  · ring

theorem polar_iff {p i j : Nat} :
    ((cellBox p i j : Box K).maxCorner.lat < 90 → j + 1 ≠ 2 ^ latBits p) ∧
    (-90 < (cellBox p i j : Box K).minCorner.lat → 0 < j) := by
  have ey := edge_iff (b := latBits p) (k := j) (r := (90 : K)) (by norm_num)
  rw [show (2 : K) * 90 = 180 by norm_num] at ey
  constructor
  · intro h e
    have := ey.2 e
    unfold cellBox at h
    simp only at h
    linarith
  · intro h
    rcases Nat.eq_zero_or_pos j with rfl | h0
    · unfold cellBox at h
      simp at h
    · exact h0

/-- C27, with the BMI2 instructions: the neighbours of a cell are, in the order N, NE,
E, SE, S, SW, W, NW, the cells adjacent to it in these directions, with wrap-around in
longitude. At the poles there is no cell to the north (south): nothing is claimed for
these directions. -/
theorem C27_neighbors_bmi2 (hash : BitVec 64) (p : Nat) (hp1 : 1 ≤ p) (hp : p ≤ 62)
    (hh : hash.toNat < 2 ^ p) :
    ∃ (b : Box K) (ns : List (BitVec 64)), boundingBox .bmi2 hash p = .ok b ∧
      neighbors K .bmi2 hash p = .ok ns ∧ ns.length = 8 ∧
      ∀ (k : Nat) (dx dy : ℤ) (n : BitVec 64), compass[k]? = some (dx, dy) → ns[k]? = some n →
        (dy = 1 → b.maxCorner.lat < 90) → (dy = -1 → -90 < b.minCorner.lat) →
        ∃ bn, boundingBox .bmi2 n p = .ok bn ∧ Adjacent b bn dx dy := by
  obtain ⟨i, j, hi, hj, rfl⟩ := exists_mkHash p hash hp1 (by omega) hh
  refine ⟨_, _, boundingBox_mkHash .bmi2 hp1 hp hi hj, neighbors_bmi hp1 hp hi hj, rfl, ?_⟩
  intro k dx dy n hc hn hN hS
  have hd : dirs = compass := rfl
  rw [List.getElem?_map, hd, hc] at hn
  simp only [Option.map_some, Option.some.injEq] at hn
  subst hn
  refine ⟨_, boundingBox_mkHash .bmi2 hp1 hp (step_lt _ _ _) (step_lt _ _ _), ?_⟩
  have hdy : dy = -1 ∨ dy = 0 ∨ dy = 1 := by
    have := List.mem_of_getElem? hc
    simp only [compass, List.mem_cons, List.not_mem_nil, or_false, Prod.mk.injEq] at this
    omega
  have hj' : (j : ℤ) < 2 ^ latBits p := by exact_mod_cast hj
  obtain ⟨q1, q2⟩ := polar_iff (K := K) (p := p) (i := i) (j := j)
  apply adjacent_step
  · rcases hdy with h | h | h
    · have := q2 (hS h); omega
    · omega
    · omega
  · rcases hdy with h | h | h
    · omega
    · omega
    · have := q1 (hN h)
      have h3 : ((j : ℤ) + 1) ≠ 2 ^ latBits p := by exact_mod_cast this
      omega

example : ∃ b : Box ℚ, boundingBox .bmi2 48#64 6 = .ok b ∧ b.maxCorner.lat < 90 ∧
    -90 < b.minCorner.lat :=
  ⟨⟨⟨0, 0⟩, ⟨45, 45 / 2⟩⟩, by decide +kernel, by norm_num, by norm_num⟩

/-- C27, without the BMI2 instructions: only for the cells that touch neither a pole
nor the meridian 180. -/
theorem C27_neighbors_interior (cpu : Cpu) (hash : BitVec 64) (p : Nat) (hp1 : 1 ≤ p) (hp : p ≤ 62)
    (hh : hash.toNat < 2 ^ p) (b : Box K) (hb : boundingBox cpu hash p = .ok b)
    (h1 : -180 < b.minCorner.lon) (h2 : b.maxCorner.lon < 180) (h3 : -90 < b.minCorner.lat)
    (h4 : b.maxCorner.lat < 90) :
    ∃ ns : List (BitVec 64), neighbors K cpu hash p = .ok ns ∧ ns.length = 8 ∧
      ∀ (k : Nat) (dx dy : ℤ) (n : BitVec 64), compass[k]? = some (dx, dy) → ns[k]? = some n →
        ∃ bn, boundingBox cpu n p = .ok bn ∧ Adjacent b bn dx dy := by
  obtain ⟨i, j, hi, hj, rfl⟩ := exists_mkHash p hash hp1 (by omega) hh
  rw [boundingBox_mkHash cpu hp1 hp hi hj] at hb
  obtain rfl := Except.ok.inj hb
  obtain ⟨q1, q2⟩ := polar_iff (K := K) (p := p) (i := i) (j := j)
  have ex := edge_iff (b := lonBits p) (k := i) (r := (180 : K)) (by norm_num)
  rw [show (2 : K) * 180 = 360 by norm_num] at ex
  have r1 : i + 1 ≠ 2 ^ lonBits p := by
    intro e
    have := ex.2 e
    unfold cellBox at h2
    simp only at h2
    linarith
  have r2 : 0 < i := by
    rcases Nat.eq_zero_or_pos i with rfl | h0
    · unfold cellBox at h1
      simp at h1
    · exact h0
  have s1 := q1 h4
  have s2 := q2 h3
  refine ⟨_, neighbors_interior cpu hp1 hp r2 (by omega) s2 (by omega), rfl, ?_⟩
  intro k dx dy n hc hn
  have hd : dirs = compass := rfl
  rw [List.getElem?_map, hd, hc] at hn
  simp only [Option.map_some, Option.some.injEq] at hn
  subst hn
  refine ⟨_, boundingBox_mkHash cpu hp1 hp (step_lt _ _ _) (step_lt _ _ _), ?_⟩
  have hdy : dy = -1 ∨ dy = 0 ∨ dy = 1 := by
    have := List.mem_of_getElem? hc
    simp only [compass, List.mem_cons, List.not_mem_nil, or_false, Prod.mk.injEq] at this
    omega
  have hj' : (j : ℤ) + 1 < 2 ^ latBits p := by
    have : j + 1 < 2 ^ latBits p := by omega
    exact_mod_cast this
  apply adjacent_step <;> omega

example : ∃ b : Box ℚ, boundingBox .portable 48#64 6 = .ok b ∧ -180 < b.minCorner.lon ∧
    b.maxCorner.lon < 180 ∧ -90 < b.minCorner.lat ∧ b.maxCorner.lat < 90 :=
  ⟨⟨⟨0, 0⟩, ⟨45, 45 / 2⟩⟩, by decide +kernel, by norm_num, by norm_num, by norm_num, by norm_num⟩

/-- C27, where it stops: without BMI2 the western and southern cells have no defined
neighbours and the eastern neighbour of the last column is the cell itself; with BMI2
the northern neighbour of a polar cell is the cell of the opposite pole. -/
theorem C27_border :
    neighbors ℚ .portable 0#64 6 = .error .ub ∧
    (∃ ns, neighbors ℚ .portable 58#64 6 = .ok ns ∧ ns[2]? = some 58#64) ∧
    (∃ ns, neighbors ℚ .bmi2 63#64 6 = .ok ns ∧ ns[0]? = some 42#64 ∧
      (boundingBox .bmi2 63#64 6 : Out (Box ℚ)) = .ok ⟨⟨135, 135 / 2⟩, ⟨180, 90⟩⟩ ∧
      (boundingBox .bmi2 42#64 6 : Out (Box ℚ)) = .ok ⟨⟨135, -90⟩, ⟨180, -135 / 2⟩⟩) := by
  refine ⟨by decide +kernel, ?_, ?_⟩
  · exact ⟨[59#64, 59#64, 58#64, 47#64, 47#64, 45#64, 56#64, 57#64], by decide +kernel, rfl⟩
  · exact ⟨[42#64, 0#64, 21#64, 20#64, 62#64, 60#64, 61#64, 40#64], by decide +kernel, rfl,
      by decide +kernel, by decide +kernel⟩

end Pyinterp
