import Mathlib.Data.Rat.Floor
import Verif.Model.Orbit
import Verif.Props.C87_Swath

/-
C89: the arrays of `pyinterp.orbit.calculate_swath`: across track distances, mask, central pixel.
-/
namespace Pyinterp
open Pyinterp.Passes

section
set_option linter.unusedSectionVars false
variable {K : Type} [Field K] [LinearOrder K] [IsStrictOrderedRing K] [FloorRing K]

/-- C89. The across track distances (kilometres) of a swath: `2 n` of them, `n - 1` steps of the across track resolution fit between the
half gap and the half swath; the column `n + j` is at `half_gap + j * along_track_resolution`, the column `n - 1 - j` at the opposite. -/
theorem C89_distances (acr alr hs gap : K) (h : 0 < acr) (hg : gap ≤ hs) :
    ∃ (n : Nat) (x : List K), acrossTrack acr alr hs gap = .ok ((n : Int), x) ∧ x.length = 2 * n ∧ 1 ≤ n ∧
      gap + ((n : K) - 1) * acr ≤ hs ∧ hs < gap + (n : K) * acr ∧
      ∀ j, j < n → x[n + j]? = some (gap + (j : K) * alr) ∧ x[n - 1 - j]? = some (-(gap + (j : K) * alr)) := by
  have hq : 0 ≤ (hs - gap) / acr := div_nonneg (by linarith) h.le
  have hfl : 0 ≤ ⌊(hs - gap) / acr⌋ := Int.floor_nonneg.mpr hq
  obtain ⟨m, hm⟩ := Int.eq_ofNat_of_zero_le hfl
  have ht : trunc ((hs - gap) / acr) + 1 = ((m + 1 : Nat) : Int) := by
    unfold trunc; rw [if_neg (not_lt.mpr hq), hm]; push_cast; rfl
  have b1 : (m : K) ≤ (hs - gap) / acr := by
    have := Int.floor_le ((hs - gap) / acr); rw [hm] at this; exact_mod_cast this
  have b2 : (hs - gap) / acr < (m : K) + 1 := by
    have := Int.lt_floor_add_one ((hs - gap) / acr); rw [hm] at this; exact_mod_cast this
  rw [le_div_iff₀ h] at b1
  rw [div_lt_iff₀ h] at b2
  refine ⟨m + 1, (((List.range (m + 1)).map fun (j : Nat) => (j : K) * alr + gap).map fun v => -v).reverse ++
    (List.range (m + 1)).map fun (j : Nat) => (j : K) * alr + gap, ?_, ?_, by omega, ?_, ?_, ?_⟩
  · unfold acrossTrack
    rw [if_neg h.ne']
    dsimp only
    rw [ht, Int.toNat_natCast]
  · simp; omega
  · push_cast; linarith
  · push_cast; linarith
  · intro j hj
    constructor
    · rw [List.getElem?_append_right (by simp)]
      simp only [List.length_reverse, List.length_map, List.length_range]
      rw [show m + 1 + j - (m + 1) = j by omega, List.getElem?_map, List.getElem?_range hj]
      simp [add_comm]
    · rw [List.getElem?_append_left (by simp), List.getElem?_reverse (by simp)]
      simp only [List.length_map, List.length_range]
      rw [show m + 1 - 1 - (m + 1 - 1 - j) = j by omega, List.getElem?_map, List.getElem?_map, List.getElem?_range hj]
      simp [add_comm]

/-- Finding (C89): the distances announced use the along track resolution, the pixels the across track resolution (C87: the pixel of the
column `n + j` is turned by `half_gap + j * across_track_resolution`): they differ for every column but the first one when the
resolutions differ. -/
theorem C89_resolution_false (acr alr hs gap : K) (h : 0 < acr) (hg : gap ≤ hs) (hne : acr ≠ alr) :
    ∃ (n : Nat) (x : List K), acrossTrack acr alr hs gap = .ok ((n : Int), x) ∧
      ∀ j, 1 ≤ j → j < n → x[n + j]? ≠ some (gap + (j : K) * acr) := by
  obtain ⟨n, x, h1, _, _, _, _, h2⟩ := C89_distances acr alr hs gap h hg
  refine ⟨n, x, h1, ?_⟩
  intro j hj1 hj
  rw [(h2 j hj).1]
  intro hc
  have hjk : (j : K) ≠ 0 := by exact_mod_cast (by omega : j ≠ 0)
  have : (j : K) * alr = (j : K) * acr := by
    have := Option.some.inj hc
    linarith
  exact hne (mul_left_cancel₀ hjk this).symm

/-- C89. The defaults: 2 km for the resolutions and the half gap, 70 km for the half swath. Finding: a half gap of zero (a swath that
begins at the nadir) cannot be asked for, it is replaced by 2 km. -/
theorem C89_zero_gap_false : orNum (some (0 : K)) 2 = orNum none 2 ∧ ∀ v : K, v ≠ 0 → orNum (some v) 2 = v := by
  refine ⟨by simp [orNum], fun v hv => by simp [orNum, hv]⟩

/-- C89. The mask: 1 for the pixels whose distance to the nadir is between the bounds, NaN for the others (the documentation says that
the mask is true outside of the bounds). -/
theorem C89_mask (lo hi x : K) :
    (lo ≤ |x| ∧ |x| ≤ hi → maskPixel lo hi x = some 1) ∧ (¬ (lo ≤ |x| ∧ |x| ≤ hi) → maskPixel lo hi x = none) := by
  unfold maskPixel
  exact ⟨fun h => if_pos h, fun h => if_neg h⟩

end

/-- C89. `insert_central_pixel` on a line of `2 n` pixels: the line has `2 n + 1` pixels, the pixel in the middle is the new one, the
other ones are unchanged and in the same order. -/
theorem C89_central {T : Type} (row : List T) (n : Nat) (h : row.length = 2 * n) (v : T) :
    let r := insertLine row (centralPixel row.length) v
    r.length = 2 * n + 1 ∧ r[n]? = some v ∧ (∀ j, j < n → (r[j]?) = (row[j]?)) ∧ (∀ j, n ≤ j → (r[j + 1]?) = (row[j]?)) := by
  have hc : centralPixel row.length = n := by unfold centralPixel; omega
  intro r
  have hr : r = row.take n ++ v :: row.drop n := by
    show insertLine row (centralPixel row.length) v = _
    rw [hc]; rfl
  rw [hr]
  have hl : (row.take n).length = n := by rw [List.length_take]; omega
  refine ⟨by simp; omega, ?_, ?_, ?_⟩
  · rw [List.getElem?_append_right (by omega), hl]; simp
  · intro j hj
    rw [List.getElem?_append_left (by omega), List.getElem?_take_of_lt hj]
  · intro j hj
    rw [List.getElem?_append_right (by omega), hl, show j + 1 - n = (j - n) + 1 by omega]
    simp only [List.getElem?_cons_succ, List.getElem?_drop]
    congr 1; omega

/-- Finding (C89): a half swath shorter than the half gap by two resolutions or more gives a negative number of pixels: the arrays of
`calculate_swath` are created with a negative size (undefined behaviour), with at least three nadir points. -/
theorem C89_negative_false (bits : Nat) (lon lat : List ℝ) (hl : lon.length = lat.length) (hn : 3 ≤ lon.length) (acr alr hs gap : ℝ)
    (h : 0 < acr) (hg : hs + 2 * acr ≤ gap) (sph : Option Geodetic.Spheroid) :
    ∃ (n : Int) (x : List ℝ), acrossTrack acr alr hs gap = .ok (n, x) ∧ n < 0 ∧
      Swath.calculateSwath bits lon lat (acr * 1000) (gap * 1000) n sph = .error .ub := by
  have hq : (hs - gap) / acr ≤ -2 := by rw [div_le_iff₀ h]; linarith
  have ht : trunc ((hs - gap) / acr) + 1 < 0 := by
    unfold trunc
    rw [if_pos (by linarith)]
    have : ⌈(hs - gap) / acr⌉ ≤ -2 := by rw [Int.ceil_le]; exact_mod_cast hq
    omega
  refine ⟨_, _, by unfold acrossTrack; rw [if_neg h.ne'], ht, ?_⟩
  unfold Swath.calculateSwath
  rw [if_neg (by simpa using hl)]
  set loc := Swath.locations bits (Geodetic.Coordinates.make (some (sph.getD Geodetic.Spheroid.wgs84))) lon lat with hloc
  have hll : ¬ loc.length < 3 := by
    rw [hloc]; unfold Swath.locations; rw [List.length_map, List.length_zip]; omega
  have hs : ∃ d, Swath.satelliteDirection loc = .ok d := by
    unfold Swath.satelliteDirection; dsimp only; rw [if_neg hll]; exact ⟨_, rfl⟩
  obtain ⟨d, hd⟩ := hs
  show (do let dir ← Swath.satelliteDirection loc; _) = _
  rw [hd]
  show (if _ then _ else _) = _
  rw [if_pos ht]

/-- The default swath: 35 pixels on each side, from 2 to 70 km. -/
example : ∃ x : List ℚ, acrossTrack (2 : ℚ) 2 70 2 = .ok (35, x) ∧ x.length = 70 ∧ (x[69]?) = some 70 ∧ (x[0]?) = some (-70 : ℚ) ∧
    (x[35]?) = some 2 :=
  ⟨(((List.range 35).map fun (j : Nat) => (j : ℚ) * 2 + 2).map fun v => -v).reverse ++
    (List.range 35).map fun (j : Nat) => (j : ℚ) * 2 + 2, by decide +kernel, by decide +kernel, by decide +kernel, by decide +kernel,
    by decide +kernel⟩

end Pyinterp
