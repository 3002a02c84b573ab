import Verif.Props.C60_GeohashRoundTrip
import Verif.Model.GeohashArray

/-
The cells enumerated for a box on the Earth, as a window of indices (used by C102 and C104).
-/
namespace Pyinterp.Geohash
open Pyinterp Spec

variable {K : Type} [Field K] [LinearOrder K] [IsStrictOrderedRing K] [FloorRing K]

theorem lies_mono {r : K} {n : Nat} {x y : K} {k l : Nat} (hr : 0 < r) (hxy : x ≤ y) (hx : Lies x r n k) (hy : Lies y r n l) :
    k ≤ l := by
  have hpos : (0 : K) < 2 ^ n := by positivity
  rcases hy.2.2 with h | ⟨_, h⟩
  · have h1 := lt_of_le_of_lt (le_trans hx.2.1 hxy) h
    have h2 : 2 * r * ((k : K) / 2 ^ n) < 2 * r * (((l : K) + 1) / 2 ^ n) := by linarith
    have h3 := lt_of_mul_lt_mul_left h2 (by positivity)
    have h4 := (div_lt_div_iff_of_pos_right hpos).1 h3
    have h5 : (k : K) < ((l + 1 : ℕ) : K) := by push_cast; exact h4
    have := Nat.cast_lt.1 h5
    omega
  · have := hx.1; omega

theorem lies_last {r : K} {n l : Nat} (hr : 0 < r) (hy : Lies r r n l) : l + 1 = 2 ^ n := by
  have hpos : (0 : K) < 2 ^ n := by positivity
  rcases hy.2.2 with h | h
  · exfalso
    have h' : ((l : K) + 1) / 2 ^ n ≤ 1 := by
      rw [div_le_one hpos]
      have : ((l + 1 : ℕ) : K) ≤ ((2 ^ n : ℕ) : K) := Nat.cast_le.2 hy.1
      push_cast at this
      exact this
    have := mul_le_mul_of_nonneg_left h' (by positivity : (0 : K) ≤ 2 * r)
    linarith
  · exact h.2

/-- The window of cells of a box. -/
theorem window (cpu : Cpu) (box : Box K) {p : Nat} (hp1 : 1 ≤ p) (hp : p ≤ 62) (h0 : OnEarth box.minCorner)
    (h1 : OnEarth box.maxCorner) (h2 : box.minCorner.lon ≤ box.maxCorner.lon) (h3 : box.minCorner.lat ≤ box.maxCorner.lat) :
    ∃ i j ni nj, gridProperties cpu box p = .ok (mkHash p i j, ni, nj) ∧ i < 2 ^ lonBits p ∧ j < 2 ^ latBits p ∧
      i + ni ≤ 2 ^ lonBits p ∧ j + nj ≤ 2 ^ latBits p := by
  obtain ⟨i, j, a, b⟩ := onEarth_lies (p := p) h0
  obtain ⟨i', j', c, d⟩ := onEarth_lies (p := p) h1
  have hii := lies_mono (by norm_num) h2 a c
  have hjj := lies_mono (by norm_num) h3 b d
  have hg := gridProperties_of cpu box hp1 hp a b c d hii hjj
  by_cases hs : i = i' ∧ j = j'
  · rw [if_pos hs] at hg
    exact ⟨i, j, 1, 1, hg, a.1, b.1, a.1, b.1⟩
  · rw [if_neg hs] at hg
    refine ⟨i, j, _, _, hg, a.1, b.1, ?_, ?_⟩
    · split
      · next e =>
        rw [e] at c
        have := lies_last (by norm_num) c
        omega
      · have := c.1; omega
    · split
      · next e =>
        rw [e] at d
        have := lies_last (by norm_num) d
        omega
      · have := d.1; omega

/-- The point used for the cell (lon, lat) of a window is in this cell. -/
theorem encode_window (cpu : Cpu) {p i j lon lat : Nat} (hp1 : 1 ≤ p) (hp : p ≤ 62) (hi : i + lon < 2 ^ lonBits p)
    (hj : j + lat < 2 ^ latBits p) :
    encode cpu (⟨mid 180 (lonBits p) (i : K) + (lon : K) * (2 * 180 * (1 / 2 ^ lonBits p)),
      mid 90 (latBits p) (j : K) + (lat : K) * (2 * 90 * (1 / 2 ^ latBits p))⟩ : Point K) p =
      .ok (mkHash p (i + lon) (j + lat)) := by
  apply encode_of_lies cpu hp1 (by omega)
  · have : mid 180 (lonBits p) (i : K) + (lon : K) * (2 * 180 * (1 / 2 ^ lonBits p)) =
        mid 180 (lonBits p) ((i + lon : ℕ) : K) := by unfold mid; push_cast; ring
    rw [this]
    exact mid_lies (by norm_num) (by omega)
  · have : mid 90 (latBits p) (j : K) + (lat : K) * (2 * 90 * (1 / 2 ^ latBits p)) =
        mid 90 (latBits p) ((j + lat : ℕ) : K) := by unfold mid; push_cast; ring
    rw [this]
    exact mid_lies (by norm_num) (by omega)

theorem strBoundingBox_cell (cpu : Cpu) {n i j : Nat} (hn1 : 1 ≤ n) (hn : n ≤ 12) (hi : i < 2 ^ lonBits (5 * n))
    (hj : j < 2 ^ latBits (5 * n)) :
    strBoundingBox cpu (encode32 (mkHash (5 * n) i j) n) = .ok (cellBox (5 * n) i j : Box K) := by
  unfold strBoundingBox
  rw [decode32_encode32 _ _ (shift_mkHash_lt (5 * n) i j (by omega))]
  exact boundingBox_mkHash cpu (by omega) (by omega) hi hj

theorem strDecode_cell (cpu : Cpu) {n i j : Nat} (hn1 : 1 ≤ n) (hn : n ≤ 12) (hi : i < 2 ^ lonBits (5 * n))
    (hj : j < 2 ^ latBits (5 * n)) :
    strDecode cpu (encode32 (mkHash (5 * n) i j) n) false =
      .ok (⟨mid 180 (lonBits (5 * n)) i, mid 90 (latBits (5 * n)) j⟩ : Point K) := by
  unfold strDecode
  rw [strBoundingBox_cell cpu hn1 hn hi hj]
  simp only [bind, Except.bind, pure, Except.pure, Bool.false_eq_true, if_false, cellBox_centroid]

/-- The row `lat` of a window. -/
def windowRow (n i j ni lat : Nat) : List (List Char) :=
  (List.range ni).map fun lon => encode32 (mkHash (5 * n) (i + lon) (j + lat)) n

/-- The codes of a window, row by row. -/
theorem strBoundingBoxes_window {cpu : Cpu} {box : Box K} {n i j ni nj : Nat} (hn1 : 1 ≤ n) (hn : n ≤ 12)
    (hg : gridProperties cpu box (5 * n) = .ok (mkHash (5 * n) i j, ni, nj)) (hi : i < 2 ^ lonBits (5 * n))
    (hj : j < 2 ^ latBits (5 * n)) (hni : i + ni ≤ 2 ^ lonBits (5 * n)) (hnj : j + nj ≤ 2 ^ latBits (5 * n)) :
    strBoundingBoxes cpu (some box) n = .ok ((List.range nj).map (windowRow n i j ni)).flatten := by
  unfold strBoundingBoxes
  rw [Option.getD_some, boundingBoxes_of (by omega) (by omega) hg hi hj hni hnj]
  simp only [bind, Except.bind, pure, Except.pure, gridCells, List.map_flatten, List.map_map]
  congr 3
  funext lat
  simp [windowRow]

end Pyinterp.Geohash
