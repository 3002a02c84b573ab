import Verif.Lemmas.GeohashWindow

/-
C102. `geohash.bounding_boxes` of a polygon or of several polygons: the codes of the cells that meet the geometry.
-/
set_option linter.unusedSectionVars false
namespace Pyinterp.Geohash
open Pyinterp Spec

variable {K : Type} [Field K] [LinearOrder K] [IsStrictOrderedRing K] [FloorRing K]

theorem maskCell_window (cpu : Cpu) (I : Box K → Bool) {n i j ni nj : Nat} (hn1 : 1 ≤ n) (hn : n ≤ 12)
    (hni : i + ni ≤ 2 ^ lonBits (5 * n)) (hnj : j + nj ≤ 2 ^ latBits (5 * n)) :
    maskCell cpu I (2 * 180 * (1 / 2 ^ lonBits (5 * n)), 2 * 90 * (1 / 2 ^ latBits (5 * n)))
      ⟨mid 180 (lonBits (5 * n)) (i : K), mid 90 (latBits (5 * n)) (j : K)⟩ ni nj (5 * n) =
      .ok ((List.range nj).map fun lat => (List.range ni).map fun lon => I (cellBox (5 * n) (i + lon) (j + lat))) := by
  unfold maskCell
  apply mapM_ok
  intro lat hlat
  rw [List.mem_range] at hlat
  apply mapM_ok
  intro lon hlon
  rw [List.mem_range] at hlon
  simp only
  rw [encode_window cpu (by omega) (by omega) (by omega) (by omega)]
  simp only [bind, Except.bind]
  rw [boundingBox_mkHash cpu (by omega) (by omega) (by omega) (by omega)]
  rfl

theorem filter_rows {α : Type} (P : α → Bool) (l : List α) :
    (l.map fun a => if P a then [a] else []).flatten = l.filter P := by
  induction l with
  | nil => rfl
  | cons a l ih =>
    rw [List.map_cons, List.flatten_cons, ih, List.filter_cons]
    by_cases h : P a = true
    · rw [if_pos h, if_pos h]; rfl
    · rw [if_neg h, if_neg h]; rfl

/-- The test of the cell of a code. -/
def meets (cpu : Cpu) (I : Box K → Bool) (s : List Char) : Bool :=
  match (strBoundingBox cpu s : Out (Box K)) with
  | .ok b => I b
  | .error _ => false

theorem geometryBoxes_window {cpu : Cpu} {env : Box K} (I : Box K → Bool) {n i j ni nj : Nat} (hn1 : 1 ≤ n) (hn : n ≤ 12)
    (hg : gridProperties cpu env (5 * n) = .ok (mkHash (5 * n) i j, ni, nj)) (hi : i < 2 ^ lonBits (5 * n))
    (hj : j < 2 ^ latBits (5 * n)) (hni : i + ni ≤ 2 ^ lonBits (5 * n)) (hnj : j + nj ≤ 2 ^ latBits (5 * n)) :
    geometryBoxes cpu env I n = .ok ((((List.range nj).map (windowRow n i j ni)).flatten).filter (meets cpu I)) := by
  unfold geometryBoxes
  rw [if_neg (by omega), show n * 5 = 5 * n by omega]
  dsimp only
  rw [hg]
  simp only [bind, Except.bind, decode, boundingBox_mkHash (K := K) cpu (by omega : 1 ≤ 5 * n) (by omega) hi hj, pure, Except.pure,
    cellBox_centroid, errorWithPrecision_eq, Bool.false_eq_true, if_false]
  rw [maskCell_window cpu I hn1 hn hni hnj]
  simp only
  unfold selectCell
  have hrow : ∀ lat < nj, ∀ lon < ni,
      selectOne cpu (2 * 180 * (1 / 2 ^ lonBits (5 * n)), 2 * 90 * (1 / 2 ^ latBits (5 * n)))
        ⟨mid 180 (lonBits (5 * n)) (i : K), mid 90 (latBits (5 * n)) (j : K)⟩ (5 * n) n
        ((List.range nj).map fun lat => (List.range ni).map fun lon => I (cellBox (5 * n) (i + lon) (j + lat))) lat lon =
      .ok (if meets cpu I (encode32 (mkHash (5 * n) (i + lon) (j + lat)) n) = true
        then [encode32 (mkHash (5 * n) (i + lon) (j + lat)) n] else []) := by
    intro lat hlat lon hlon
    have hm : meets cpu I (encode32 (mkHash (5 * n) (i + lon) (j + lat)) n) = I (cellBox (5 * n) (i + lon) (j + lat)) := by
      unfold meets
      rw [strBoundingBox_cell cpu hn1 hn (by omega) (by omega)]
    rw [hm]
    unfold selectOne
    have : (((List.range nj).map fun lat => (List.range ni).map fun lon => I (cellBox (5 * n) (i + lon) (j + lat))).getD lat
        []).getD lon false = I (cellBox (5 * n) (i + lon) (j + lat)) := by
      simp [List.getD_eq_getElem?_getD, hlat, hlon]
    rw [this]
    by_cases hI : I (cellBox (5 * n) (i + lon) (j + lat)) = true
    · rw [if_pos hI, if_pos hI]
      simp only
      rw [encode_window cpu (by omega) (by omega) (by omega) (by omega)]
      rfl
    · rw [if_neg hI, if_neg hI]
  rw [mapM_ok _ (fun lat => (List.range ni).map fun lon =>
      if meets cpu I (encode32 (mkHash (5 * n) (i + lon) (j + lat)) n) = true
        then [encode32 (mkHash (5 * n) (i + lon) (j + lat)) n] else [])]
  · simp only [bind, Except.bind, pure, Except.pure]
    congr 1
    rw [List.filter_flatten, List.flatten_flatten, List.map_map, List.map_map]
    congr 2
    funext lat
    simp only [Function.comp]
    rw [← filter_rows (meets cpu I) (windowRow n i j ni lat)]
    unfold windowRow
    rw [List.map_map]
    rfl
  · intro lat hlat
    rw [List.mem_range] at hlat
    apply mapM_ok
    intro lon hlon
    rw [List.mem_range] at hlon
    exact hrow lat hlat lon hlon

/-- **C102** The codes returned for a geometry are, in the same order, the codes returned for its envelope (C61) whose cell meets
the geometry. -/
theorem C102_filter (cpu : Cpu) (env : Box K) (I : Box K → Bool) (n : Nat) (hn1 : 1 ≤ n) (hn : n ≤ 12)
    (h0 : OnEarth env.minCorner) (h1 : OnEarth env.maxCorner) (h2 : env.minCorner.lon ≤ env.maxCorner.lon)
    (h3 : env.minCorner.lat ≤ env.maxCorner.lat) :
    ∃ all out, strBoundingBoxes cpu (some env) n = .ok all ∧ geometryBoxes cpu env I n = .ok out ∧
      ∀ P : List Char → Bool, (∀ s ∈ all, P s = true ↔ ∃ b : Box K, strBoundingBox cpu s = .ok b ∧ I b = true) →
        out = all.filter P := by
  obtain ⟨i, j, ni, nj, hg, hi, hj, hni, hnj⟩ := window cpu env (p := 5 * n) (by omega) (by omega) h0 h1 h2 h3
  refine ⟨_, _, strBoundingBoxes_window hn1 hn hg hi hj hni hnj, geometryBoxes_window I hn1 hn hg hi hj hni hnj, ?_⟩
  intro P hP
  apply List.filter_congr
  intro s hs
  rw [Bool.eq_iff_iff, hP s hs]
  unfold meets
  constructor
  · intro h
    cases hb : (strBoundingBox cpu s : Out (Box K)) with
    | ok b => rw [hb] at h; exact ⟨b, rfl, h⟩
    | error e => rw [hb] at h; cases h
  · rintro ⟨b, hb, h⟩
    rw [hb]; exact h

/-- **C102** Which codes are returned, when the corners of the envelope are not in the same cell: each code of the precision,
once, whose cell meets the geometry and has its north-east corner in the envelope (east of its western side, north of its
southern side). Missing from the full property ("the cells that meet the geometry"): the cells of the last column and of the
last row (`C102_false_missing`). -/
theorem C102_which_partial (cpu : Cpu) (env : Box K) (I : Box K → Bool) (n : Nat) (hn1 : 1 ≤ n) (hn : n ≤ 12)
    (h0 : OnEarth env.minCorner) (h1 : OnEarth env.maxCorner) (h2 : env.minCorner.lon ≤ env.maxCorner.lon)
    (h3 : env.minCorner.lat ≤ env.maxCorner.lat) (h4 : env.minCorner.lon < 180) (h5 : env.minCorner.lat < 90)
    (hne : encode cpu env.minCorner (5 * n) ≠ encode cpu env.maxCorner (5 * n)) :
    ∃ out, geometryBoxes cpu env I n = .ok out ∧ out.Nodup ∧
      ∀ s, s ∈ out ↔ IsCode n s ∧ ∃ b : Box K, strBoundingBox cpu s = .ok b ∧ I b = true ∧
        env.minCorner.lon < b.maxCorner.lon ∧ b.maxCorner.lon ≤ env.maxCorner.lon ∧
        env.minCorner.lat < b.maxCorner.lat ∧ b.maxCorner.lat ≤ env.maxCorner.lat := by
  obtain ⟨all, out, ha, ho, hf⟩ := C102_filter cpu env I n hn1 hn h0 h1 h2 h3
  obtain ⟨hs, hb, hnd, hm⟩ := C61_bounding_boxes_partial cpu env (5 * n) (by omega) (by omega) h0 h1 h2 h3 h4 h5 hne
  have hall : all = hs.map fun h => encode32 h n := by
    unfold strBoundingBoxes at ha
    rw [Option.getD_some, hb] at ha
    simp only [bind, Except.bind, pure, Except.pure] at ha
    exact (Except.ok.inj ha).symm
  have hlt : ∀ h ∈ hs, h.toNat < 2 ^ (5 * n) := fun h hh => ((hm h).1 hh).1
  have hout := hf (meets cpu I) (by
    intro s _
    unfold meets
    constructor
    · intro h
      cases hb' : (strBoundingBox cpu s : Out (Box K)) with
      | ok b => rw [hb'] at h; exact ⟨b, rfl, h⟩
      | error e => rw [hb'] at h; cases h
    · rintro ⟨b, hb', h⟩
      rw [hb']; exact h)
  refine ⟨out, ho, ?_, fun s => ?_⟩
  · rw [hout, hall]
    refine List.Nodup.filter _ (List.Nodup.map_on ?_ hnd)
    intro x hx y hy h
    exact encode32_inj (hlt x hx) (hlt y hy) h
  · rw [hout, List.mem_filter, hall, List.mem_map]
    constructor
    · rintro ⟨⟨h, hh, rfl⟩, hme⟩
      obtain ⟨g1, b, g2, g3, g4, g5, g6⟩ := (hm h).1 hh
      have hb2 : strBoundingBox cpu (encode32 h n) = .ok b := by
        unfold strBoundingBox
        rw [decode32_encode32 _ _ g1]
        exact g2
      unfold meets at hme
      rw [hb2] at hme
      exact ⟨isCode_encode32 n h, b, hb2, hme, g3, g4, g5, g6⟩
    · rintro ⟨hc, b, hb2, hI, g⟩
      obtain ⟨w, e1, e2, e3⟩ := isCode_hash hc hn
      refine ⟨⟨w, (hm w).2 ⟨e2, b, ?_, g⟩, e3⟩, ?_⟩
      · unfold strBoundingBox at hb2
        rw [e1] at hb2
        exact hb2
      · unfold meets
        rw [hb2]; exact hI

/-- **C102** When the corners of the envelope are in the same cell, this cell is the only candidate. -/
theorem C102_single (cpu : Cpu) (env : Box K) (I : Box K → Bool) (n : Nat) (hn1 : 1 ≤ n) (hn : n ≤ 12)
    (h0 : OnEarth env.minCorner) (h1 : OnEarth env.maxCorner)
    (heq : encode cpu env.minCorner (5 * n) = encode cpu env.maxCorner (5 * n)) :
    ∃ (s : List Char) (b : Box K), strEncode cpu env.minCorner n = .ok s ∧ strBoundingBox cpu s = .ok b ∧
      geometryBoxes cpu env I n = .ok (if I b = true then [s] else []) := by
  obtain ⟨i, j, a, b⟩ := onEarth_lies (p := 5 * n) h0
  obtain ⟨i', j', c, d⟩ := onEarth_lies (p := 5 * n) h1
  have e1 : encode cpu env.minCorner (5 * n) = _ := encode_of_lies cpu (by omega) (by omega) a b
  have e2 : encode cpu env.maxCorner (5 * n) = _ := encode_of_lies cpu (by omega) (by omega) c d
  rw [e1, e2] at heq
  obtain ⟨rfl, rfl⟩ := mkHash_inj (by omega) (by omega) a.1 b.1 c.1 d.1 (Except.ok.inj heq)
  have hg := gridProperties_of cpu env (by omega) (by omega) a b c d le_rfl le_rfl
  rw [if_pos ⟨rfl, rfl⟩] at hg
  have hw := geometryBoxes_window I hn1 hn hg a.1 b.1 a.1 b.1
  refine ⟨_, _, ?_, strBoundingBox_cell cpu hn1 hn a.1 b.1, ?_⟩
  · unfold strEncode
    rw [e1]
    rfl
  · rw [hw]
    congr 1
    have : ((List.range 1).map (windowRow n i j 1)).flatten = [encode32 (mkHash (5 * n) i j) n] := by
      simp [windowRow]
    rw [this, List.filter_cons, List.filter_nil]
    have hm : meets cpu I (encode32 (mkHash (5 * n) i j) n) = I (cellBox (5 * n) i j) := by
      unfold meets
      rw [strBoundingBox_cell cpu hn1 hn a.1 b.1]
    rw [hm]

/-- Precisions above 12 are refused; the precision 0 is not, and shifts by 64 bits. -/
theorem C102_precision (cpu : Cpu) (env : Box K) (I : Box K → Bool) (n : Nat) :
    (12 < n → geometryBoxes cpu env I n = .error .exn) ∧
    (geometryBoxes .bmi2 env I 0 = .error .ub) := by
  constructor
  · intro h
    unfold geometryBoxes
    rw [if_pos h]
  · rfl

/-- The rectangle of corners (x0, y0), (x1, y1) meets the box. -/
def rectangle (x0 y0 x1 y1 : ℚ) (b : Box ℚ) : Bool :=
  b.minCorner.lon ≤ x1 && x0 ≤ b.maxCorner.lon && b.minCorner.lat ≤ y1 && y0 ≤ b.maxCorner.lat

/-- **C102, what is false** Cells that meet the geometry are missing: for the rectangle (0, 0), (100, 50), the cell of its
north-east corner; for the rectangle (10, 0), (20, 50), both cells that it meets, so that nothing is returned. -/
theorem C102_false_missing :
    (∃ out s b, geometryBoxes .bmi2 ⟨⟨0, 0⟩, ⟨100, 50⟩⟩ (rectangle 0 0 100 50) 1 = .ok out ∧
      strEncode .bmi2 (⟨100, 50⟩ : Point ℚ) 1 = .ok s ∧ strBoundingBox .bmi2 s = .ok b ∧ rectangle 0 0 100 50 b = true ∧
      s ∉ out) ∧
    geometryBoxes .bmi2 ⟨⟨10, 0⟩, ⟨20, 50⟩⟩ (rectangle 10 0 20 50) 1 = .ok [] := by
  refine ⟨⟨[['s'], ['t']], ['y'], ⟨⟨90, 45⟩, ⟨135, 90⟩⟩, ?_, ?_, ?_, ?_, ?_⟩, ?_⟩ <;> decide +kernel

/-- **C102, what is false** A geometry across the 180° meridian, whose envelope ends at 190°: the number of columns is negative and
is converted to an unsigned number (undefined behaviour), on a CPU with BMI2. -/
theorem C102_false_dateline (I : Box ℚ → Bool) : geometryBoxes .bmi2 ⟨⟨170, 0⟩, ⟨190, 10⟩⟩ I 1 = .error .ub := by
  have h : gridProperties .bmi2 (⟨⟨170, 0⟩, ⟨190, 10⟩⟩ : Box ℚ) 5 = .error .ub := by decide +kernel
  unfold geometryBoxes
  rw [if_neg (by omega), show 1 * 5 = 5 from rfl]
  dsimp only
  rw [h]
  rfl

/-- The hypotheses are met: the triangle-like test "the south-west corner of the cell is below the diagonal". -/
example : ∃ out, geometryBoxes .bmi2 (⟨⟨0, 0⟩, ⟨180, 90⟩⟩ : Box ℚ)
      (fun b => decide (b.minCorner.lat ≤ b.minCorner.lon)) 1 = .ok out ∧
    OnEarth (⟨0, 0⟩ : Point ℚ) ∧ OnEarth (⟨180, 90⟩ : Point ℚ) ∧
    encode .bmi2 (⟨0, 0⟩ : Point ℚ) 5 ≠ encode .bmi2 (⟨180, 90⟩ : Point ℚ) 5 ∧ out.length = 7 := by
  have h : ∃ out, geometryBoxes .bmi2 (⟨⟨0, 0⟩, ⟨180, 90⟩⟩ : Box ℚ)
      (fun b => decide (b.minCorner.lat ≤ b.minCorner.lon)) 1 = .ok out ∧ out.length = 7 := by
    refine ⟨[['s'], ['t'], ['w'], ['x'], ['v'], ['y'], ['z']], by decide +kernel, rfl⟩
  obtain ⟨out, h1, h2⟩ := h
  exact ⟨out, h1, by unfold OnEarth; norm_num, by unfold OnEarth; norm_num, by decide +kernel, h2⟩

end Pyinterp.Geohash
