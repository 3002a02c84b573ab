import Verif.Props.C103_CodeArrays
import Verif.Model.GridPy

/-
C104. `GeoHash.grid`: the codes of a box as a grid, with the coordinates of its rows and columns.
-/
set_option linter.unusedSectionVars false
namespace Pyinterp.Geohash
open Pyinterp Spec GridPy

variable {K : Type} [Field K] [LinearOrder K] [IsStrictOrderedRing K] [FloorRing K]

theorem reshape_flatten {α : Type} (rows : List (List α)) (m : Nat) (h : ∀ r ∈ rows, r.length = m) :
    reshape rows.length m rows.flatten = rows := by
  unfold reshape
  apply List.ext_getElem?
  intro k
  rw [List.getElem?_map]
  by_cases hk : k < rows.length
  · rw [List.getElem?_range hk, List.getElem?_eq_getElem hk, Option.map_some]
    congr 1
    induction rows generalizing k with
    | nil => simp at hk
    | cons r rows ih =>
      have hr := h r (by simp)
      cases k with
      | zero =>
        rw [Nat.zero_mul, List.drop_zero, List.flatten_cons, List.take_left' hr]
        rfl
      | succ k =>
        rw [List.flatten_cons, Nat.succ_mul, Nat.add_comm, ← List.drop_drop, List.drop_left' hr]
        exact ih (fun s hs => h s (by simp [hs])) k (by simpa using hk)
  · rw [List.getElem?_eq_none (by simpa using hk), List.getElem?_eq_none (by simpa using hk)]
    rfl

theorem mid_strictMono {r : K} {b : Nat} (hr : 0 < r) {k l : Nat} (h : k < l) : mid r b (k : K) < mid r b (l : K) := by
  unfold mid
  have hpos : (0 : K) < 2 ^ b := by positivity
  have h1 : (k : K) < l := Nat.cast_lt.2 h
  have h2 : ((k : K) + 1 / 2) / 2 ^ b < ((l : K) + 1 / 2) / 2 ^ b := (div_lt_div_iff_of_pos_right hpos).2 (by linarith)
  have := mul_lt_mul_of_pos_left h2 (by positivity : (0 : K) < 2 * r)
  linarith

/-- The grid of a window. -/
theorem codeGrid_window {cpu : Cpu} {box : Option (Box K)} {n i j ni nj : Nat} (hn1 : 1 ≤ n) (hn : n ≤ 12)
    (hg : gridProperties cpu (box.getD ⟨⟨-180, -90⟩, ⟨180, 90⟩⟩) (5 * n) = .ok (mkHash (5 * n) i j, ni, nj))
    (hi : i < 2 ^ lonBits (5 * n)) (hj : j < 2 ^ latBits (5 * n)) (hni : i + ni ≤ 2 ^ lonBits (5 * n))
    (hnj : j + nj ≤ 2 ^ latBits (5 * n)) :
    codeGrid cpu box n = if nj = 0 ∨ ni = 0 then .error .exn else
      .ok { codes := ((List.range nj).map (windowRow n i j ni)).reverse
            lon := (List.range ni).map fun k => mid 180 (lonBits (5 * n)) ((i + k : ℕ) : K)
            lat := ((List.range nj).map fun k => mid 90 (latBits (5 * n)) ((j + k : ℕ) : K)).reverse
            lonUnits := "degrees_north", latUnits := "degrees_east" } := by
  have hall := strBoundingBoxes_window hn1 hn hg hi hj hni hnj
  have hlen : (((List.range nj).map (windowRow n i j ni)).flatten).length = nj * ni := by
    rw [List.length_flatten, List.map_map]
    have : (List.length ∘ windowRow n i j ni) = fun _ => ni := by
      funext lat; simp [windowRow]
    rw [this]
    simp
  have hre : reshape nj ni (((List.range nj).map (windowRow n i j ni)).flatten) = (List.range nj).map (windowRow n i j ni) := by
    have := reshape_flatten ((List.range nj).map (windowRow n i j ni)) ni (by
      intro r hr
      obtain ⟨lat, -, rfl⟩ := List.mem_map.1 hr
      simp [windowRow])
    rwa [List.length_map, List.length_range] at this
  unfold codeGrid
  dsimp only
  rw [show n * 5 = 5 * n by omega, hg]
  simp only [bind, Except.bind]
  unfold checkedBoxes
  rw [if_neg (by omega), hall]
  simp only
  unfold codeGridOf
  rw [if_neg (by rw [hlen]; simp)]
  by_cases h0 : nj = 0 ∨ ni = 0
  · rw [if_pos h0, if_pos h0]
  · rw [if_neg h0, if_neg h0]
    simp only [bind, Except.bind, pure, Except.pure]
    have hj0 : 0 < nj := by omega
    have hi0 : 0 < ni := by omega
    rw [hre]
    have hlast : (((List.range nj).map (windowRow n i j ni)).reverse).getLastD [] = windowRow n i j ni 0 := by
      obtain ⟨m, rfl⟩ : ∃ m, nj = m + 1 := ⟨nj - 1, by omega⟩
      rw [List.range_succ_eq_map, List.map_cons, List.reverse_cons, List.getLastD_concat]
    rw [hlast]
    have hl1 : (windowRow n i j ni 0).mapM (fun s => (strDecode cpu s false : Out (Point K))) =
        .ok ((List.range ni).map fun k => ⟨mid 180 (lonBits (5 * n)) ((i + k : ℕ) : K), mid 90 (latBits (5 * n)) (j : K)⟩) := by
      rw [mapM_forall₂, windowRow, List.forall₂_map_left_iff, List.forall₂_map_right_iff, List.forall₂_same]
      intro k hk
      rw [List.mem_range] at hk
      exact strDecode_cell cpu hn1 hn (by omega) (by omega)
    have hl2 : (((List.range nj).map (windowRow n i j ni)).reverse.map fun r => r.headD []).mapM
        (fun s => (strDecode cpu s false : Out (Point K))) =
        .ok (((List.range nj).map fun k => (⟨mid 180 (lonBits (5 * n)) (i : K), mid 90 (latBits (5 * n)) ((j + k : ℕ) : K)⟩ : Point K)).reverse) := by
      rw [mapM_forall₂, List.map_reverse, List.forall₂_reverse_iff, List.map_map, List.forall₂_map_left_iff,
        List.forall₂_map_right_iff, List.forall₂_same]
      intro k hk
      rw [List.mem_range] at hk
      have : ((fun r : List (List Char) => r.headD []) ∘ windowRow n i j ni) k = encode32 (mkHash (5 * n) (i + 0) (j + k)) n := by
        obtain ⟨m, rfl⟩ : ∃ m, ni = m + 1 := ⟨ni - 1, by omega⟩
        simp only [Function.comp, windowRow]
        rw [List.range_succ_eq_map, List.map_cons]
        rfl
      rw [this]
      exact strDecode_cell cpu hn1 hn (by omega) (by omega)
    rw [hl1]
    simp only
    rw [hl2]
    simp only
    congr 2
    · rw [List.map_map]; rfl
    · rw [List.map_reverse, List.map_map]; rfl

/-- **C104** The grid of the codes of a box. When no code is returned for the box, the function fails (`IndexError`). Otherwise:
read from its last row to its first one, each row from left to right, it holds exactly the codes of the box (C61), in the same
order; all rows have the length of `lon`, there are as many rows as values in `lat`; the code of the row i and the column j
is that of a cell whose centre is (lon[j], lat[i]); `lon` increases, `lat` decreases. -/
theorem C104_grid (cpu : Cpu) (box : Option (Box K)) (n : Nat) (hn1 : 1 ≤ n) (hn : n ≤ 12)
    (bb : Box K) (hbb : bb = box.getD ⟨⟨-180, -90⟩, ⟨180, 90⟩⟩)
    (h0 : OnEarth bb.minCorner) (h1 : OnEarth bb.maxCorner) (h2 : bb.minCorner.lon ≤ bb.maxCorner.lon)
    (h3 : bb.minCorner.lat ≤ bb.maxCorner.lat) :
    ∃ all, strBoundingBoxes cpu (some bb) n = .ok all ∧
      (all = [] → codeGrid cpu box n = .error .exn) ∧
      (all ≠ [] → ∃ g : CodeGrid K, codeGrid cpu box n = .ok g ∧ g.codes.reverse.flatten = all ∧
        g.codes.length = g.lat.length ∧ (∀ r ∈ g.codes, r.length = g.lon.length) ∧
        g.lon.Pairwise (· < ·) ∧ g.lat.Pairwise (· > ·) ∧
        ∀ (i j : ℕ) (r : List (List Char)) (c : List Char), g.codes[i]? = some r → r[j]? = some c →
          ∃ x y, g.lon[j]? = some x ∧ g.lat[i]? = some y ∧ strDecode cpu c false = .ok ⟨x, y⟩) := by
  obtain ⟨i, j, ni, nj, hg, hi, hj, hni, hnj⟩ := window cpu bb (p := 5 * n) (by omega) (by omega) h0 h1 h2 h3
  refine ⟨_, strBoundingBoxes_window hn1 hn hg hi hj hni hnj, ?_, ?_⟩
  · intro he
    rw [hbb] at hg
    rw [codeGrid_window hn1 hn hg hi hj hni hnj, if_pos]
    by_contra hh
    have hl := congrArg List.length he
    rw [List.length_flatten, List.map_map] at hl
    have : (List.length ∘ windowRow n i j ni) = fun _ => ni := by
      funext lat; simp [windowRow]
    rw [this] at hl
    simp at hl
    omega
  · intro he
    have hne : ¬ (nj = 0 ∨ ni = 0) := by
      rintro (rfl | rfl)
      · exact he rfl
      · apply he
        simp [windowRow]
    rw [hbb] at hg
    refine ⟨_, by rw [codeGrid_window hn1 hn hg hi hj hni hnj, if_neg hne], ?_, ?_, ?_, ?_, ?_, ?_⟩
    · simp only [List.reverse_reverse]
    · simp
    · intro r hr
      rw [List.mem_reverse] at hr
      obtain ⟨lat, -, rfl⟩ := List.mem_map.1 hr
      simp [windowRow]
    · rw [List.pairwise_map]
      exact List.pairwise_lt_range.imp fun h => mid_strictMono (by norm_num) (by omega)
    · rw [List.pairwise_reverse, List.pairwise_map]
      exact List.pairwise_lt_range.imp fun h => mid_strictMono (by norm_num) (by omega)
    · intro a b r c hr hc
      simp only at hr ⊢
      have ha : a < nj := by
        have := (List.getElem?_eq_some_iff.1 hr).1
        simpa using this
      rw [List.getElem?_reverse (by simpa using ha)] at hr ⊢
      simp only [List.length_map, List.length_range, List.getElem?_map] at hr ⊢
      rw [List.getElem?_range (by omega : nj - 1 - a < nj)] at hr ⊢
      simp only [Option.map_some, Option.some.injEq] at hr ⊢
      subst hr
      unfold windowRow at hc
      rw [List.getElem?_map] at hc
      have hb : b < ni := by
        by_contra hb
        rw [List.getElem?_eq_none (by simpa using hb)] at hc
        cases hc
      rw [List.getElem?_range hb] at hc ⊢
      simp only [Option.map_some, Option.some.injEq] at hc ⊢
      subst hc
      exact ⟨_, _, rfl, rfl, strDecode_cell cpu hn1 hn (by omega) (by omega)⟩

/-- **C104** Without a box: the grid of the whole Earth holds each code of the precision, once. -/
theorem C104_whole_earth (cpu : Cpu) (n : Nat) (hn1 : 1 ≤ n) (hn : n ≤ 12) :
    ∃ g : CodeGrid K, codeGrid cpu none n = .ok g ∧ g.codes.reverse.flatten.Nodup ∧
      ∀ u, (∃ r ∈ g.codes, u ∈ r) ↔ IsCode n u := by
  obtain ⟨out, ho, hnd, hm⟩ := C61_whole_earth (K := K) cpu n hn1 hn
  obtain ⟨all, ha, -, hg⟩ := C104_grid (K := K) cpu none n hn1 hn ⟨⟨-180, -90⟩, ⟨180, 90⟩⟩ rfl
    (by unfold OnEarth; norm_num) (by unfold OnEarth; norm_num) (by norm_num) (by norm_num)
  have : all = out := by
    have e : strBoundingBoxes (K := K) cpu (some ⟨⟨-180, -90⟩, ⟨180, 90⟩⟩) n = strBoundingBoxes (K := K) cpu none n := rfl
    rw [e, ho] at ha
    exact (Except.ok.inj ha).symm
  subst this
  have hne : all ≠ [] := by
    intro e
    have := (hm (encode32 0#64 n)).2 (isCode_encode32 n _)
    rw [e] at this
    cases this
  obtain ⟨g, hg1, hg2, -⟩ := hg hne
  refine ⟨g, hg1, by rw [hg2]; exact hnd, fun u => ?_⟩
  rw [← hm u, ← hg2, List.mem_flatten]
  constructor
  · rintro ⟨r, hr, hu⟩; exact ⟨r, List.mem_reverse.2 hr, hu⟩
  · rintro ⟨r, hr, hu⟩; exact ⟨r, List.mem_reverse.1 hr, hu⟩

/-- **C104, what is false** The units of the coordinates are exchanged: the longitudes have a unit of latitude, the latitudes a unit
of longitude, so that the interface of xarray (C96) takes one for the other. -/
theorem C104_units_false (cpu : Cpu) (box : Option (Box K)) (n : Nat) (g : CodeGrid K) (h : codeGrid cpu box n = .ok g) :
    g.lonUnits ∈ latitudeUnits ∧ g.lonUnits ∉ longitudeUnits ∧ g.latUnits ∈ longitudeUnits ∧ g.latUnits ∉ latitudeUnits := by
  have : g.lonUnits = "degrees_north" ∧ g.latUnits = "degrees_east" := by
    unfold codeGrid at h
    obtain ⟨p, -, h⟩ := bind_inv h
    obtain ⟨codes, -, h⟩ := bind_inv h
    unfold codeGridOf at h
    split at h
    · cases h
    split at h
    · cases h
    obtain ⟨lons, -, h⟩ := bind_inv h
    obtain ⟨lats, -, h⟩ := bind_inv h
    have := Except.ok.inj h
    subst this
    exact ⟨rfl, rfl⟩
  rw [this.1, this.2]
  decide

/-- The hypotheses are met: a box of the Earth with codes, and one without any code. -/
example : strBoundingBoxes .bmi2 (some (⟨⟨0, 0⟩, ⟨100, 50⟩⟩ : Box ℚ)) 1 = .ok [['s'], ['t']] ∧
    strBoundingBoxes .bmi2 (some (⟨⟨10, 0⟩, ⟨20, 50⟩⟩ : Box ℚ)) 1 = .ok [] ∧
    OnEarth (⟨0, 0⟩ : Point ℚ) ∧ OnEarth (⟨100, 50⟩ : Point ℚ) := by
  refine ⟨by decide +kernel, by decide +kernel, by unfold OnEarth; norm_num, by unfold OnEarth; norm_num⟩

end Pyinterp.Geohash
