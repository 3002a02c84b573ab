import Verif.Props.C104_CodeGrid
import Verif.Model.GeohashConvert
import Verif.Lemmas.Progression

/-
C105. `geohash.to_xarray`: data attached to geohash codes, put in a grid of the whole Earth.
-/
set_option linter.unusedSectionVars false
namespace Pyinterp.Geohash
open Pyinterp Spec GridPy

variable {K : Type} [Field K] [LinearOrder K] [IsStrictOrderedRing K] [FloorRing K]

theorem unique_eq {l p : List K} (hp : p.Pairwise (· < ·)) (h : ∀ x, x ∈ l ↔ x ∈ p) : unique l = p := by
  unfold unique
  have hnd : p.Nodup := hp.imp fun h => ne_of_lt h
  have hperm : (l.dedup.insertionSort (· ≤ ·)).Perm p := by
    refine (List.perm_insertionSort _ _).trans ((List.perm_ext_iff_of_nodup (List.nodup_dedup _) hnd).2 fun x => ?_)
    rw [List.mem_dedup, h]
  exact hperm.eq_of_pairwise (le := (· ≤ ·)) (fun a b _ _ h1 h2 => le_antisymm h1 h2)
    (List.pairwise_insertionSort _ _) (hp.imp le_of_lt)

/-- The centres of the cells, along one direction. -/
def centres (r : K) (b : Nat) : List K := (List.range (2 ^ b)).map fun (k : ℕ) => mid r b (k : K)

theorem centres_eq (r : K) (b : Nat) : centres r b = regCoords (mid r b 0) (2 * r / 2 ^ b) (2 ^ b) := by
  unfold centres regCoords
  apply List.map_congr_left
  intro k _
  unfold mid
  ring

theorem centres_get {r : K} {b k : Nat} (h : k < 2 ^ b) : (centres r b)[k]? = some (mid r b (k : K)) := by
  unfold centres
  rw [List.getElem?_map, List.getElem?_range h]; rfl

theorem centres_pairwise {r : K} (hr : 0 < r) (b : Nat) : (centres r b).Pairwise (· < ·) := by
  unfold centres
  rw [List.pairwise_map]
  exact List.pairwise_lt_range.imp fun h => mid_strictMono hr h

theorem mid_range {r : K} {b k : Nat} (hr : 0 < r) (h : k < 2 ^ b) : -r < mid r b (k : K) ∧ mid r b (k : K) < r := by
  unfold mid
  have hpos : (0 : K) < 2 ^ b := by positivity
  have hk : (k : K) + 1 ≤ 2 ^ b := by
    have : ((k + 1 : ℕ) : K) ≤ ((2 ^ b : ℕ) : K) := Nat.cast_le.2 h
    push_cast at this; exact this
  have h0 : (0 : K) < ((k : K) + 1 / 2) / 2 ^ b := by positivity
  have h1 : ((k : K) + 1 / 2) / 2 ^ b < 1 := by rw [div_lt_one hpos]; linarith
  constructor
  · nlinarith
  · nlinarith

/-- The axis of the centres. -/
theorem axis_centres {r : K} {b : Nat} (hr : 0 < r) (hr' : r ≤ 180) (hb : 1 ≤ b) (ang : Bool) :
    ∃ a : Axis K, mkAxis false (centres r b) (1 / 1000000) ang = .ok a ∧ Coordinates a (centres r b) ∧
      ∀ k : ℕ, k < 2 ^ b → ∀ bounded, a.findNearestIndex (mid r b (k : K)) bounded = .ok (k : Int) := by
  obtain ⟨m, hm⟩ : ∃ m, 2 ^ b = m + 2 := by
    have : 2 ^ 1 ≤ 2 ^ b := Nat.pow_le_pow_right (by norm_num) hb
    exact ⟨2 ^ b - 2, by omega⟩
  have hd : (0 : K) < 2 * r / 2 ^ b := by positivity
  obtain ⟨a, ha, hc, hci⟩ := mkAxis_progression (s := mid r b 0) (eps := 1 / 1000000) hd (by norm_num) m ang
  rw [← hm, ← centres_eq] at ha hc
  refine ⟨a, ha, hc, fun k hk bounded => ?_⟩
  refine findNearest_own (.values _ _ ang a (by norm_num) ha) hc k _ (centres_get hk) ?_ bounded
  intro t ht x hx y hy
  rw [hci] at ht
  have ht' : t = 360 := by
    cases ang
    · cases ht
    · exact (Option.some.inj ht).symm
  subst ht'
  unfold centres at hx hy
  obtain ⟨u, hu, rfl⟩ := List.mem_map.1 hx
  obtain ⟨v, hv, rfl⟩ := List.mem_map.1 hy
  have h1 := mid_range (K := K) hr (List.mem_range.1 hu)
  have h2 := mid_range (K := K) hr (List.mem_range.1 hv)
  linarith [h1.1, h2.2]

/-- A code is that of a cell (i, j), and is decoded to its centre. -/
theorem code_cell (cpu : Cpu) {n : Nat} {c : List Char} (hn1 : 1 ≤ n) (hn : n ≤ 12) (h : IsCode n c) :
    ∃ i j : ℕ, i < 2 ^ lonBits (5 * n) ∧ j < 2 ^ latBits (5 * n) ∧ c = encode32 (mkHash (5 * n) i j) n ∧
      strDecode cpu c false = .ok (⟨mid 180 (lonBits (5 * n)) (i : K), mid 90 (latBits (5 * n)) (j : K)⟩ : Point K) := by
  obtain ⟨w, i, j, e1, e2, rfl, hi, hj, e3⟩ := strBoundingBox_code (K := K) cpu h hn1 hn
  exact ⟨i, j, hi, hj, e2.symm, by rw [← e2]; exact strDecode_cell cpu hn1 hn hi hj⟩

theorem converterAxes_ok (cpu : Cpu) {n : Nat} (hn1 : 1 ≤ n) (hn : n ≤ 12) :
    ∃ x y : Axis K, converterAxes cpu n = .ok (x, y) ∧
      Coordinates x (centres 180 (lonBits (5 * n))) ∧ Coordinates y (centres 90 (latBits (5 * n))) ∧
      (∀ k : ℕ, k < 2 ^ lonBits (5 * n) → x.findNearestIndex (mid 180 (lonBits (5 * n)) (k : K)) false = .ok (k : Int)) ∧
      (∀ k : ℕ, k < 2 ^ latBits (5 * n) → y.findNearestIndex (mid 90 (latBits (5 * n)) (k : K)) false = .ok (k : Int)) := by
  obtain ⟨codes, hcodes, hnd, hmem⟩ := C61_whole_earth (K := K) cpu n hn1 hn
  have hlen : ∀ s ∈ codes, s.length = n := fun s hs => ((hmem s).1 hs).1
  have hg : ∀ i, i < codes.length → codes[i]? = some (codes.getD i []) := by
    intro i hi
    rw [List.getD_eq_getElem?_getD, List.getElem?_eq_getElem hi]; rfl
  obtain ⟨pts, ho, hol, hoe⟩ := C103_decode_total (K := K) cpu (arrayOf n codes) ⟨rfl, rfl, rfl, rfl, hn⟩ false
    (fun i => codes.getD i []) (by
      intro i hi
      exact ⟨⟨n, hn1, (hmem _).1 (List.mem_of_getElem? (hg i hi))⟩, Or.inl (elem1_arrayOf n codes hlen i _ (hg i hi))⟩)
  have hpts : ∀ p : Point K, p ∈ pts ↔ ∃ i j : ℕ, i < 2 ^ lonBits (5 * n) ∧ j < 2 ^ latBits (5 * n) ∧
      p = ⟨mid 180 (lonBits (5 * n)) (i : K), mid 90 (latBits (5 * n)) (j : K)⟩ := by
    intro p
    constructor
    · intro hp
      obtain ⟨k, hk⟩ := List.getElem?_of_mem hp
      have hk' : k < codes.length := by
        have := (List.getElem?_eq_some_iff.1 hk).1
        rw [hol] at this; exact this
      have := hoe k p hk
      obtain ⟨i, j, hi, hj, -, hd⟩ := code_cell (K := K) cpu hn1 hn ((hmem _).1 (List.mem_of_getElem? (hg k hk')))
      rw [hd] at this
      exact ⟨i, j, hi, hj, (Except.ok.inj this).symm⟩
    · rintro ⟨i, j, hi, hj, rfl⟩
      have hc := (hmem (encode32 (mkHash (5 * n) i j) n)).2 (isCode_encode32 _ _)
      obtain ⟨k, hk⟩ := List.getElem?_of_mem hc
      have hk' := (List.getElem?_eq_some_iff.1 hk).1
      have hk2 : k < pts.length := by rw [hol]; exact hk'
      have := hoe k _ (List.getElem?_eq_getElem hk2)
      have e : codes.getD k [] = encode32 (mkHash (5 * n) i j) n := by
        have := hg k hk'
        rw [hk] at this
        exact (Option.some.inj this).symm
      rw [e, strDecode_cell cpu hn1 hn hi hj] at this
      rw [Except.ok.inj this]
      exact List.getElem_mem hk2
  have hx : unique (pts.map Point.lon) = centres 180 (lonBits (5 * n)) := by
    refine unique_eq (centres_pairwise (by norm_num) _) fun x => ?_
    simp only [List.mem_map, hpts, centres, List.mem_range]
    constructor
    · rintro ⟨p, ⟨i, j, hi, hj, rfl⟩, rfl⟩; exact ⟨i, hi, rfl⟩
    · rintro ⟨i, hi, rfl⟩; exact ⟨_, ⟨i, 0, hi, by positivity, rfl⟩, rfl⟩
  have hy : unique (pts.map Point.lat) = centres 90 (latBits (5 * n)) := by
    refine unique_eq (centres_pairwise (by norm_num) _) fun x => ?_
    simp only [List.mem_map, hpts, centres, List.mem_range]
    constructor
    · rintro ⟨p, ⟨i, j, hi, hj, rfl⟩, rfl⟩; exact ⟨j, hj, rfl⟩
    · rintro ⟨j, hj, rfl⟩; exact ⟨_, ⟨0, j, by positivity, hj, rfl⟩, rfl⟩
  obtain ⟨x, hx1, hx2, hx3⟩ := axis_centres (K := K) (r := 180) (b := lonBits (5 * n)) (by norm_num) (by norm_num)
    (by unfold lonBits; omega) true
  obtain ⟨y, hy1, hy2, hy3⟩ := axis_centres (K := K) (r := 90) (b := latBits (5 * n)) (by norm_num) (by norm_num)
    (by unfold latBits; omega) false
  refine ⟨x, y, ?_, hx2, hy2, fun k hk => hx3 k hk false, fun k hk => hy3 k hk false⟩
  unfold converterAxes checkedBoxes
  rw [if_neg (by omega), hcodes]
  simp only [bind, Except.bind]
  rw [ho]
  simp only
  rw [hx, hx1]
  simp only
  rw [hy, hy1]
  rfl

/-- The value of a cell. -/
def cellAt {V : Type} (g : List (List V)) (i j : Nat) : Option V := g[i]?.bind fun r => r[j]?

theorem cellAt_set {V : Type} (g : List (List V)) (i j i' j' : Nat) (v : V) (h : (cellAt g i j).isSome) :
    cellAt (setCell g i j v) i' j' = if i' = i ∧ j' = j then some v else cellAt g i' j' := by
  unfold cellAt setCell at *
  rw [List.getElem?_modify]
  cases hg : g[i]? with
  | none => rw [hg] at h; cases h
  | some r =>
    rw [hg] at h
    simp only [Option.bind_some] at h
    have hj : j < r.length := by
      by_contra hh
      rw [List.getElem?_eq_none (by omega)] at h
      cases h
    by_cases hi : i = i'
    · subst hi
      rw [hg]
      simp only [if_true, true_and, Option.map_eq_map, Option.map_some, Option.bind_some, List.getElem?_set]
      by_cases hjj : j = j'
      · subst hjj; simp [hj]
      · rw [if_neg hjj, if_neg (fun e => hjj e.symm)]
    · rw [if_neg (fun e => hi e.1.symm)]
      simp only [if_neg hi]
      cases g[i']? <;> rfl

theorem setCell_shape {V : Type} (g : List (List V)) (i j : Nat) (v : V) (a b : Nat) (h1 : g.length = a)
    (h2 : ∀ r ∈ g, r.length = b) : (setCell g i j v).length = a ∧ ∀ r ∈ setCell g i j v, r.length = b := by
  unfold setCell
  refine ⟨by rw [List.length_modify]; exact h1, fun r hr => ?_⟩
  obtain ⟨k, hk⟩ := List.getElem?_of_mem hr
  rw [List.getElem?_modify] at hk
  cases hg : g[k]? with
  | none => rw [hg] at hk; simp at hk
  | some s =>
    rw [hg] at hk
    have hs := h2 s (List.mem_of_getElem? hg)
    simp only [Option.map_eq_map, Option.map_some, Option.some.injEq] at hk
    split at hk
    · subst hk; simpa using hs
    · subst hk; exact hs

theorem cellAt_some {V : Type} {g : List (List V)} {a b i j : Nat} (h1 : g.length = a) (h2 : ∀ r ∈ g, r.length = b)
    (hi : i < a) (hj : j < b) : (cellAt g i j).isSome := by
  unfold cellAt
  have hi' : i < g.length := by omega
  rw [List.getElem?_eq_getElem hi', Option.bind_some]
  have : j < g[i].length := by rw [h2 _ (List.getElem_mem hi')]; exact hj
  rw [List.getElem?_eq_getElem this]
  rfl

/-- What the assignments leave: the shape, and the last value assigned to each cell. -/
theorem assign_spec {V : Type} (es : List ((Nat × Nat) × V)) (g : List (List V)) (a b : Nat) (h1 : g.length = a)
    (h2 : ∀ r ∈ g, r.length = b) (hin : ∀ e ∈ es, e.1.1 < a ∧ e.1.2 < b) (out : List (List V))
    (ho : out = es.foldl (fun g e => setCell g e.1.1 e.1.2 e.2) g) :
    out.length = a ∧ (∀ r ∈ out, r.length = b) ∧
    ∀ i j, (∀ (k : ℕ) v, es[k]? = some ((i, j), v) → (∀ (k' : ℕ) e, k < k' → es[k']? = some e → e.1 ≠ (i, j)) →
        cellAt out i j = some v) ∧
      ((∀ e ∈ es, e.1 ≠ (i, j)) → cellAt out i j = cellAt g i j) := by
  induction es generalizing g with
  | nil =>
    subst ho
    exact ⟨h1, h2, fun i j => ⟨fun k v hk => by simp at hk, fun _ => rfl⟩⟩
  | cons e es ih =>
    have he := hin e (by simp)
    obtain ⟨s1, s2⟩ := setCell_shape g e.1.1 e.1.2 e.2 a b h1 h2
    obtain ⟨c1, c2, c3⟩ := ih (setCell g e.1.1 e.1.2 e.2) s1 s2 (fun e' he' => hin e' (by simp [he'])) ho
    refine ⟨c1, c2, fun i j => ⟨fun k v hk hlast => ?_, fun hno => ?_⟩⟩
    · cases k with
      | succ k =>
        exact (c3 i j).1 k v (by simpa using hk) fun k' e' hk' he' => hlast (k' + 1) e' (by omega) (by simpa using he')
      | zero =>
        simp only [List.getElem?_cons_zero, Option.some.injEq] at hk
        subst hk
        rw [(c3 i j).2 fun e' he' => ?_]
        · rw [cellAt_set _ _ _ _ _ _ (cellAt_some h1 h2 he.1 he.2), if_pos ⟨rfl, rfl⟩]
        · obtain ⟨k', hk'⟩ := List.getElem?_of_mem he'
          exact hlast (k' + 1) e' (by omega) (by simpa using hk')
    · rw [(c3 i j).2 fun e' he' => hno e' (by simp [he'])]
      rw [cellAt_set _ _ _ _ _ _ (cellAt_some h1 h2 he.1 he.2), if_neg]
      rintro ⟨rfl, rfl⟩
      exact hno e (by simp) rfl

/-- **C105** Data attached to codes that fill the elements of their array (`itemsize` characters, from 1 to 12): the result is a
grid with one cell for each code of this precision. Its longitudes and its latitudes increase; the cell of the code c is at
the row and the column whose coordinates are the centre of the cell of c; its value is the datum of the last occurrence of
c, or zero when c is not in the array. -/
theorem C105_to_xarray {V : Type} (cpu : Cpu) (zero : V) (a : CodeArray) (data : List V) (ha : Plain1 a) (hn1 : 1 ≤ a.itemsize)
    (hdata : data.length = a.shape.1) (hcodes : ∀ k < a.shape.1, IsCode a.itemsize (elem1 a k)) :
    ∃ (g : DataGrid K V) (lon lat : List K), toXarray cpu zero a data = .ok g ∧
      Coordinates g.lon lon ∧ Coordinates g.lat lat ∧ lon.Pairwise (· < ·) ∧ lat.Pairwise (· < ·) ∧
      lon.length * lat.length = 32 ^ a.itemsize ∧
      g.values.length = lat.length ∧ (∀ r ∈ g.values, r.length = lon.length) ∧
      ∀ c, IsCode a.itemsize c → ∃ (i j : ℕ) (x y : K) (v : V) (r : List V), lon[j]? = some x ∧ lat[i]? = some y ∧ strDecode cpu c false = .ok ⟨x, y⟩ ∧
        g.values[i]? = some r ∧ r[j]? = some v ∧
        (∀ k d, k < a.shape.1 → elem1 a k = c → data[k]? = some d →
          (∀ k', k < k' → k' < a.shape.1 → elem1 a k' ≠ c) → v = d) ∧
        ((∀ k < a.shape.1, elem1 a k ≠ c) → v = zero) := by
  have hn := ha.short
  obtain ⟨x, y, hax, hx, hy, fx, fy⟩ := converterAxes_ok (K := K) cpu hn1 hn
  obtain ⟨pts, hp, hpl, hpe⟩ := C103_decode_total (K := K) cpu a ha false (elem1 a)
    fun i hi => ⟨⟨_, hn1, hcodes i hi⟩, Or.inl rfl⟩
  have hxs : x.size.toNat = 2 ^ lonBits (5 * a.itemsize) := by
    rw [hx.1, Int.toNat_natCast]; simp [centres]
  have hys : y.size.toNat = 2 ^ latBits (5 * a.itemsize) := by
    rw [hy.1, Int.toNat_natCast]; simp [centres]
  -- the cell of each code
  have hcell : ∀ k, ∃ q : Nat × Nat, k < a.shape.1 → q.1 < 2 ^ latBits (5 * a.itemsize) ∧ q.2 < 2 ^ lonBits (5 * a.itemsize) ∧
      elem1 a k = encode32 (mkHash (5 * a.itemsize) q.2 q.1) a.itemsize ∧
      ∀ p, pts[k]? = some p → cellOf x y p = .ok q := by
    intro k
    by_cases hk : k < a.shape.1
    · obtain ⟨i, j, hi, hj, he, hd⟩ := code_cell (K := K) cpu hn1 hn (hcodes k hk)
      refine ⟨(j, i), fun _ => ⟨hj, hi, he, fun p hpk => ?_⟩⟩
      have := hpe k p hpk
      rw [hd] at this
      rw [← Except.ok.inj this]
      unfold cellOf
      simp only [bind, Except.bind]
      rw [fy j hj]
      simp only
      rw [fx i hi]
      simp only [numpyIndex]
      rw [hxs, hys, if_pos ⟨by omega, by exact_mod_cast hj⟩]
      simp only
      rw [if_pos ⟨by omega, by exact_mod_cast hi⟩]
      rfl
    · exact ⟨(0, 0), fun h => absurd h hk⟩
  choose q hq using hcell
  have hcells : pts.mapM (cellOf x y) = .ok ((List.range a.shape.1).map q) := by
    rw [mapM_forall₂, List.forall₂_iff_get]
    refine ⟨by simp [hpl], fun k h1 h2 => ?_⟩
    simp only [List.get_eq_getElem, List.getElem_map, List.getElem_range]
    have hk : k < a.shape.1 := by omega
    exact (hq k hk).2.2.2 _ (List.getElem?_eq_getElem h1)
  have hzip : ∀ (k : ℕ) (e : (Nat × Nat) × V), (((List.range a.shape.1).map q).zip data)[k]? = some e ↔
      k < a.shape.1 ∧ e.1 = q k ∧ data[k]? = some e.2 := by
    intro k e
    rw [List.getElem?_zip_eq_some, List.getElem?_map]
    constructor
    · rintro ⟨h1, h2⟩
      have hk : k < a.shape.1 := by
        by_contra hh
        rw [List.getElem?_eq_none (by simpa using hh)] at h1
        cases h1
      rw [List.getElem?_range hk] at h1
      exact ⟨hk, (Option.some.inj h1).symm, h2⟩
    · rintro ⟨hk, h1, h2⟩
      rw [List.getElem?_range hk, h1]
      exact ⟨rfl, h2⟩
  obtain ⟨s1, s2, s3⟩ := assign_spec (((List.range a.shape.1).map q).zip data)
    (List.replicate (2 ^ latBits (5 * a.itemsize)) (List.replicate (2 ^ lonBits (5 * a.itemsize)) zero)) _ _
    List.length_replicate (fun r hr => by rw [List.eq_of_mem_replicate hr, List.length_replicate])
    (by
      intro e he
      obtain ⟨k, hk⟩ := List.getElem?_of_mem he
      obtain ⟨h1, h2, -⟩ := (hzip k e).1 hk
      rw [h2]
      exact ⟨(hq k h1).1, (hq k h1).2.1⟩) _ rfl
  have hL : (centres (180 : K) (lonBits (5 * a.itemsize))).length = 2 ^ lonBits (5 * a.itemsize) := by simp [centres]
  have hM : (centres (90 : K) (latBits (5 * a.itemsize))).length = 2 ^ latBits (5 * a.itemsize) := by simp [centres]
  refine ⟨⟨assign (List.replicate (2 ^ latBits (5 * a.itemsize)) (List.replicate (2 ^ lonBits (5 * a.itemsize)) zero))
    ((List.range a.shape.1).map q) data, x, y, "degrees_north", "degrees_east"⟩, _, _, ?_, hx, hy,
    centres_pairwise (by norm_num) _, centres_pairwise (by norm_num) _, ?_, ?_, ?_, ?_⟩
  · unfold toXarray
    rw [if_neg (by rw [ha.dims, hdata]; simp), if_neg (by rw [ha.bytes]; simp)]
    unfold fillGrid
    rw [hax]
    simp only [bind, Except.bind]
    rw [hp]
    simp only
    rw [hcells, hxs, hys]
    rfl
  · rw [hL, hM, ← pow_add, show (32 : ℕ) = 2 ^ 5 by norm_num, ← pow_mul]
    congr 1
    unfold lonBits latBits
    omega
  · rw [hM]; exact s1
  · rw [hL]; exact s2
  · intro c hc
    obtain ⟨i, j, hi, hj, he, hd⟩ := code_cell (K := K) cpu hn1 hn hc
    have hcellq : ∀ k < a.shape.1, elem1 a k = c ↔ q k = (j, i) := by
      intro k hk
      obtain ⟨b1, b2, b3, -⟩ := hq k hk
      constructor
      · intro h
        rw [b3, he] at h
        have h' := encode32_inj (shift_mkHash_lt (5 * a.itemsize) _ _ (by omega)) (shift_mkHash_lt (5 * a.itemsize) _ _ (by omega)) h
        obtain ⟨e1, e2⟩ := mkHash_inj (by omega) (by omega) b2 b1 hi hj h'
        exact Prod.ext e2 e1
      · intro h
        rw [b3, he, h]
    have hsome := cellAt_some s1 s2 hj hi
    obtain ⟨v, hv⟩ := Option.isSome_iff_exists.1 hsome
    have hv' := hv
    unfold cellAt at hv'
    obtain ⟨r, hr1, hr2⟩ := Option.bind_eq_some_iff.1 hv'
    refine ⟨j, i, _, _, v, r, centres_get hi, centres_get hj, hd, hr1, hr2, ?_, ?_⟩
    · intro k d hk hkc hkd hlast
      have := (s3 j i).1 k d ((hzip k _).2 ⟨hk, ((hcellq k hk).1 hkc).symm, hkd⟩) (by
        intro k' e hk' he' heq
        obtain ⟨g1, g2, -⟩ := (hzip k' e).1 he'
        exact hlast k' hk' g1 ((hcellq k' g1).2 (by rw [← g2, heq])))
      rw [hv] at this
      exact Option.some.inj this
    · intro hno
      have := (s3 j i).2 (by
        intro e he' heq
        obtain ⟨k, hk⟩ := List.getElem?_of_mem he'
        obtain ⟨g1, g2, -⟩ := (hzip k e).1 hk
        exact hno k g1 ((hcellq k g1).2 (by rw [← g2, heq])))
      rw [hv] at this
      unfold cellAt at this
      rw [List.getElem?_replicate, if_pos hj, Option.bind_some, List.getElem?_replicate, if_pos hi] at this
      exact Option.some.inj this

/-- Data of another size, elements that are not bytes, elements longer than 12 bytes: refused. -/
theorem C105_refused {V : Type} (cpu : Cpu) (zero : V) (a : CodeArray) (data : List V)
    (h : a.shape.1 ≠ data.length ∨ a.bytes = false ∨ 12 < a.itemsize) :
    (toXarray cpu zero a data : Out (DataGrid K V)) = .error .exn := by
  unfold toXarray
  by_cases h1 : a.ndim ≠ 1 ∨ a.shape.1 ≠ data.length
  · rw [if_pos h1]
  · rw [if_neg h1]
    by_cases h2 : a.bytes = false
    · rw [if_pos h2]
    · rw [if_neg h2]
      have h3 : 12 < a.itemsize := by
        rcases h with h | h | h
        · exact absurd (Or.inr h) h1
        · exact absurd h h2
        · exact h
      unfold fillGrid converterAxes checkedBoxes
      rw [if_pos h3]
      rfl

/-- **C105, what is false** As for `GeoHash.grid` (C104), the units of the longitudes and of the latitudes are exchanged. -/
theorem C105_units_false {V : Type} (cpu : Cpu) (zero : V) (a : CodeArray) (data : List V) (g : DataGrid K V)
    (h : toXarray cpu zero a data = .ok g) :
    g.lonUnits ∈ latitudeUnits ∧ g.lonUnits ∉ longitudeUnits ∧ g.latUnits ∈ longitudeUnits ∧ g.latUnits ∉ latitudeUnits := by
  have : g.lonUnits = "degrees_north" ∧ g.latUnits = "degrees_east" := by
    unfold toXarray at h
    split at h
    · cases h
    split at h
    · cases h
    unfold fillGrid at h
    obtain ⟨ax, -, h⟩ := bind_inv h
    obtain ⟨p, -, h⟩ := bind_inv h
    obtain ⟨q, -, h⟩ := bind_inv h
    have := Except.ok.inj h
    subst this
    exact ⟨rfl, rfl⟩
  rw [this.1, this.2]
  decide

/-- The hypotheses are met: three codes of one character, one of them twice. -/
example : Plain1 (arrayOf 1 [['s'], ['e'], ['s']]) ∧ 1 ≤ (arrayOf 1 [['s'], ['e'], ['s']]).itemsize ∧
    (∀ k < (arrayOf 1 [['s'], ['e'], ['s']]).shape.1, IsCode (arrayOf 1 [['s'], ['e'], ['s']]).itemsize
      (elem1 (arrayOf 1 [['s'], ['e'], ['s']]) k)) ∧ IsCode 1 ['z'] := by
  refine ⟨⟨rfl, rfl, rfl, rfl, by decide⟩, by decide, ?_, by decide⟩
  decide

end Pyinterp.Geohash
