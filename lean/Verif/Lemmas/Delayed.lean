import Verif.Model.Delayed
import Verif.Lemmas.Binning
import Verif.Lemmas.FrameLayers
import Verif.Spec.Area
import Verif.Props.C39_Histogram2D

/-
Lemmas for C106.
-/
namespace Pyinterp.Delayed

open Spec

set_option linter.unusedSectionVars false

/-- The graph evaluated with the Python operator, when each block gives an object with the
property `P` for its samples, and the addition gives the property for all the samples. -/
theorem runSum_spec {S O : Type} (build : List S → Out O) (iadd : O → O → Out O)
    (P : List S → O → Prop)
    (hadd : ∀ s t a b, P s a → P t b → ∃ c, iadd a b = .ok c ∧ P (s ++ t) c)
    (graph : Sum (List S)) (hbuild : ∀ b ∈ graph.blocks, ∃ o, build b = .ok o ∧ P b o)
    (heap : Bin2D.Heap O) :
    ∃ a heap' o, runSum build iadd graph heap = .ok (a, heap') ∧ heap'[a]? = some o ∧
      P graph.blocks.flatten o ∧ heap.length ≤ a ∧ heap <+: heap' := by
  induction graph generalizing heap with
  | block b =>
    obtain ⟨o, e, p⟩ := hbuild b (by simp [Sum.blocks])
    refine ⟨heap.length, heap ++ [o], o, ?_, by simp, by simpa [Sum.blocks] using p, le_rfl,
      List.prefix_append _ _⟩
    simp only [runSum, e, bind, Except.bind]
  | add l r ihl ihr =>
    obtain ⟨a, h1, o1, e1, g1, p1, l1, x1⟩ := ihl (fun b hb => hbuild b (by simp [Sum.blocks, hb])) heap
    obtain ⟨b, h2, o2, e2, g2, p2, l2, x2⟩ := ihr (fun b hb => hbuild b (by simp [Sum.blocks, hb])) h1
    obtain ⟨c, ec, pc⟩ := hadd _ _ _ _ p1 p2
    obtain ⟨ha, _⟩ := List.getElem?_eq_some_iff.1 g1
    have ha2 : a < h2.length := lt_of_lt_of_le ha x2.length_le
    have g1' : h2[a]? = some o1 := by
      obtain ⟨t, rfl⟩ := x2
      rw [List.getElem?_append_left ha]; exact g1
    refine ⟨a, h2.set a c, c, ?_, List.getElem?_set_self ha2, ?_, l1, ?_⟩
    · simp only [runSum, e1, e2, bind, Except.bind, Bin2D.pyAdd, g1', g2, ec]
    · simpa [Sum.blocks] using pc
    · obtain ⟨t, rfl⟩ := x1
      obtain ⟨u, rfl⟩ := x2
      rw [List.append_assoc, List.set_append_right _ _ l1]
      exact List.prefix_append _ _

section
variable {K : Type} [Field K] [LinearOrder K] [IsStrictOrderedRing K] [FloorRing K]

/-! ### weighted samples -/

theorem mergeCell_samples (s t : List (K × K)) (hs : ∀ x ∈ s, 0 < x.2) (ht : ∀ x ∈ t, 0 < x.2)
    {a b : Stats.Acc K} (ha : Stats.ofSamples s = .ok a) (hb : Stats.ofSamples t = .ok b) :
    ∃ c, Bin2D.mergeCell a b = .ok c ∧ Stats.ofSamples (s ++ t) = .ok c := by
  have count : ∀ (s : List (K × K)) (a : Stats.Acc K), (∀ x ∈ s, 0 < x.2) →
      Stats.ofSamples s = .ok a → a.count = s.length := by
    intro s a hs ha
    obtain ⟨a', e, m, _⟩ := Stats.ofSamples_spec s hs
    rw [ha] at e
    rw [Except.ok.inj e, m.count]
  have ca := count s a hs ha
  have cb := count t b ht hb
  unfold Bin2D.mergeCell
  rw [ca, cb]
  by_cases zs : s = []
  · subst zs
    by_cases zt : t = []
    · subst zt
      exact ⟨a, by simp, by simpa using ha⟩
    · exact ⟨b, by simp [zt], by simpa using hb⟩
  · by_cases zt : t = []
    · subst zt
      exact ⟨a, by simp [zs], by simpa using ha⟩
    · obtain ⟨a', b', c, e1, e2, e3, e4⟩ := Stats.C35_merge s t hs ht zs zt
      rw [ha] at e1
      rw [hb] at e2
      rw [← Except.ok.inj e1, ← Except.ok.inj e2] at e3
      exact ⟨c, by simp [zs, zt, e3], e4⟩

/-- The cells of a grid hold the statistics of the items sent to them. -/
def CellsOf (n : Nat) (items : List (Nat × (K × K))) (acc : List (Stats.Acc K)) : Prop :=
  acc.length = n ∧ ∀ c a, acc[c]? = some a → Stats.ofSamples (Bin2D.itemsOf c items) = .ok a

/-- The items are in the grid and their weights are positive. -/
def GoodItems (n : Nat) (items : List (Nat × (K × K))) : Prop :=
  ∀ it ∈ items, it.1 < n ∧ 0 < it.2.2

theorem itemsOf_pos {n : Nat} {items : List (Nat × (K × K))} (h : GoodItems n items) (c : Nat) :
    ∀ x ∈ Bin2D.itemsOf c items, 0 < x.2 := by
  intro x hx
  obtain ⟨it, hit, rfl⟩ := List.mem_map.1 hx
  exact (h it (List.mem_of_mem_filter hit)).2

theorem itemsOf_append {V : Type} (c : Nat) (s t : List (Nat × V)) :
    Bin2D.itemsOf c (s ++ t) = Bin2D.itemsOf c s ++ Bin2D.itemsOf c t := by
  simp [Bin2D.itemsOf]

theorem scatter_cells {n : Nat} {items : List (Nat × (K × K))} (h : GoodItems n items) :
    ∃ acc, Bin2D.scatter (fun s (p : K × K) => Stats.pushW s p.1 p.2)
        (List.replicate n Stats.empty) items = .ok acc ∧ CellsOf n items acc := by
  have hcell : ∀ c, ∃ a, Stats.ofSamples (Bin2D.itemsOf c items) = .ok a := fun c => by
    obtain ⟨a, e, _⟩ := Stats.ofSamples_spec _ (itemsOf_pos h c)
    exact ⟨a, e⟩
  choose cell hcell using hcell
  refine ⟨(List.range n).map cell, ?_, by simp, ?_⟩
  · refine Bin2D.scatter_ok _ _ _ _ (by simp) (by
      intro it hit; rw [List.length_replicate]; exact (h it hit).1) ?_
    intro c hc
    simp only [List.getElem_replicate, List.getElem_map, List.getElem_range]
    exact hcell c
  · intro c a ha
    rw [List.getElem?_map] at ha
    obtain ⟨k, hk, rfl⟩ := Option.map_eq_some_iff.1 ha
    obtain ⟨_, e⟩ := List.getElem?_eq_some_iff.1 hk
    rw [List.getElem_range] at e
    rw [← e]
    exact hcell c

theorem mergeCells_cells {n : Nat} {s t : List (Nat × (K × K))} (hs : GoodItems n s)
    (ht : GoodItems n t) {a b : List (Stats.Acc K)} (ha : CellsOf n s a) (hb : CellsOf n t b) :
    ∃ c, Bin2D.mergeCells a b = .ok c ∧ CellsOf n (s ++ t) c := by
  have hcell : ∀ k, ∃ c, k < n → ∃ u v, a[k]? = some u ∧ b[k]? = some v ∧
      Bin2D.mergeCell u v = .ok c ∧ Stats.ofSamples (Bin2D.itemsOf k (s ++ t)) = .ok c := by
    intro k
    by_cases hk : k < n
    · have ka : k < a.length := by rw [ha.1]; exact hk
      have kb : k < b.length := by rw [hb.1]; exact hk
      have e1 := ha.2 k a[k] (List.getElem?_eq_getElem ka)
      have e2 := hb.2 k b[k] (List.getElem?_eq_getElem kb)
      obtain ⟨c, e3, e4⟩ := mergeCell_samples _ _ (itemsOf_pos hs k) (itemsOf_pos ht k) e1 e2
      rw [← itemsOf_append] at e4
      exact ⟨c, fun _ => ⟨_, _, List.getElem?_eq_getElem ka, List.getElem?_eq_getElem kb, e3, e4⟩⟩
    · exact ⟨Stats.empty, fun h => absurd h hk⟩
  choose cell hcell using hcell
  refine ⟨(List.range n).map cell, ?_, by simp, ?_⟩
  · apply Bin2D.mergeCells_ok _ _ _ (by rw [ha.1, hb.1]) (by simp [ha.1])
    intro k hk
    obtain ⟨u, v, e1, e2, e3, _⟩ := hcell k (by rw [← ha.1]; exact hk)
    rw [List.getElem?_eq_getElem hk] at e1
    rw [List.getElem?_eq_getElem (by rw [hb.1, ← ha.1]; exact hk)] at e2
    rw [Option.some.inj e1, Option.some.inj e2]
    simpa using e3
  · intro k c hc
    rw [List.getElem?_map] at hc
    obtain ⟨j, hj, rfl⟩ := Option.map_eq_some_iff.1 hc
    obtain ⟨hn, e⟩ := List.getElem?_eq_some_iff.1 hj
    rw [List.getElem_range] at e
    subst e
    exact (hcell k (by simpa using hn)).choose_spec.choose_spec.2.2.2

theorem cellsOf_unique {n : Nat} {items : List (Nat × (K × K))} {a b : List (Stats.Acc K)}
    (ha : CellsOf n items a) (hb : CellsOf n items b) : a = b := by
  apply List.ext_getElem (by rw [ha.1, hb.1])
  intro k h1 h2
  have e1 := ha.2 k _ (List.getElem?_eq_getElem h1)
  have e2 := hb.2 k _ (List.getElem?_eq_getElem h2)
  rw [e1] at e2
  exact Except.ok.inj e2

/-! ### linear binning -/

theorem calculateArea_nonneg {area : List (K × K) → K} {lx ly : List K} (h : AreaOk area lx ly)
    (a b c d : K × K) : 0 ≤ Bin2D.calculateArea area [a, b, c, d, a] := by
  unfold Bin2D.calculateArea
  by_cases hn : area [a, b, c, d, a] < 0
  · simp only [if_pos hn]
    exact (h.reverse a b c d hn).le
  · simp only [if_neg hn]
    exact not_lt.1 hn

theorem calculateArea_pos {area : List (K × K) → K} {lx ly : List K} (h : AreaOk area lx ly)
    (a b c d : K × K) (h0 : area [a, b, c, d, a] ≠ 0) :
    0 < Bin2D.calculateArea area [a, b, c, d, a] := by
  unfold Bin2D.calculateArea
  by_cases hn : area [a, b, c, d, a] < 0
  · simp only [if_pos hn]
    exact h.reverse a b c d hn
  · simp only [if_neg hn]
    exact lt_of_le_of_ne (not_lt.1 hn) (Ne.symm h0)

theorem normalizedArea_nonneg {area : List (K × K) → K} {lx ly : List K} (h : AreaOk area lx ly)
    {tiny total : K} (a b c d : K × K) :
    0 ≤ Bin2D.normalizedArea area tiny [a, b, c, d, a] total := by
  unfold Bin2D.normalizedArea
  simp only
  split
  · exact le_rfl
  · exact calculateArea_nonneg h a b c d

/-- The area of the plane. -/
theorem ringArea_ok (lx ly : List K) : AreaOk (Bin2D.ringArea (K := K)) lx ly := by
  refine ⟨?_, ?_⟩
  · intro a b c d h
    have e : Bin2D.ringArea [a, d, c, b, a] = -Bin2D.ringArea [a, b, c, d, a] := by
      simp only [Bin2D.ringArea]; ring
    rw [e]; linarith
  · intro x0 _ x1 _ y0 _ y1 _ hx hy
    have e : Bin2D.ringArea [(x0, y0), (x0, y1), (x1, y1), (x1, y0), (x0, y0)] =
        (x0 - x1) * (y0 - y1) := by
      simp only [Bin2D.ringArea]; ring
    rw [e]
    exact mul_ne_zero (sub_ne_zero.2 hx) (sub_ne_zero.2 hy)

theorem strategy_ok {geo : K × K → List (K × K) → K} {lx ly : List K} {wgs : Option (K × K)}
    (h : ∀ w, wgs = some w → AreaOk (geo w) lx ly) : AreaOk (strategy geo wgs) lx ly := by
  cases wgs with
  | none => exact ringArea_ok lx ly
  | some w => exact h w rfl

theorem binning2d_nonneg {area : List (K × K) → K} {lx ly : List K} (h : AreaOk area lx ly) (tiny : K)
    (p : K × K) (x0 y0 x1 y1 : K) (mx0 : x0 ∈ lx) (mx1 : x1 ∈ lx) (my0 : y0 ∈ ly) (my1 : y1 ∈ ly)
    (hx : x0 ≠ x1) (hy : y0 ≠ y1) :
    ∃ a b c d, Bin2D.binning2d area tiny p (x0, y0) (x1, y1) = .ok (a, b, c, d) ∧
      0 ≤ a ∧ 0 ≤ b ∧ 0 ≤ c ∧ 0 ≤ d := by
  have hpos := calculateArea_pos h (x0, y0) (x0, y1) (x1, y1) (x1, y0)
    (h.cell x0 mx0 x1 mx1 y0 my0 y1 my1 hx hy)
  unfold Bin2D.binning2d
  simp only [if_neg hpos.ne']
  exact ⟨_, _, _, _, rfl, div_nonneg (normalizedArea_nonneg h _ _ _ _) hpos.le,
    div_nonneg (normalizedArea_nonneg h _ _ _ _) hpos.le,
    div_nonneg (normalizedArea_nonneg h _ _ _ _) hpos.le,
    div_nonneg (normalizedArea_nonneg h _ _ _ _) hpos.le⟩

/-- One update of the linear binning is no item, or one. -/
theorem updateAcc_scatter {eps : K} (heps : 0 < eps) {nx ny i j : Nat} (hi : i < nx) (hj : j < ny)
    (w : K) (hw : 0 ≤ w) :
    ∃ ws : List (Nat × K), (∀ p ∈ ws, p.1 < nx * ny ∧ 0 < p.2) ∧
      ∀ (acc : List (Stats.Acc K)) (v : K), Bin2D.updateAcc eps nx ny acc i j v w =
        Bin2D.scatter (fun s (p : K × K) => Stats.pushW s p.1 p.2) acc
          (ws.map fun p => (p.1, (v, p.2))) := by
  by_cases h : |w| < eps
  · refine ⟨[], by simp, fun acc v => ?_⟩
    simp [Bin2D.updateAcc, h, Bin2D.scatter]
    rfl
  · refine ⟨[(i * ny + j, w)], ?_, fun acc v => ?_⟩
    · intro p hp
      rw [List.mem_singleton.1 hp]
      rw [abs_of_nonneg hw] at h
      exact ⟨Bin2D.cell_lt hi hj, by simp only; linarith [not_lt.1 h]⟩
    · rw [Bin2D.updateAcc, if_neg h]
      exact Bin2D.updateCell_scatter nx ny acc i j hi hj
        (fun s (p : K × K) => Stats.pushW s p.1 p.2) (v, w)

theorem frames_ne {l : List K} (hl : 2 ≤ l.length) {circ : Bool} {c : K} {i j : Int}
    (h : Frames l circ c i j) : ∃ (a b : Nat), i = a ∧ j = b ∧ a < l.length ∧ b < l.length ∧ a ≠ b := by
  obtain ⟨i0, j0, hi, hj, hf⟩ := h
  refine ⟨i.toNat, j.toNat, (Int.toNat_of_nonneg i0).symm, (Int.toNat_of_nonneg j0).symm, hi, hj, ?_⟩
  rcases hf with ⟨hij, _⟩ | ⟨_, h1⟩
  · omega
  · rcases h1 with ⟨⟨h1, h2⟩ | ⟨h1, h2⟩, _⟩ <;> omega

/-- The search gives two different indices, or nothing: always on axes of two or more coordinates,
and on the axes of one coordinate that are not circles. -/
theorem findIndexes_frames {x : Axis K} {lx : List K} (okx : AxisOk x lx)
    (h2 : x.isCircle = true → 2 ≤ lx.length) (px : K) :
    (∃ i0 i1 : Nat, i0 < lx.length ∧ i1 < lx.length ∧ i0 ≠ i1 ∧
      x.findIndexes px = .ok (some ((i0 : Int), (i1 : Int)))) ∨ x.findIndexes px = .ok none := by
  by_cases hl : 2 ≤ lx.length
  · obtain ⟨c, _, hr⟩ := findIndexes_onTurn okx hl px
    rcases hr with ⟨i, j, e, hf, _⟩ | ⟨e, _⟩
    · obtain ⟨i0, i1, rfl, rfl, hi0, hi1, hne⟩ := frames_ne hl hf
      exact .inl ⟨i0, i1, hi0, hi1, hne, e⟩
    · exact .inr e
  · have hc : x.isCircle = false := by
      cases h : x.isCircle with
      | false => rfl
      | true => exact absurd (h2 h) hl
    have hpos := okx.stores.ne
    match lx, hl, hpos, okx with
    | [], _, hp, _ => exact absurd rfl hp
    | [v], _, _, ok => exact .inr (Interp.findIndexes_single ok hc px)
    | _ :: _ :: _, hl, _, _ => simp at hl

/-- One sample of the linear binning is a list of at most four items, which does not depend
on the contents of the grid. -/
theorem pushLinearOne_scatter {area : List (K × K) → K} {tiny eps : K} (heps : 0 < eps) {x y : Axis K}
    {lx ly : List K} (hA : AreaOk area lx ly) (okx : AxisOk x lx) (oky : AxisOk y ly)
    (hx2 : x.isCircle = true → 2 ≤ lx.length) (hy2 : y.isCircle = true → 2 ≤ ly.length) (px py : K) :
    ∃ ws : List (Nat × K), (∀ p ∈ ws, p.1 < lx.length * ly.length ∧ 0 < p.2) ∧
      ∀ (acc : List (Stats.Acc K)) (v : K), Bin2D.pushLinearOne area tiny eps x y acc px py v =
        Bin2D.scatter (fun s (p : K × K) => Stats.pushW s p.1 p.2) acc
          (ws.map fun p => (p.1, (v, p.2))) := by
  have hsx : x.size = (lx.length : Int) := okx.stores.size_eq
  have hsy : y.size = (ly.length : Int) := oky.stores.size_eq
  have nil : ∀ (acc : List (Stats.Acc K)) (v : K),
      Bin2D.scatter (fun s (p : K × K) => Stats.pushW s p.1 p.2) acc
        (([] : List (Nat × K)).map fun p => (p.1, (v, p.2))) = .ok acc := fun _ _ => rfl
  rcases findIndexes_frames okx hx2 px with ⟨i0, i1, hi0, hi1, hne, e⟩ | e
  · rcases findIndexes_frames oky hy2 py with ⟨j0, j1, hj0, hj1, hne', e'⟩ | e'
    · have cx : ∀ k : Nat, (h : k < lx.length) → x.cont.coord (k : Int) = .ok lx[k] := fun k h => by
        have := okx.stores.coord_int (k : Int) (by omega) (by omega)
        simp only [Int.toNat_natCast] at this
        exact this
      have cy : ∀ k : Nat, (h : k < ly.length) → y.cont.coord (k : Int) = .ok ly[k] := fun k h => by
        have := oky.stores.coord_int (k : Int) (by omega) (by omega)
        simp only [Int.toNat_natCast] at this
        exact this
      have nx := Bin2D.strictlyMonotone_ne (Bin2D.stores_strict okx.stores) hi0 hi1 hne
      have ny := Bin2D.strictlyMonotone_ne (Bin2D.stores_strict oky.stores) hj0 hj1 hne'
      obtain ⟨a, b, c, d, ew, ha, hb, hc, hd⟩ := binning2d_nonneg hA tiny
        (if x.isAngle then Math.normalizeAngleF px lx[i0] 360 else px, py) _ _ _ _
        (List.getElem_mem hi0) (List.getElem_mem hi1) (List.getElem_mem hj0) (List.getElem_mem hj1) nx ny
      obtain ⟨w1, g1, s1⟩ := updateAcc_scatter heps hi0 hj0 a ha
      obtain ⟨w2, g2, s2⟩ := updateAcc_scatter heps hi0 hj1 b hb
      obtain ⟨w3, g3, s3⟩ := updateAcc_scatter heps hi1 hj1 c hc
      obtain ⟨w4, g4, s4⟩ := updateAcc_scatter heps hi1 hj0 d hd
      refine ⟨w1 ++ (w2 ++ (w3 ++ w4)), ?_, fun acc v => ?_⟩
      · intro p hp
        simp only [List.mem_append] at hp
        rcases hp with h | h | h | h
        exacts [g1 p h, g2 p h, g3 p h, g4 p h]
      · simp only [List.map_append, Bin2D.scatter_append, ← s1, ← s2, ← s3, ← s4]
        simp only [Bin2D.pushLinearOne, e, e', bind, Except.bind, cx _ hi0, cx _ hi1, cy _ hj0,
          cy _ hj1, ew, hsx, hsy]
    · refine ⟨[], by simp, fun acc v => ?_⟩
      rw [nil]
      simp only [Bin2D.pushLinearOne, e, e', bind, Except.bind]
  · refine ⟨[], by simp, fun acc v => ?_⟩
    rw [nil]
    rcases findIndexes_frames oky hy2 py with ⟨j0, j1, hj0, hj1, hne', e'⟩ | e' <;>
      simp only [Bin2D.pushLinearOne, e, e', bind, Except.bind]

/-- The items of the linear binning. -/
def linearItems (ws : K → K → List (Nat × K)) (samples : List (K × K × Option K)) :
    List (Nat × (K × K)) :=
  samples.flatMap fun s => match s.2.2 with
    | none => []
    | some v => (ws s.1 s.2.1).map fun p => (p.1, (v, p.2))

theorem pushLinear_scatter {area : List (K × K) → K} {tiny eps : K} {x y : Axis K} (ws : K → K → List (Nat × K))
    (hws : ∀ px py (acc : List (Stats.Acc K)) (v : K), Bin2D.pushLinearOne area tiny eps x y acc px py v =
        Bin2D.scatter (fun s (p : K × K) => Stats.pushW s p.1 p.2) acc
          ((ws px py).map fun p => (p.1, (v, p.2))))
    (samples : List (K × K × Option K)) (acc : List (Stats.Acc K)) :
    Bin2D.pushLinear area tiny eps x y acc samples =
      Bin2D.scatter (fun s (p : K × K) => Stats.pushW s p.1 p.2) acc (linearItems ws samples) := by
  induction samples generalizing acc with
  | nil => rfl
  | cons s samples ih =>
    obtain ⟨px, py, o⟩ := s
    cases o with
    | none => simpa [Bin2D.pushLinear, linearItems] using ih acc
    | some v =>
      have e : linearItems ws ((px, py, some v) :: samples) =
          ((ws px py).map fun p => (p.1, (v, p.2))) ++ linearItems ws samples := by
        simp [linearItems]
      rw [e, Bin2D.scatter_append, ← hws]
      simp only [Bin2D.pushLinear, bind, Except.bind]
      cases Bin2D.pushLinearOne area tiny eps x y acc px py v with
      | error e => rfl
      | ok a => exact ih a

theorem make_acc {x y : Axis K} {lx ly : List K} (okx : AxisOk x lx) (oky : AxisOk y ly)
    (wgs : Option (K × K)) :
    (Bin2D.make x y wgs).acc = List.replicate (lx.length * ly.length) Stats.empty := by
  simp only [Bin2D.make]
  congr 1
  rw [show x.size = (lx.length : Int) from okx.stores.size_eq,
    show y.size = (ly.length : Int) from oky.stores.size_eq]
  rw [← Int.natCast_mul]; rfl

/-- Binnings with the same axes and spheroid are merged cell by cell. -/
theorem merge_same {x y : Axis K} {lx ly : List K} (okx : AxisOk x lx) (oky : AxisOk y ly)
    (wgs : Option (K × K)) {a b c : List (Stats.Acc K)} (h : Bin2D.mergeCells a b = .ok c) :
    Bin2D.Binning.merge ⟨x, y, a, wgs⟩ ⟨x, y, b, wgs⟩ = .ok ⟨x, y, c, wgs⟩ := by
  unfold Bin2D.Binning.merge
  simp only [Bin2D.axis_beq_refl okx, Bin2D.axis_beq_refl oky, Bool.not_true, Bool.or_self,
    Bool.false_eq_true, if_false, ne_eq, not_true_eq_false, h, bind, Except.bind]

end

end Pyinterp.Delayed
