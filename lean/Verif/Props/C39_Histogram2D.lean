import Verif.Props.C37_Binning

/-
C38 (Binning1D), C39 (Histogram2D), C63 (the Python operator `+`) and the pickling of
Binning2D.
-/
namespace Pyinterp.Bin2D

open Spec

set_option linter.unusedSectionVars false

section
variable {K : Type} [Field K] [LinearOrder K] [IsStrictOrderedRing K] [FloorRing K]

/-! ### Binning1D -/

/-- The (value, weight) of the samples in the range that `cx` sends to the bin `i`. -/
def binSamples (cx : K → Nat) (lo hi : K) (i : Nat) (samples : List (K × Option K × K)) :
    List (K × K) :=
  (samples.filter fun s => (lo ≤ s.1 ∧ s.1 ≤ hi) ∧ cx s.1 = i).filterMap fun s =>
    s.2.1.map fun v => (v, s.2.2)

/-- The updates of `push1D`. -/
def items1D (cx : K → Nat) (lo hi : K) (samples : List (K × Option K × K)) :
    List (Nat × (K × K)) :=
  (samples.filter fun s => lo ≤ s.1 ∧ s.1 ≤ hi).filterMap fun s =>
    s.2.1.map fun v => (cx s.1, (v, s.2.2))

theorem itemsOf_1D (cx : K → Nat) (lo hi : K) (i : Nat) (samples : List (K × Option K × K)) :
    itemsOf i (items1D cx lo hi samples) = binSamples cx lo hi i samples := by
  induction samples with
  | nil => rfl
  | cons s samples ih =>
    obtain ⟨px, o, w⟩ := s
    unfold binSamples items1D itemsOf at *
    rw [List.filter_cons, List.filter_cons]
    by_cases hr : lo ≤ px ∧ px ≤ hi
    · by_cases hc : cx px = i
      · cases o with
        | none => simpa [hr, hc] using ih
        | some v => simpa [hr, hc] using ih
      · cases o with
        | none => simpa [hr, hc] using ih
        | some v => simpa [hr, hc] using ih
    · simpa [hr] using ih

theorem push1D_scatter {x : Axis K} {nx : Nat} (hx : x.size = nx) (cx : K → Nat)
    (fx : ∀ v, x.findIndex v true = .ok (cx v : Int)) (lx : ∀ v, cx v < nx) (lo hi : K)
    (samples : List (K × Option K × K)) (acc : List (Stats.Acc K)) :
    push1D x lo hi acc samples =
      scatter (fun s (p : K × K) => Stats.pushW s p.1 p.2) acc (items1D cx lo hi samples) := by
  induction samples generalizing acc with
  | nil => rfl
  | cons s samples ih =>
    obtain ⟨px, o, w⟩ := s
    cases o with
    | none =>
      have : items1D cx lo hi ((px, none, w) :: samples) = items1D cx lo hi samples := by
        unfold items1D
        rw [List.filter_cons]
        split <;> simp
      rw [this]
      exact ih acc
    | some v =>
      by_cases hr : lo ≤ px ∧ px ≤ hi
      · have e : items1D cx lo hi ((px, some v, w) :: samples) =
            [(cx px, (v, w))] ++ items1D cx lo hi samples := by
          simp [items1D, hr]
        rw [e, scatter_append]
        have hne : (cx px : Int) ≠ -1 := by omega
        have hu := updateCell_scatter nx 1 acc (cx px) 0 (lx px) (by omega)
          (fun s (p : K × K) => Stats.pushW s p.1 p.2) (v, w)
        simp only [Nat.mul_one, Nat.add_zero, Nat.cast_one, Nat.cast_zero] at hu
        simp only [push1D, if_pos hr, fx, bind, Except.bind, ne_eq, hne, not_false_eq_true, if_true,
          hx, hu]
        cases scatter (fun s (p : K × K) => Stats.pushW s p.1 p.2) acc [(cx px, (v, w))] with
        | error e => rfl
        | ok a => exact ih a
      · have e : items1D cx lo hi ((px, some v, w) :: samples) = items1D cx lo hi samples := by
          simp [items1D, hr]
        rw [e]
        simp only [push1D, if_neg hr, bind, Except.bind]
        exact ih acc

/-- C38, Binning1D: with positive weights, the bins hold the statistics of the samples with
a value, in the range, whose nearest bin they are; other samples change nothing. -/
theorem C38_binning1d (x : Axis K) (l : List K) (rx : Reach false x) (hx : Coordinates x l)
    (lo hi : K) :
    ∃ cx : K → Nat, NearestIndex x l cx ∧
      ∀ samples : List (K × Option K × K), (∀ s ∈ samples, 0 < s.2.2) →
        ∃ acc, push1D x lo hi (List.replicate l.length Stats.empty) samples = .ok acc ∧
          acc.length = l.length ∧
          ∀ i a, acc[i]? = some a → Stats.ofSamples (binSamples cx lo hi i samples) = .ok a := by
  have okx := reach_axisOk rx hx
  obtain ⟨cx, fx, bx, nx⟩ := exists_index_function okx
  refine ⟨cx, nx, fun samples hw => ?_⟩
  have hs := push1D_scatter okx.stores.size_eq cx fx bx lo hi samples
    (List.replicate l.length Stats.empty)
  have hcell : ∀ i, ∃ a, Stats.ofSamples (binSamples cx lo hi i samples) = .ok a := by
    intro i
    obtain ⟨a, e, _⟩ := Stats.ofSamples_spec (binSamples cx lo hi i samples) (by
      intro p hp
      obtain ⟨s, hs, e⟩ := List.mem_filterMap.1 hp
      obtain ⟨v, _, rfl⟩ := Option.map_eq_some_iff.1 e
      exact hw s (List.mem_of_mem_filter hs))
    exact ⟨a, e⟩
  choose cell hcell using hcell
  have hok := scatter_ok (fun s (p : K × K) => Stats.pushW s p.1 p.2) (items1D cx lo hi samples)
    (List.replicate l.length Stats.empty) ((List.range l.length).map cell) (by simp)
    (by
      intro it hit
      obtain ⟨s, _, e⟩ := List.mem_filterMap.1 hit
      obtain ⟨v, _, rfl⟩ := Option.map_eq_some_iff.1 e
      simpa using bx s.1)
    (by
      intro c hc
      rw [itemsOf_1D]
      simp only [List.getElem_replicate, List.getElem_map, List.getElem_range]
      exact hcell c)
  refine ⟨_, hs.trans hok, by simp, ?_⟩
  intro i a ha
  rw [List.getElem?_map] at ha
  obtain ⟨k, hk, rfl⟩ := Option.map_eq_some_iff.1 ha
  obtain ⟨_, e⟩ := List.getElem?_eq_some_iff.1 hk
  rw [List.getElem_range] at e
  rw [← e]
  exact hcell i

example : ∃ x : Axis ℚ, Reach false x ∧ Coordinates x [0, 2, 4] ∧
    (push1D x 0 4 (List.replicate 3 Stats.empty)
      [(1 / 2, some 8, 2), (7 / 2, some 2, 1), (9 / 2, some 2, 1), (2, none, 1), (0, some 1, 1)]).map
      (fun acc => acc.map (·.sumOfWeights)) = .ok [3, 0, 1] := by
  refine ⟨⟨false, none, .regular ⟨3, 0, 2, 1 / 2, true⟩⟩,
    .regular 0 4 3 (1/1000000) false _ (by decide +kernel),
    ⟨rfl, by decide +kernel⟩, by decide +kernel⟩

/-! ### C39: Histogram2D -/

/-- Every cell of the histogram has received the samples `S i j`. -/
def CellsReach (num : Streaming.Numeric K) (B : K) (h : Histogram K) (nx ny : Nat)
    (S : Nat → Nat → List (K × K)) : Prop :=
  h.cells.length = nx * ny ∧
  ∀ i j, i < nx → j < ny → ∃ c, h.cells[i * ny + j]? = some c ∧ Spec.Reach num B c (S i j)

theorem reach_pushes (num : Streaming.Numeric K) (B : K) (hf : Fits num B) (vs : List K)
    (hv : ∀ v ∈ vs, |v| ≤ B) (c : Streaming.Hist K) (s : List (K × K)) (hr : Spec.Reach num B c s) :
    ∃ c', vs.foldlM (fun s v => Streaming.push num s v 1) c = .ok c' ∧
      Spec.Reach num B c' (s ++ vs.map fun v => (v, 1)) := by
  induction vs generalizing c s with
  | nil => exact ⟨c, rfl, by simpa using hr⟩
  | cons v vs ih =>
    obtain ⟨c1, e1, _⟩ := (Streaming.C30_total num B hf c c s s hr hr).1 v 1 (hv v (by simp)) one_pos
    obtain ⟨c', e, r⟩ := ih (fun x hx => hv x (by simp [hx])) c1 _
      (.push v 1 hr (hv v (by simp)) one_pos e1)
    refine ⟨c', ?_, ?_⟩
    · simp only [List.foldlM_cons, e1, bind, Except.bind]
      exact e
    · simpa using r

/-- C39: a new histogram has received nothing. -/
theorem C39_new (num : Streaming.Numeric K) (B : K) (x y : Axis K) (nx ny n : Nat) (hn : 1 ≤ n) :
    CellsReach num B ⟨x, y, List.replicate (nx * ny) (Streaming.make num n false)⟩ nx ny
      (fun _ _ => []) :=
  ⟨by simp, fun _ _ hi hj => ⟨_, by rw [List.getElem?_replicate, if_pos (cell_lt hi hj)], .new n hn⟩⟩

/-- C39: `push` never fails, and gives each defined sample, with weight one, to exactly one
cell, the nearest one: with C30, the count, the sum of weights and the mean of each cell
are those of its samples. -/
theorem C39_push (num : Streaming.Numeric K) (B : K) (hf : Fits num B) (x y : Axis K)
    (lx ly : List K) (rx : Pyinterp.Reach false x) (ry : Pyinterp.Reach false y) (hx : Coordinates x lx)
    (hy : Coordinates y ly) :
    ∃ cx cy : K → Nat, NearestIndex x lx cx ∧ NearestIndex y ly cy ∧
      ∀ (h : Histogram K) (S : Nat → Nat → List (K × K)), h.x = x → h.y = y →
        CellsReach num B h lx.length ly.length S →
        ∀ samples : List (K × K × Option K), (∀ v ∈ definedValues samples, |v| ≤ B) →
        ∃ h', h.push num samples = .ok h' ∧ h'.x = x ∧ h'.y = y ∧
          CellsReach num B h' lx.length ly.length
            (fun i j => S i j ++ (cellValues cx cy i j samples).map fun v => (v, 1)) := by
  have okx := reach_axisOk rx hx
  have oky := reach_axisOk ry hy
  obtain ⟨cx, fx, bx, nx⟩ := exists_index_function okx
  obtain ⟨cy, fy, by', ny⟩ := exists_index_function oky
  refine ⟨cx, cy, nx, ny, fun h S hhx hhy ⟨hlen, hc⟩ samples hv => ?_⟩
  have hs := pushNearest_scatter okx.stores.size_eq oky.stores.size_eq cx cy fx fy bx by'
    (fun s v => Streaming.push num s v 1) samples h.cells
  have hcell : ∀ i j, ∃ c', i < lx.length → j < ly.length → ∃ c, h.cells[i * ly.length + j]? = some c ∧
      (cellValues cx cy i j samples).foldlM (fun s v => Streaming.push num s v 1) c = .ok c' ∧
      Spec.Reach num B c' (S i j ++ (cellValues cx cy i j samples).map fun v => (v, 1)) := by
    intro i j
    by_cases hij : i < lx.length ∧ j < ly.length
    · obtain ⟨c, e, r⟩ := hc i j hij.1 hij.2
      obtain ⟨c', e', r'⟩ := reach_pushes num B hf (cellValues cx cy i j samples) (by
        intro v hv'
        apply hv v
        obtain ⟨s, hs, e⟩ := List.mem_filterMap.1 hv'
        exact List.mem_filterMap.2 ⟨s, List.mem_of_mem_filter hs, e⟩) c _ r
      exact ⟨c', fun _ _ => ⟨c, e, e', r'⟩⟩
    · exact ⟨Streaming.make num 1 false, fun h1 h2 => absurd ⟨h1, h2⟩ hij⟩
  choose cell hcell using hcell
  have hok := scatter_ok (fun s v => Streaming.push num s v 1)
    (nearestItems ly.length cx cy samples) h.cells
    ((List.range (lx.length * ly.length)).map fun c => cell (c / ly.length) (c % ly.length))
    (by simp [hlen]) (by rw [hlen]; exact nearestItems_lt bx by' samples)
    (by
      intro c hc'
      rw [hlen] at hc'
      obtain ⟨i, j, hi, hj, rfl⟩ := exists_cell hc'
      obtain ⟨c, e, e', _⟩ := hcell i j hi hj
      rw [List.getElem?_eq_getElem (by rw [hlen]; exact hc')] at e
      rw [itemsOf_nearest by' hj, Option.some.inj e]
      simp only [List.getElem_map, List.getElem_range]
      have h1 : (i * ly.length + j) / ly.length = i := by
        rw [Nat.add_comm, Nat.add_mul_div_right _ _ (by omega), Nat.div_eq_of_lt hj, Nat.zero_add]
      have h2 : (i * ly.length + j) % ly.length = j := by
        rw [Nat.add_comm, Nat.add_mul_mod_self_right, Nat.mod_eq_of_lt hj]
      rw [h1, h2]
      exact e')
  refine ⟨⟨h.x, h.y, (List.range (lx.length * ly.length)).map
      fun c => cell (c / ly.length) (c % ly.length)⟩, ?_, hhx, hhy, by simp, ?_⟩
  · unfold Histogram.push
    rw [hhx, hhy, hs, hok]
    rfl
  · intro i j hi hj
    obtain ⟨c, _, _, r⟩ := hcell i j hi hj
    refine ⟨cell i j, ?_, r⟩
    have h1 : (i * ly.length + j) / ly.length = i := by
      rw [Nat.add_comm, Nat.add_mul_div_right _ _ (by omega), Nat.div_eq_of_lt hj, Nat.zero_add]
    have h2 : (i * ly.length + j) % ly.length = j := by
      rw [Nat.add_comm, Nat.add_mul_mod_self_right, Nat.mod_eq_of_lt hj]
    simp only
    rw [List.getElem?_map, List.getElem?_range (cell_lt hi hj), Option.map_some, h1, h2]

theorem reach_bins_nil (num : Streaming.Numeric K) (B : K) (hf : Fits num B) (c : Streaming.Hist K)
    (s : List (K × K)) (hr : Spec.Reach num B c s) (h : c.bins.length = 0) : s = [] := by
  have i := Streaming.inv_reach num B hf c s hr
  by_contra hs
  have := Streaming.totalWeight_pos hs fun x hx => (i.bound x hx).2
  have hw := i.weight
  rw [List.length_eq_zero_iff.1 h] at hw
  simp only [asSamples, List.map_nil] at hw
  rw [← hw] at this
  simp [totalWeight] at this

theorem histMergeCells_ok (num : Streaming.Numeric K) (l m r : List (Streaming.Hist K))
    (h1 : m.length = l.length) (h2 : r.length = l.length)
    (h : ∀ c (hc : c < l.length), Histogram.mergeCell num l[c] (m[c]'(by omega)) = .ok (r[c]'(by omega))) :
    Histogram.mergeCells num l m = .ok r := by
  induction l generalizing m r with
  | nil =>
    have : r = [] := by simpa using h2
    rw [this]; rfl
  | cons a l ih =>
    cases m with
    | nil => simp at h1
    | cons b m =>
      cases r with
      | nil => simp at h2
      | cons c r =>
        have h0 := h 0 (by simp)
        simp only [List.getElem_cons_zero] at h0
        have := ih m r (by simpa using h1) (by simpa using h2) (fun k hk => by
          have := h (k + 1) (by simpa using hk)
          simpa using this)
        simp only [Histogram.mergeCells, h0, this, bind, Except.bind]

/-- C39: merging two histograms on the same grid never fails and gives each cell the
samples of both. -/
theorem C39_merge (num : Streaming.Numeric K) (B : K) (hf : Fits num B) (x y : Axis K)
    (lx ly : List K) (rx : Pyinterp.Reach false x) (ry : Pyinterp.Reach false y) (hx : Coordinates x lx)
    (hy : Coordinates y ly) (h o : Histogram K) (S T : Nat → Nat → List (K × K)) (h1 : h.x = x)
    (h2 : h.y = y) (o1 : o.x = x) (o2 : o.y = y) (hS : CellsReach num B h lx.length ly.length S)
    (hT : CellsReach num B o lx.length ly.length T) :
    ∃ h', h.merge num o = .ok h' ∧ h'.x = x ∧ h'.y = y ∧
      CellsReach num B h' lx.length ly.length (fun i j => S i j ++ T i j) := by
  have okx := reach_axisOk rx hx
  have oky := reach_axisOk ry hy
  obtain ⟨hl, hS⟩ := hS
  obtain ⟨ol, hT⟩ := hT
  have hcell : ∀ k, ∃ c', k < lx.length * ly.length → ∃ a b, h.cells[k]? = some a ∧
      o.cells[k]? = some b ∧ Histogram.mergeCell num a b = .ok c' ∧
      ∀ i j, i < lx.length → j < ly.length → k = i * ly.length + j →
        Spec.Reach num B c' (S i j ++ T i j) := by
    intro k
    by_cases hk : k < lx.length * ly.length
    · obtain ⟨i, j, hi, hj, rfl⟩ := exists_cell hk
      obtain ⟨a, ea, ra⟩ := hS i j hi hj
      obtain ⟨b, eb, rb⟩ := hT i j hi hj
      obtain ⟨c', ec, hc⟩ : ∃ c', Histogram.mergeCell num a b = .ok c' ∧
          Spec.Reach num B c' (S i j ++ T i j) := by
        unfold Histogram.mergeCell
        by_cases za : a.bins.length = 0
        · have zS := reach_bins_nil num B hf a _ ra za
          by_cases zb : b.bins.length = 0
          · have zT := reach_bins_nil num B hf b _ rb zb
            refine ⟨a, by simp [za, zb], ?_⟩
            rw [zT, List.append_nil]; exact ra
          · refine ⟨b, by simp [za, zb], ?_⟩
            rw [zS, List.nil_append]; exact rb
        · by_cases zb : b.bins.length = 0
          · have zT := reach_bins_nil num B hf b _ rb zb
            refine ⟨a, by simp [za, zb], ?_⟩
            rw [zT, List.append_nil]; exact ra
          · obtain ⟨c, e, _⟩ := (Streaming.C30_total num B hf a b _ _ ra rb).2.1
            refine ⟨c, by simp [za, zb, e], .merge ra rb e⟩
      refine ⟨c', fun _ => ⟨a, b, ea, eb, ec, ?_⟩⟩
      intro i' j' hi' hj' e
      obtain ⟨rfl, rfl⟩ := cell_inj hj hj' e
      exact hc
    · exact ⟨Streaming.make num 1 false, fun h => absurd h hk⟩
  choose cell hcell using hcell
  have hm := histMergeCells_ok num h.cells o.cells
    ((List.range (lx.length * ly.length)).map cell) (by rw [hl, ol]) (by simp [hl]) (by
      intro c hc
      rw [hl] at hc
      obtain ⟨a, b, ea, eb, ec, _⟩ := hcell c hc
      rw [List.getElem?_eq_getElem (by omega)] at ea eb
      rw [Option.some.inj ea, Option.some.inj eb]
      simpa using ec)
  refine ⟨⟨h.x, h.y, (List.range (lx.length * ly.length)).map cell⟩, ?_, h1, h2, by simp, ?_⟩
  · unfold Histogram.merge
    rw [h1, h2, o1, o2, hm]
    simp only [axis_beq_refl okx, axis_beq_refl oky, Bool.not_true, Bool.or_self, Bool.false_eq_true,
      if_false, bind, Except.bind]
  · intro i j hi hj
    obtain ⟨_, _, _, _, _, hc⟩ := hcell (i * ly.length + j) (cell_lt hi hj)
    refine ⟨cell (i * ly.length + j), ?_, hc i j hi hj rfl⟩
    simp only
    rw [List.getElem?_map, List.getElem?_range (cell_lt hi hj), Option.map_some]

/-- C39: different grids are refused. -/
theorem C39_merge_refused (num : Streaming.Numeric K) (h o : Histogram K)
    (hne : h.x.beq o.x = false ∨ h.y.beq o.y = false) : h.merge num o = .error .exn := by
  unfold Histogram.merge
  rcases hne with e | e <;> simp [e]

example : ∃ x y : Axis ℚ, Pyinterp.Reach false x ∧ Pyinterp.Reach false y ∧ Coordinates x [0, 2, 4] ∧
    Coordinates y [0, 4] ∧
    ((⟨x, y, List.replicate 6 (Streaming.make Streaming.exNum 2 false)⟩ : Histogram ℚ).push
      Streaming.exNum [(1 / 2, 1, some 8), (3, 4, some 2), (1 / 2, 0, some 2), (1, 1, none)]).map
      (fun h => h.cells.map fun c => c.bins.map (·.value)) = .ok [[2, 8], [], [], [], [], [2]] := by
  refine ⟨⟨false, none, .regular ⟨3, 0, 2, 1 / 2, true⟩⟩, ⟨false, none, .regular ⟨2, 0, 4, 1 / 4, true⟩⟩,
    .regular 0 4 3 (1/1000000) false _ (by decide +kernel),
    .regular 0 4 2 (1/1000000) false _ (by decide +kernel),
    ⟨rfl, by decide +kernel⟩, ⟨rfl, by decide +kernel⟩, by decide +kernel⟩

/-! ### Pickling of Binning2D -/

/-- C38: pickling a Cartesian binning whose axes survive pickling (C08) gives back the same
axes and the same contents. -/
theorem C38_pickle (b : Binning K) (hw : b.wgs = none) (sx sy : AxisState K)
    (hlen : (b.acc.length : Int) = b.x.size * b.y.size)
    (hx : b.x.getstate = .ok sx ∧ Axis.setstate sx = .ok b.x)
    (hy : b.y.getstate = .ok sy ∧ Axis.setstate sy = .ok b.y) :
    ∃ s, b.getstate = .ok s ∧ setstate s = .ok b := by
  refine ⟨⟨sx, sy, none, b.acc⟩, ?_, ?_⟩
  · simp [Binning.getstate, hx.1, hy.1, hw, bind, Except.bind]
  · simp only [setstate, hx.2, hy.2, bind, Except.bind, hlen, ne_eq, not_true_eq_false, if_false]
    rw [← hw]

/-- C38, what is false: the state of a binning on a spheroid cannot be read: the code writes
through an empty optional, which is undefined. -/
theorem C38_pickle_spheroid_false (b : Binning K) (w : K × K) (hw : b.wgs = some w) (s : State K)
    (hs : b.getstate = .ok s) (ax ay : Axis K) (hx : Axis.setstate s.x = .ok ax)
    (hy : Axis.setstate s.y = .ok ay) : setstate s = .error .ub := by
  unfold Binning.getstate at hs
  simp only [bind, Except.bind] at hs
  split at hs
  · cases hs
  · split at hs
    · cases hs
    · cases hs
      simp only at hx hy
      simp [setstate, hx, hy, bind, Except.bind, hw]

example : ∃ (b : Binning ℚ) (s : State ℚ), b.wgs = some (6378137, 1 / 298) ∧ b.getstate = .ok s ∧
    (∃ ax ay, Axis.setstate s.x = .ok ax ∧ Axis.setstate s.y = .ok ay) := by
  refine ⟨⟨⟨false, none, .regular ⟨3, 0, 2, 1 / 2, true⟩⟩, ⟨false, none, .regular ⟨2, 0, 4, 1 / 4, true⟩⟩,
    [], some (6378137, 1 / 298)⟩, ⟨.regular 0 4 3 false, .regular 0 4 2 false, some (6378137, 1 / 298), []⟩,
    rfl, ?_, ⟨false, none, .regular ⟨3, 0, 2, 1 / 2, true⟩⟩,
      ⟨false, none, .regular ⟨2, 0, 4, 1 / 4, true⟩⟩, by decide +kernel, by decide +kernel⟩
  simp only [Binning.getstate]
  rw [show Axis.getstate (⟨false, none, .regular ⟨3, 0, 2, 1 / 2, true⟩⟩ : Axis ℚ) =
      .ok (.regular 0 4 3 false) by decide +kernel,
    show Axis.getstate (⟨false, none, .regular ⟨2, 0, 4, 1 / 4, true⟩⟩ : Axis ℚ) =
      .ok (.regular 0 4 2 false) by decide +kernel]
  rfl

end

/-! ### C63: the Python operator `+` -/

/-- C63: the object returned by `a + b` holds `a += b`, and `b` is unchanged if it is another
object than `a`; nothing else is modified but `a`. -/
theorem C63_add {O : Type} (iadd : O → O → Out O) (heap : Heap O) (a b : Nat) (u v r : O)
    (ha : heap[a]? = some u) (hb : heap[b]? = some v) (hr : iadd u v = .ok r) :
    ∃ c heap', pyAdd iadd heap a b = .ok (c, heap') ∧ heap'[c]? = some r ∧
      ∀ k, k ≠ a → heap'[k]? = heap[k]? := by
  refine ⟨a, heap.set a r, by simp [pyAdd, ha, hb, hr, bind, Except.bind], ?_, ?_⟩
  · obtain ⟨h, _⟩ := List.getElem?_eq_some_iff.1 ha
    rw [List.getElem?_set_self h]
  · intro k hk
    rw [List.getElem?_set_ne (Ne.symm hk)]

/-- C63, what is false: `a + b` modifies `a`, whenever `a += b` would change it: `copy.copy`
shares the C++ object. -/
theorem C63_add_mutates {O : Type} (iadd : O → O → Out O) (heap : Heap O) (a b : Nat) (u v r : O)
    (ha : heap[a]? = some u) (hb : heap[b]? = some v) (hr : iadd u v = .ok r) (hne : r ≠ u) :
    ∃ c heap', pyAdd iadd heap a b = .ok (c, heap') ∧ c = a ∧ heap'[a]? ≠ heap[a]? := by
  refine ⟨a, heap.set a r, by simp [pyAdd, ha, hb, hr, bind, Except.bind], rfl, ?_⟩
  obtain ⟨h, _⟩ := List.getElem?_eq_some_iff.1 ha
  rw [List.getElem?_set_self h, ha]
  intro e
  exact hne (Option.some.inj e)

/- Statistics of one sample each: after `a + b`, `a` counts two samples. -/
example : (pyAdd (Stats.merge (K := ℚ)) [Stats.single 5 1, Stats.single 7 1] 0 1).map
    (fun p => p.2.map (·.count)) = .ok [2, 1] := by decide +kernel

end Pyinterp.Bin2D
