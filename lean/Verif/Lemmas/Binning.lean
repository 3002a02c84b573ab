import Mathlib.Tactic.Ring
import Mathlib.Tactic.Linarith
import Mathlib.Tactic.FieldSimp
import Verif.Model.Binning
import Verif.Spec.Grid
import Verif.Lemmas.Coordinates
import Verif.Lemmas.Statistics
import Verif.Props.C06_Indexes
import Verif.Props.C34_Statistics

namespace Pyinterp.Bin2D

open Spec

set_option linter.unusedSectionVars false

/-! ### scattering values in cells -/

/-- Updates of cells, one after the other. -/
def scatter {σ V : Type} (step : σ → V → Out σ) (arr : List σ) (items : List (Nat × V)) :
    Out (List σ) :=
  items.foldlM (fun arr it => match arr[it.1]? with
    | none => .error .ub
    | some s => do
      let s' ← step s it.2
      .ok (arr.set it.1 s')) arr

/-- The values sent to the cell `c`. -/
def itemsOf {V : Type} (c : Nat) (items : List (Nat × V)) : List V :=
  (items.filter fun it => it.1 = c).map (·.2)

theorem scatter_ok {σ V : Type} (step : σ → V → Out σ) (items : List (Nat × V)) (arr res : List σ)
    (hlen : res.length = arr.length) (hlt : ∀ it ∈ items, it.1 < arr.length)
    (h : ∀ c (hc : c < arr.length), (itemsOf c items).foldlM step arr[c] = .ok (res[c]'(by omega))) :
    scatter step arr items = .ok res := by
  induction items generalizing arr with
  | nil =>
    simp only [scatter, List.foldlM_nil, pure, Except.pure, Except.ok.injEq]
    apply List.ext_getElem hlen.symm
    intro c h1 h2
    have := h c h1
    simpa [itemsOf, pure, Except.pure] using this
  | cons it items ih =>
    have hit : it.1 < arr.length := hlt it (by simp)
    have h0 := h it.1 hit
    have e0 : itemsOf it.1 (it :: items) = it.2 :: itemsOf it.1 items := by simp [itemsOf]
    rw [e0, List.foldlM_cons] at h0
    cases hs : step arr[it.1] it.2 with
    | error e => simp [hs, bind, Except.bind] at h0
    | ok s' =>
      simp only [hs, bind, Except.bind] at h0
      have := ih (arr.set it.1 s') (by rw [List.length_set]; exact hlen)
        (by intro x hx; rw [List.length_set]; exact hlt x (by simp [hx]))
        (by
          intro c hc
          rw [List.length_set] at hc
          by_cases hcc : it.1 = c
          · subst hcc
            simpa using h0
          · have h1 := h c hc
            have e1 : itemsOf c (it :: items) = itemsOf c items := by simp [itemsOf, hcc]
            rw [e1] at h1
            rw [List.getElem_set_ne hcc]
            exact h1)
      simp only [scatter, List.foldlM_cons, List.getElem?_eq_getElem hit, hs, bind, Except.bind]
      exact this

theorem scatter_append {σ V : Type} (step : σ → V → Out σ) (items items' : List (Nat × V))
    (arr : List σ) :
    scatter step arr (items ++ items') = scatter step arr items >>= fun a => scatter step a items' := by
  simp [scatter, List.foldlM_append]

theorem updateCell_scatter {σ : Type} (nx ny : Nat) (acc : List σ) (i j : Nat) (hi : i < nx)
    (hj : j < ny) {V : Type} (step : σ → V → Out σ) (v : V) :
    updateCell (nx : Int) (ny : Int) acc (i : Int) (j : Int) (fun s => step s v) =
      scatter step acc [(i * ny + j, v)] := by
  unfold updateCell scatter
  rw [if_pos ⟨by omega, by omega, by omega, by omega⟩]
  have e : ((i : Int) * (ny : Int) + (j : Int)).toNat = i * ny + j := by
    have : ((i : Int) * (ny : Int) + (j : Int)) = ((i * ny + j : Nat) : Int) := by push_cast; ring
    rw [this]; rfl
  simp only [e, List.foldlM_cons, List.foldlM_nil]
  cases acc[i * ny + j]? with
  | none => rfl
  | some s =>
    simp only
    cases step s v <;> rfl

theorem cell_inj {ny i i' j j' : Nat} (hj : j < ny) (hj' : j' < ny) (h : i * ny + j = i' * ny + j') :
    i = i' ∧ j = j' := by
  have h1 : (i * ny + j) / ny = i := by
    rw [Nat.add_comm, Nat.add_mul_div_right _ _ (by omega), Nat.div_eq_of_lt hj, Nat.zero_add]
  have h2 : (i' * ny + j') / ny = i' := by
    rw [Nat.add_comm, Nat.add_mul_div_right _ _ (by omega), Nat.div_eq_of_lt hj', Nat.zero_add]
  have : i = i' := by rw [← h1, h, h2]
  subst this
  exact ⟨rfl, by omega⟩

section
variable {K : Type} [Field K] [LinearOrder K] [IsStrictOrderedRing K] [FloorRing K]

/-! ### nearest binning -/

theorem findIndex_bounded {a : Axis K} {l : List K} (h : AxisOk a l) (v : K) :
    ∃ i : Nat, a.findIndex v true = .ok (i : Int) ∧ i < l.length ∧
      ∃ c, OnTurn a l v c ∧ Nearest l c (i : Int) := by
  obtain ⟨m, c, hm, e, hn, _⟩ := normalize_spec h v
  obtain ⟨i, ei, hi⟩ := h.find c true
  have hnear : Nearest l c i := by
    rcases hi with ⟨_, hb, _⟩ | hi
    · exact absurd hb (by decide)
    · exact hi
  obtain ⟨w, h0, hw, hmin⟩ := hnear
  have hlt : i.toNat < l.length := by
    by_contra hc
    rw [List.getElem?_eq_none (by omega)] at hw
    exact absurd hw (by simp)
  refine ⟨i.toNat, ?_, hlt, c, onTurn_of_normOf h hm hn, w, by omega,
    by rw [Int.toNat_natCast]; exact hw, hmin⟩
  unfold Axis.findIndex
  simp only [e, bind, Except.bind, ei]
  rw [Int.toNat_of_nonneg h0]

theorem exists_index_function {a : Axis K} {l : List K} (h : AxisOk a l) :
    ∃ cx : K → Nat, (∀ v, a.findIndex v true = .ok (cx v : Int)) ∧ (∀ v, cx v < l.length) ∧
      NearestIndex a l cx := by
  choose cx h1 h2 h3 using findIndex_bounded h
  exact ⟨cx, h1, h2, h3⟩

/-- The updates of `pushNearest`. -/
def nearestItems (ny : Nat) (cx cy : K → Nat) (samples : List (K × K × Option K)) :
    List (Nat × K) :=
  samples.filterMap fun s => s.2.2.map fun v => (cx s.1 * ny + cy s.2.1, v)

theorem pushNearest_scatter {σ : Type} {x y : Axis K} {nx ny : Nat} (hx : x.size = nx)
    (hy : y.size = ny) (cx cy : K → Nat) (fx : ∀ v, x.findIndex v true = .ok (cx v : Int))
    (fy : ∀ v, y.findIndex v true = .ok (cy v : Int)) (lx : ∀ v, cx v < nx) (ly : ∀ v, cy v < ny)
    (step : σ → K → Out σ) (samples : List (K × K × Option K)) (acc : List σ) :
    pushNearest x y step acc samples = scatter step acc (nearestItems ny cx cy samples) := by
  induction samples generalizing acc with
  | nil => rfl
  | cons s samples ih =>
    obtain ⟨px, py, o⟩ := s
    cases o with
    | none => simpa [pushNearest, nearestItems] using ih acc
    | some v =>
      have hne : ((cx px : Int) ≠ -1 ∧ (cy py : Int) ≠ -1) := ⟨by omega, by omega⟩
      have e : nearestItems ny cx cy ((px, py, some v) :: samples) =
          [(cx px * ny + cy py, v)] ++ nearestItems ny cx cy samples := by simp [nearestItems]
      rw [e, scatter_append]
      simp only [pushNearest, fx, fy, bind, Except.bind, if_pos hne, hx, hy,
        updateCell_scatter nx ny acc (cx px) (cy py) (lx px) (ly py)]
      cases scatter step acc [(cx px * ny + cy py, v)] with
      | error e => rfl
      | ok a => exact ih a

theorem itemsOf_nearest {ny : Nat} {cx cy : K → Nat} (ly : ∀ v, cy v < ny) {i j : Nat} (hj : j < ny)
    (samples : List (K × K × Option K)) :
    itemsOf (i * ny + j) (nearestItems ny cx cy samples) = cellValues cx cy i j samples := by
  induction samples with
  | nil => rfl
  | cons s samples ih =>
    obtain ⟨px, py, o⟩ := s
    cases o with
    | none =>
      rw [show nearestItems ny cx cy ((px, py, none) :: samples) = nearestItems ny cx cy samples by
        simp [nearestItems], ih]
      unfold cellValues
      rw [List.filter_cons]
      split <;> simp
    | some v =>
      have e : nearestItems ny cx cy ((px, py, some v) :: samples) =
          (cx px * ny + cy py, v) :: nearestItems ny cx cy samples := by simp [nearestItems]
      rw [e]
      unfold cellValues at ih ⊢
      unfold itemsOf at ih ⊢
      rw [List.filter_cons, List.filter_cons]
      by_cases hc : cx px * ny + cy py = i * ny + j
      · obtain ⟨h1, h2⟩ := cell_inj (ly py) hj hc
        simp only [decide_true, if_true, List.map_cons, ih, h1, h2, and_self,
          List.filterMap_cons]
      · have : ¬ (cx px = i ∧ cy py = j) := by
          rintro ⟨rfl, rfl⟩; exact hc rfl
        simp only [hc, decide_false, Bool.false_eq_true, if_false, ih, this]

theorem cell_lt {nx ny i j : Nat} (hi : i < nx) (hj : j < ny) : i * ny + j < nx * ny := by
  calc i * ny + j < i * ny + ny := by omega
    _ = (i + 1) * ny := by ring
    _ ≤ nx * ny := Nat.mul_le_mul_right _ hi

theorem nearestItems_lt {nx ny : Nat} {cx cy : K → Nat} (lx : ∀ v, cx v < nx) (ly : ∀ v, cy v < ny)
    (samples : List (K × K × Option K)) : ∀ it ∈ nearestItems ny cx cy samples, it.1 < nx * ny := by
  intro it hit
  obtain ⟨s, _, hs⟩ := List.mem_filterMap.1 hit
  cases h : s.2.2 with
  | none => simp [h] at hs
  | some v =>
    simp only [h, Option.map_some, Option.some.injEq] at hs
    rw [← hs]
    exact cell_lt (lx _) (ly _)

theorem exists_cell {nx ny c : Nat} (h : c < nx * ny) : ∃ i j, i < nx ∧ j < ny ∧ c = i * ny + j := by
  have hny : 0 < ny := by
    rcases Nat.eq_zero_or_pos ny with h0 | h0
    · simp [h0] at h
    · exact h0
  exact ⟨c / ny, c % ny, Nat.div_lt_of_lt_mul (by rwa [Nat.mul_comm]), Nat.mod_lt _ hny,
    by rw [Nat.mul_comm]; exact (Nat.div_add_mod _ _).symm⟩

/-- A pure step always succeeds. -/
theorem foldlM_pure {σ V : Type} (f : σ → V → σ) (l : List V) (s : σ) :
    l.foldlM (fun s v => (.ok (f s v) : Out σ)) s = .ok (l.foldl f s) := by
  induction l generalizing s with
  | nil => rfl
  | cons v l ih => exact ih (f s v)

/-! ### merging -/

theorem mergeCells_ok (l m r : List (Stats.Acc K)) (h1 : m.length = l.length) (h2 : r.length = l.length)
    (h : ∀ c (hc : c < l.length), mergeCell l[c] (m[c]'(by omega)) = .ok (r[c]'(by omega))) :
    mergeCells l m = .ok r := by
  induction l generalizing m r with
  | nil =>
    have : r = [] := by simpa using h2
    rw [this]; rfl
  | cons a l ih =>
    cases m with
    | nil => simp at h1
    | cons b m =>
      cases r with
      | nil => simp at h2
      | cons c r =>
        have h0 := h 0 (by simp)
        simp only [List.getElem_cons_zero] at h0
        have := ih m r (by simpa using h1) (by simpa using h2) (fun k hk => by
          have := h (k + 1) (by simpa using hk)
          simpa using this)
        simp only [mergeCells, h0, this, bind, Except.bind]

theorem count_ofValues (s : List K) : (Stats.ofValues s).count = s.length := by
  obtain ⟨a, e, m, _⟩ := Stats.ofSamples_spec (s.map fun v => (v, (1 : K))) (by
    intro x hx
    obtain ⟨y, _, rfl⟩ := List.mem_map.1 hx
    exact one_pos)
  rw [Stats.ofValues_eq] at e
  have : Stats.ofValues s = a := by injection e
  rw [this, m.count, List.length_map]

/-- Merging the cells of two data sets. -/
theorem mergeCell_values (s t : List K) :
    mergeCell (Stats.ofValues s) (Stats.ofValues t) = .ok (Stats.ofValues (s ++ t)) := by
  unfold mergeCell
  rw [count_ofValues, count_ofValues]
  by_cases hs : s = []
  · subst hs
    by_cases ht : t = []
    · subst ht; rfl
    · have : t.length ≠ 0 := fun h => ht (List.length_eq_zero_iff.1 h)
      rw [if_pos ⟨rfl, this⟩]; rfl
  · have h1 : s.length ≠ 0 := fun h => hs (List.length_eq_zero_iff.1 h)
    rw [if_neg (by simp [hs])]
    by_cases ht : t = []
    · subst ht
      rw [if_neg (by simp)]; simp
    · have h2 : t.length ≠ 0 := fun h => ht (List.length_eq_zero_iff.1 h)
      rw [if_pos ⟨h1, h2⟩]
      have hp : ∀ l : List K, ∀ x ∈ l.map (fun v => (v, (1 : K))), 0 < x.2 := by
        intro l x hx
        obtain ⟨y, _, rfl⟩ := List.mem_map.1 hx
        exact one_pos
      obtain ⟨a, b, c, e1, e2, e3, e4⟩ := Stats.C35_merge (s.map fun v => (v, (1 : K)))
        (t.map fun v => (v, (1 : K))) (hp s) (hp t) (by simpa using hs) (by simpa using ht)
      rw [← List.map_append, Stats.ofValues_eq] at e4
      rw [Stats.ofValues_eq] at e1 e2
      injection e1 with e1; injection e2 with e2; injection e4 with e4
      rw [e1, e2, e3, e4]

theorem container_beq_refl (k : Container K) (l : List K) (h : Stores k l) : k.beq k = true := by
  cases k with
  | undefined => exact absurd h.size_eq (by
      intro e
      have := h.length_pos
      simp [Container.size] at e
      omega)
  | irregular p asc => simp [Container.beq]
  | regular r => simp [Container.beq]

theorem axis_beq_refl {a : Axis K} {l : List K} (h : AxisOk a l) : a.beq a = true := by
  simp [Axis.beq, container_beq_refl a.cont l h.stores]

/-! ### weights of linear binning -/

theorem area_rect (a b c d : K) :
    calculateArea ringArea [(a, b), (c, b), (c, d), (a, d), (a, b)] = |a - c| * |b - d| ∧
    calculateArea ringArea [(a, b), (a, d), (c, d), (c, b), (a, b)] = |a - c| * |b - d| := by
  have e1 : ringArea [(a, b), (c, b), (c, d), (a, d), (a, b)] = (c - a) * (b - d) := by
    simp only [ringArea]; ring
  have e2 : ringArea [(a, b), (a, d), (c, d), (c, b), (a, b)] = (a - c) * (b - d) := by
    simp only [ringArea]; ring
  rw [← abs_mul]
  have neg : (c - a) * (b - d) = -((a - c) * (b - d)) := by ring
  constructor
  · unfold calculateArea
    simp only [List.reverse_cons, List.reverse_nil, List.nil_append, List.cons_append]
    rw [e1, e2, neg]
    split
    · next h => rw [abs_of_pos (by linarith)]
    · next h => rw [abs_of_nonpos (by linarith)]
  · unfold calculateArea
    simp only [List.reverse_cons, List.reverse_nil, List.nil_append, List.cons_append]
    rw [e1, e2, neg]
    split
    · next h => rw [abs_of_neg h]
    · next h => rw [abs_of_nonneg (by linarith)]

/-- Keeps an area unless it is tiny. -/
def keep (tiny s : K) : K := if s < tiny then 0 else s

theorem between_abs {a c b : K} (h : Between a c b) : |a - c| + |c - b| = |a - b| := by
  rcases h with ⟨h1, h2⟩ | ⟨h1, h2⟩
  · rw [abs_of_nonpos (by linarith), abs_of_nonpos (by linarith), abs_of_nonpos (by linarith)]; ring
  · rw [abs_of_nonneg (by linarith), abs_of_nonneg (by linarith), abs_of_nonneg (by linarith)]; ring

theorem normalizedArea_eq {tiny total s : K} {ring : List (K × K)} (h : calculateArea ringArea ring = s)
    (h0 : 0 ≤ s) (hs : s ≤ total) : normalizedArea ringArea tiny ring total = keep tiny s := by
  unfold normalizedArea keep
  simp only [h, abs_of_nonneg h0]
  by_cases ht : s < tiny
  · rw [if_pos (Or.inr ht), if_pos ht]
  · rw [if_neg (by rintro (h' | h') <;> linarith), if_neg ht]

theorem binning2d_eq (tiny x y x0 y0 x1 y1 : K) (hx : Between x0 x x1) (hy : Between y0 y y1)
    (nx : x0 ≠ x1) (ny : y0 ≠ y1) :
    binning2d ringArea tiny (x, y) (x0, y0) (x1, y1) = .ok
      (keep tiny (|x - x1| * |y - y1|) / (|x0 - x1| * |y0 - y1|),
       keep tiny (|x - x1| * |y0 - y|) / (|x0 - x1| * |y0 - y1|),
       keep tiny (|x0 - x| * |y0 - y|) / (|x0 - x1| * |y0 - y1|),
       keep tiny (|x0 - x| * |y - y1|) / (|x0 - x1| * |y0 - y1|)) := by
  have sx := between_abs hx
  have sy := between_abs hy
  have px0 := abs_nonneg (x0 - x)
  have px1 := abs_nonneg (x - x1)
  have py0 := abs_nonneg (y0 - y)
  have py1 := abs_nonneg (y - y1)
  have bound : ∀ u v : K, 0 ≤ u → u ≤ |x0 - x1| → 0 ≤ v → v ≤ |y0 - y1| →
      0 ≤ u * v ∧ u * v ≤ |x0 - x1| * |y0 - y1| := fun u v h1 h2 h3 h4 =>
    ⟨mul_nonneg h1 h3, mul_le_mul h2 h4 h3 (abs_nonneg _)⟩
  have ht : calculateArea ringArea [(x0, y0), (x0, y1), (x1, y1), (x1, y0), (x0, y0)] =
      |x0 - x1| * |y0 - y1| := (area_rect x0 y0 x1 y1).2
  have ha : calculateArea ringArea [(x, y), (x0, y), (x0, y1), (x, y1), (x, y)] = |x0 - x| * |y - y1| := by
    rw [(area_rect x y x0 y1).1, abs_sub_comm x x0]
  have hb : calculateArea ringArea [(x, y), (x, y1), (x1, y1), (x1, y), (x, y)] = |x - x1| * |y - y1| :=
    (area_rect x y x1 y1).2
  have hc : calculateArea ringArea [(x, y), (x, y0), (x0, y0), (x0, y), (x, y)] = |x0 - x| * |y0 - y| := by
    rw [(area_rect x y x0 y0).2, abs_sub_comm x x0, abs_sub_comm y y0]
  have hd : calculateArea ringArea [(x, y), (x1, y), (x1, y0), (x, y0), (x, y)] = |x - x1| * |y0 - y| := by
    rw [(area_rect x y x1 y0).1, abs_sub_comm y y0]
  have hpos : |x0 - x1| * |y0 - y1| ≠ 0 :=
    mul_ne_zero (abs_ne_zero.2 (sub_ne_zero.2 nx)) (abs_ne_zero.2 (sub_ne_zero.2 ny))
  unfold binning2d
  simp only [ht, if_neg hpos]
  rw [normalizedArea_eq ha (bound _ _ px0 (by linarith) py1 (by linarith)).1
      (bound _ _ px0 (by linarith) py1 (by linarith)).2,
    normalizedArea_eq hb (bound _ _ px1 (by linarith) py1 (by linarith)).1
      (bound _ _ px1 (by linarith) py1 (by linarith)).2,
    normalizedArea_eq hc (bound _ _ px0 (by linarith) py0 (by linarith)).1
      (bound _ _ px0 (by linarith) py0 (by linarith)).2,
    normalizedArea_eq hd (bound _ _ px1 (by linarith) py0 (by linarith)).1
      (bound _ _ px1 (by linarith) py0 (by linarith)).2]

theorem keep_bounds {tiny s : K} (h0 : 0 ≤ s) (ht : 0 ≤ tiny) :
    0 ≤ keep tiny s ∧ keep tiny s ≤ s ∧ s - tiny ≤ keep tiny s := by
  unfold keep
  split
  · next h => exact ⟨le_rfl, h0, by linarith⟩
  · exact ⟨h0, le_rfl, by linarith⟩

/-! ### linear binning on the grid -/

/-- A cell holds the statistics of some samples with positive weights. -/
def CellInv (a : Stats.Acc K) : Prop :=
  ∃ s : List (K × K), (∀ x ∈ s, 0 < x.2) ∧ Stats.Moments a s ∧ (s ≠ [] → Stats.Extremes a s)

theorem cellInv_empty : CellInv (Stats.empty : Stats.Acc K) :=
  ⟨[], by simp, Stats.moments_empty, fun h => absurd rfl h⟩

theorem cellInv_push {a : Stats.Acc K} (h : CellInv a) (v w : K) (hw : 0 < w) :
    ∃ c, Stats.pushW a v w = .ok c ∧ CellInv c ∧ c.sumOfWeights = a.sumOfWeights + w ∧
      c.sum = a.sum + w * v := by
  obtain ⟨s, hp, hm, hx⟩ := h
  obtain ⟨c, e, m, x⟩ := Stats.pushW_spec hp hm hx v w hw
  refine ⟨c, e, ⟨s ++ [(v, w)], ?_, m, fun _ => x⟩, ?_, ?_⟩
  · intro y hy
    rcases List.mem_append.1 hy with h | h
    · exact hp y h
    · have := List.mem_singleton.1 h
      rw [this]; exact hw
  · rw [m.weight, hm.weight, Stats.raw_append, Stats.raw_singleton]; ring
  · rw [m.sum, hm.sum, Stats.raw_append, Stats.raw_singleton]; ring

theorem sum_map_set {α : Type} (f : α → K) (l : List α) (j : Nat) (h : j < l.length) (s : α) :
    ((l.set j s).map f).sum = (l.map f).sum + (f s - f l[j]) := by
  induction l generalizing j with
  | nil => simp at h
  | cons a l ih =>
    cases j with
    | zero => simp; ring
    | succ j =>
      have := ih j (by simpa using h)
      simp only [List.set_cons_succ, List.map_cons, List.sum_cons, List.getElem_cons_succ, this]
      ring

/-- Total weight and total sum of a grid. -/
def gridWeight (acc : List (Stats.Acc K)) : K := (acc.map (·.sumOfWeights)).sum
def gridSum (acc : List (Stats.Acc K)) : K := (acc.map (·.sum)).sum

/-- First moment of the weights of a grid. -/
def gridMoment (φ : Nat → K) (acc : List (Stats.Acc K)) : K :=
  (acc.mapIdx fun c a => φ c * a.sumOfWeights).sum

theorem sum_mapIdx_set {α : Type} (f : Nat → α → K) (l : List α) (j : Nat) (h : j < l.length) (s : α) :
    ((l.set j s).mapIdx f).sum = (l.mapIdx f).sum + (f j s - f j l[j]) := by
  induction l generalizing j f with
  | nil => simp at h
  | cons a l ih =>
    cases j with
    | zero => simp [List.mapIdx_cons]; ring
    | succ j =>
      have := ih (fun i => f (i + 1)) j (by simpa using h)
      simp only [List.set_cons_succ, List.mapIdx_cons, List.sum_cons, List.getElem_cons_succ, this]
      ring

theorem updateAcc_spec {eps : K} (heps : 0 < eps) {nx ny : Nat} {acc : List (Stats.Acc K)}
    (hlen : acc.length = nx * ny) (hinv : ∀ a ∈ acc, CellInv a) {i j : Nat} (hi : i < nx)
    (hj : j < ny) (v w : K) (hw0 : 0 ≤ w) (hw : w = 0 ∨ eps ≤ w) :
    ∃ acc', updateAcc eps nx ny acc i j v w = .ok acc' ∧ acc'.length = nx * ny ∧
      (∀ a ∈ acc', CellInv a) ∧ gridWeight acc' = gridWeight acc + w ∧
      gridSum acc' = gridSum acc + w * v ∧
      ∀ φ : Nat → K, gridMoment φ acc' = gridMoment φ acc + φ (i * ny + j) * w := by
  unfold updateAcc
  rw [abs_of_nonneg hw0]
  rcases hw with rfl | hw
  · rw [if_pos heps]
    exact ⟨acc, rfl, hlen, hinv, by simp, by simp, by simp⟩
  · rw [if_neg (by linarith)]
    have hc : i * ny + j < acc.length := by rw [hlen]; exact cell_lt hi hj
    obtain ⟨c, e, ic, e1, e2⟩ := cellInv_push (hinv acc[i * ny + j] (List.getElem_mem hc)) v w
      (by linarith)
    rw [updateCell_scatter nx ny acc i j hi hj (fun s (_ : Unit) => Stats.pushW s v w) ()]
    refine ⟨acc.set (i * ny + j) c, ?_, by rw [List.length_set, hlen], ?_, ?_, ?_, ?_⟩
    · simp only [scatter, List.foldlM_cons, List.foldlM_nil, List.getElem?_eq_getElem hc, e, bind,
        Except.bind, pure, Except.pure]
    · intro a ha
      rcases List.mem_or_eq_of_mem_set ha with h | h
      · exact hinv a h
      · rw [h]; exact ic
    · unfold gridWeight; rw [sum_map_set _ _ _ hc, e1]; ring
    · unfold gridSum; rw [sum_map_set _ _ _ hc, e2]; ring
    · intro φ; unfold gridMoment; rw [sum_mapIdx_set _ _ _ hc, e1]; ring

end

end Pyinterp.Bin2D
