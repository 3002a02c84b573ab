import Verif.Props.C108_Variable
import Verif.Props.C106_Delayed

/-
C108: `variable` after any sequence of pushes: Binning2D with simple binning, the skewness,
and Binning1D with weights.
-/
namespace Pyinterp.Variable

open Spec

set_option linter.unusedSectionVars false

section
variable {K : Type} [Field K] [LinearOrder K] [IsStrictOrderedRing K] [FloorRing K]

/-- A sequence of calls of `push` with simple binning. -/
def pushes (b : Bin2D.Binning K) (calls : List (List (K × K × Option K))) :
    Out (Bin2D.Binning K) :=
  calls.foldlM (fun b samples => b.pushSimple samples) b

theorem pushNearest_append {σ : Type} (x y : Axis K) (step : σ → K → Out σ) (acc : List σ)
    (s t : List (K × K × Option K)) :
    Bin2D.pushNearest x y step acc (s ++ t) =
      (Bin2D.pushNearest x y step acc s).bind fun acc => Bin2D.pushNearest x y step acc t := by
  induction s generalizing acc with
  | nil => rfl
  | cons q s ih =>
    obtain ⟨px, py, o⟩ := q
    cases o with
    | none => exact ih acc
    | some v =>
      simp only [List.cons_append, Bin2D.pushNearest, bind]
      cases x.findIndex px true with
      | error e => rfl
      | ok ix =>
        cases y.findIndex py true with
        | error e => rfl
        | ok iy =>
          simp only [Except.bind]
          by_cases hc : ix ≠ -1 ∧ iy ≠ -1
          · simp only [if_pos hc]
            cases Bin2D.updateCell x.size y.size acc ix iy (fun s => step s v) with
            | error e => rfl
            | ok a => exact ih a
          · simp only [if_neg hc]
            exact ih acc

theorem pushSimple_append (b : Bin2D.Binning K) (s t : List (K × K × Option K)) :
    b.pushSimple (s ++ t) = (b.pushSimple s).bind fun b => b.pushSimple t := by
  unfold Bin2D.Binning.pushSimple
  rw [pushNearest_append]
  cases Bin2D.pushNearest b.x b.y (fun s v => (.ok (Stats.push s v) : Out (Stats.Acc K))) b.acc s <;>
    rfl

/-- Several calls of `push` are one call with all the samples. -/
theorem pushes_flatten (b : Bin2D.Binning K) (calls : List (List (K × K × Option K))) :
    pushes b calls = b.pushSimple calls.flatten := by
  induction calls generalizing b with
  | nil => rfl
  | cons s calls ih =>
    rw [List.flatten_cons, pushSimple_append]
    simp only [pushes, List.foldlM_cons, bind] at ih ⊢
    cases b.pushSimple s with
    | error e => rfl
    | ok b' => exact ih b'

/-- C108: after any sequence of simple binnings in a new instance, `variable(name)` gives, for
each documented name but `skewness`, an array with the shape of the grid, whose element
(i, j) is this statistic of the defined values of all the samples nearest to the node (i, j),
or NaN when there is none (0 for the counts and the sums); the instance is unchanged. -/
theorem C108_history (skew : Stats.Acc K → Option K) (x y : Axis K) (wgs : Option (K × K))
    (lx ly : List K) (rx : Reach false x) (ry : Reach false y) (hx : Coordinates x lx)
    (hy : Coordinates y ly) :
    ∃ cx cy : K → Nat, NearestIndex x lx cx ∧ NearestIndex y ly cy ∧
      ∀ calls, ∃ b, pushes (Bin2D.make x y wgs) calls = .ok b ∧
        ∀ name ∈ documented, ∃ cells, variable' skew b name =
            .ok (.array lx.length ly.length cells, b) ∧ cells.length = lx.length * ly.length ∧
          ∀ i j, i < lx.length → j < ly.length → ∃ r, cells[i * ly.length + j]? = some r ∧
            Expected name (cellValues cx cy i j calls.flatten) r := by
  obtain ⟨cx, cy, nx, ny, h⟩ := C108_variable skew x y wgs lx ly rx ry hx hy
  refine ⟨cx, cy, nx, ny, fun calls => ?_⟩
  obtain ⟨b, e, hb⟩ := h calls.flatten
  exact ⟨b, (pushes_flatten _ _).trans e, hb⟩

example : ∃ x y : Axis ℚ, Reach false x ∧ Reach false y ∧ Coordinates x [0, 2, 4] ∧
    Coordinates y [0, 4] ∧ (pushes (Bin2D.make x y none)
      [[(1 / 2, 1, some 8), (3, 4, some 2)], [], [(1 / 2, 0, some 2), (1, 1, none)]]).bind
      (fun b => (variable' (fun _ => none) b "variance").map (·.1)) =
      .ok (.array 3 2 [some 9, none, none, none, none, some 0]) := by
  refine ⟨⟨false, none, .regular ⟨3, 0, 2, 1 / 2, true⟩⟩, ⟨false, none, .regular ⟨2, 0, 4, 1 / 4, true⟩⟩,
    .regular 0 4 3 (1/1000000) false _ (by decide +kernel),
    .regular 0 4 2 (1/1000000) false _ (by decide +kernel),
    ⟨rfl, by decide +kernel⟩, ⟨rfl, by decide +kernel⟩, by decide +kernel⟩

/-! ### Binning1D -/

/-- What a user expects from each name on weighted samples (value, weight): the extremes are
those of the products weight × value, as in `DescriptiveStatistics` (C34). -/
def ExpectedW (name : String) (s : List (K × K)) (r : Option K) : Prop :=
  (name = "count" → r = some (s.length : K)) ∧
  (name = "sum" → r = some (weightedSum s)) ∧
  (name = "sum_of_weights" → r = some (totalWeight s)) ∧
  (name = "mean" → (s = [] → r = none) ∧ (s ≠ [] → r = some (weightedSum s / totalWeight s))) ∧
  (name = "min" → (s = [] → r = none) ∧
    (s ≠ [] → ∃ m ∈ s, r = some (m.2 * m.1) ∧ ∀ v ∈ s, m.2 * m.1 ≤ v.2 * v.1)) ∧
  (name = "max" → (s = [] → r = none) ∧
    (s ≠ [] → ∃ m ∈ s, r = some (m.2 * m.1) ∧ ∀ v ∈ s, v.2 * v.1 ≤ m.2 * m.1)) ∧
  (name = "variance" → (s = [] → r = none) ∧
    (s ≠ [] → r = some (centralSum 2 (weightedSum s / totalWeight s) s / totalWeight s))) ∧
  (name = "kurtosis" → (s = [] → r = none) ∧
    (s ≠ [] → centralSum 2 (weightedSum s / totalWeight s) s ≠ 0 →
      r = some (centralSum 4 (weightedSum s / totalWeight s) s / totalWeight s /
        (centralSum 2 (weightedSum s / totalWeight s) s / totalWeight s) ^ 2 - 3)))

theorem getter_expectedW (name : String) (h : name ∈ documented) (s : List (K × K))
    (hp : ∀ x ∈ s, 0 < x.2) (acc : Stats.Acc K) (hacc : Stats.ofSamples s = .ok acc) :
    ExpectedW name s (getter name acc) := by
  by_cases hs : s = []
  · subst hs
    obtain rfl : Stats.empty = acc := Except.ok.inj hacc
    obtain ⟨h1, h2, h3, h4, h5, h6⟩ := Stats.C34_empty (K := K)
    simp only [documented, List.mem_cons, List.not_mem_nil, or_false] at h
    rcases h with rfl | rfl | rfl | rfl | rfl | rfl | rfl | rfl <;>
      simp [ExpectedW, getter, h1, h2, h3, h4, h5, h6 0 le_rfl]
    · simp [Stats.empty, weightedSum]
    · simp [Stats.empty, totalWeight]
  · obtain ⟨a, e, c, w, sm, mean, m2, m3, m4, ⟨mn, n1, ⟨x, hx, n2⟩, n3⟩, ⟨mx, x1, ⟨y, hy, x2⟩, x3⟩⟩ :=
      Stats.C34_exact _ hp hs
    obtain ⟨a', e', hv, hk⟩ := Stats.C34_variance_kurtosis _ hp hs
    obtain rfl : acc = a := Except.ok.inj (hacc.symm.trans e)
    obtain rfl : acc = a' := Except.ok.inj (hacc.symm.trans e')
    have hpos : 0 < totalWeight s := by
      rw [← Stats.raw_zero]; exact Stats.raw_zero_pos hs hp
    have hv0 := hv 0
    rw [if_neg (by push_cast; linarith)] at hv0
    subst n2
    subst x2
    simp only [documented, List.mem_cons, List.not_mem_nil, or_false] at h
    rcases h with rfl | rfl | rfl | rfl | rfl | rfl | rfl | rfl
    · simp [ExpectedW, getter, c]
    · refine ⟨fun h => absurd h (by decide), fun h => absurd h (by decide),
        fun h => absurd h (by decide), fun h => absurd h (by decide),
        fun h => absurd h (by decide), fun h => absurd h (by decide),
        fun h => absurd h (by decide), fun _ => ⟨fun h => absurd h hs, fun _ hne => ?_⟩⟩
      show Stats.kurtosis acc = _
      rw [hk, if_neg hne]
    · refine ⟨fun h => absurd h (by decide), fun h => absurd h (by decide),
        fun h => absurd h (by decide), fun h => absurd h (by decide),
        fun h => absurd h (by decide), fun _ => ⟨fun h => absurd h hs, fun _ => ⟨y, hy, ?_, x3⟩⟩,
        fun h => absurd h (by decide), fun h => absurd h (by decide)⟩
      exact x1
    · simp [ExpectedW, getter, mean, hs]
    · refine ⟨fun h => absurd h (by decide), fun h => absurd h (by decide),
        fun h => absurd h (by decide), fun h => absurd h (by decide),
        fun _ => ⟨fun h => absurd h hs, fun _ => ⟨x, hx, ?_, n3⟩⟩, fun h => absurd h (by decide),
        fun h => absurd h (by decide), fun h => absurd h (by decide)⟩
      exact n1
    · simp [ExpectedW, getter, sm]
    · simp [ExpectedW, getter, w]
    · simp [ExpectedW, getter, hv0, hs]

theorem push1D_append (x : Axis K) (lo hi : K) (acc : List (Stats.Acc K))
    (s t : List (K × Option K × K)) :
    Bin2D.push1D x lo hi acc (s ++ t) =
      (Bin2D.push1D x lo hi acc s).bind fun acc => Bin2D.push1D x lo hi acc t := by
  induction s generalizing acc with
  | nil => rfl
  | cons q s ih =>
    obtain ⟨px, o, w⟩ := q
    cases o with
    | none => exact ih acc
    | some v =>
      simp only [List.cons_append, Bin2D.push1D, bind]
      by_cases hr : lo ≤ px ∧ px ≤ hi
      · simp only [if_pos hr]
        cases x.findIndex px true with
        | error e => rfl
        | ok ix =>
          simp only [Except.bind]
          by_cases hc : ix ≠ -1
          · simp only [if_pos hc]
            cases Bin2D.updateCell x.size 1 acc ix 0 (fun s => Stats.pushW s v w) with
            | error e => rfl
            | ok a => exact ih a
          · simp only [if_neg hc]
            exact ih acc
      · simp only [if_neg hr]
        exact ih acc

/-- A sequence of calls of `Binning1D.push`. -/
def pushes1D (b : Delayed.Binning1 K) (calls : List (List (K × Option K × K))) :
    Out (Delayed.Binning1 K) :=
  calls.foldlM (fun b samples => Delayed.push1D b samples) b

theorem pushes1D_flatten (b : Delayed.Binning1 K) (calls : List (List (K × Option K × K))) :
    pushes1D b calls = Delayed.push1D b calls.flatten := by
  induction calls generalizing b with
  | nil => rfl
  | cons s calls ih =>
    simp only [pushes1D, List.foldlM_cons, bind] at ih ⊢
    rw [List.flatten_cons]
    have e : Delayed.push1D b (s ++ calls.flatten) =
        (Delayed.push1D b s).bind fun b => Delayed.push1D b calls.flatten := by
      unfold Delayed.push1D
      rw [push1D_append]
      cases Bin2D.push1D b.bins.x b.lo b.hi b.bins.acc s <;> rfl
    rw [e]
    cases Delayed.push1D b s with
    | error e => rfl
    | ok b' => exact ih b'

/-- C108, Binning1D: after any sequence of pushes with positive weights in a new instance
with the range [lo, hi], `variable(name)` gives, for each documented name but `skewness`, an
array of shape (n, 1) whose element i is this statistic of the samples with a value, in the
range, nearest to the node i; the instance is unchanged. -/
theorem C108_variable1d (skew : Stats.Acc K → Option K) (x : Axis K) (l : List K)
    (rx : Reach false x) (hx : Coordinates x l) (lo hi : K) :
    ∃ cx : K → Nat, NearestIndex x l cx ∧
      ∀ calls : List (List (K × Option K × K)), (∀ c ∈ calls, ∀ s ∈ c, 0 < s.2.2) →
        ∃ new b, Delayed.make1D x (some (lo, hi)) = .ok new ∧ pushes1D new calls = .ok b ∧
          (b.lo, b.hi) = (lo, hi) ∧
          ∀ name ∈ documented, ∃ cells, variable' skew b.bins name =
              .ok (.array l.length 1 cells, b.bins) ∧ cells.length = l.length ∧
            ∀ i < l.length, ∃ r, cells[i]? = some r ∧
              ExpectedW name (Bin2D.binSamples cx lo hi i calls.flatten) r := by
  have okx := reach_axisOk rx hx
  obtain ⟨y, ey, ry, hy⟩ := Delayed.unitAxis_ok (K := K)
  have oky := reach_axisOk ry hy
  obtain ⟨cx, nx, h⟩ := Bin2D.C38_binning1d x l rx hx lo hi
  refine ⟨cx, nx, fun calls hw => ?_⟩
  have hw' : ∀ s ∈ calls.flatten, 0 < s.2.2 := by
    intro s hs
    obtain ⟨c, hc, hs⟩ := List.mem_flatten.1 hs
    exact hw c hc s hs
  obtain ⟨acc, e, hlen, hcell⟩ := h calls.flatten hw'
  have hacc : (Bin2D.make x y none).acc = List.replicate l.length (Stats.empty : Stats.Acc K) := by
    simp only [Bin2D.make]
    congr 1
    rw [show x.size = (l.length : Int) from okx.stores.size_eq,
      show y.size = (([0] : List K).length : Int) from oky.stores.size_eq]
    simp
  refine ⟨⟨Bin2D.make x y none, lo, hi⟩, ⟨⟨x, y, acc, none⟩, lo, hi⟩, ?_, ?_, rfl, ?_⟩
  · simp only [Delayed.make1D, ey, bind, Except.bind]
  · rw [pushes1D_flatten]
    have e' : Bin2D.push1D (Bin2D.make x y none).x lo hi (Bin2D.make x y none).acc calls.flatten =
        .ok acc := by rw [hacc]; exact e
    simp only [Delayed.push1D, e', bind, Except.bind]
    rfl
  · intro name hname
    refine ⟨acc.map (getter name), ?_, by rw [List.length_map, hlen], ?_⟩
    · rw [variable_documented skew _ name hname, calculate]
      rw [show x.size = (l.length : Int) from okx.stores.size_eq,
        show y.size = (([0] : List K).length : Int) from oky.stores.size_eq]
      rfl
    · intro i hi'
      have hi2 : i < acc.length := by omega
      refine ⟨_, by rw [List.getElem?_map, List.getElem?_eq_getElem hi2]; rfl, ?_⟩
      refine getter_expectedW name hname _ ?_ _ (hcell i _ (List.getElem?_eq_getElem hi2))
      intro p hp
      obtain ⟨s, hs, e⟩ := List.mem_filterMap.1 hp
      obtain ⟨v, _, rfl⟩ := Option.map_eq_some_iff.1 e
      exact hw' s (List.mem_of_mem_filter hs)

example : ∃ x : Axis ℚ, Reach false x ∧ Coordinates x [0, 2, 4] ∧
    ((Delayed.make1D x (some (0, 3))).bind fun b => (pushes1D b
      [[(1 / 2, some 8, 2), (3, some 2, 1)], [(1 / 2, some 2, 1), (1 / 4, none, 1), (4, some 1, 1)]]).bind
      fun b => (variable' (fun _ => none) b.bins "mean").map (·.1)) =
      .ok (.array 3 1 [some 6, none, some 2]) := by
  refine ⟨⟨false, none, .regular ⟨3, 0, 2, 1 / 2, true⟩⟩,
    .regular 0 4 3 (1/1000000) false _ (by decide +kernel),
    ⟨rfl, by decide +kernel⟩, by decide +kernel⟩

/-! ### Simple and linear binning mixed -/

/-- The (value, weight) given to the cell `c` by a sequence of calls (`simple`, samples), when a
sample at (px, py) gives its value to the cells of `share simple px py`, with weights. -/
def shared (share : Bool → K → K → List (Nat × K)) (c : Nat)
    (calls : List (Bool × List (K × K × Option K))) : List (K × K) :=
  calls.flatMap fun call => call.2.flatMap fun s => match s.2.2 with
    | none => []
    | some v => ((share call.1 s.1 s.2.1).filter fun p => p.1 = c).map fun p => (v, p.2)

/-- A sequence of calls of `push`, some of them with simple binning. -/
def pushes2D (geo : K × K → List (K × K) → K) (tiny eps : K) (b : Bin2D.Binning K) (calls : List (Bool × List (K × K × Option K))) :
    Out (Bin2D.Binning K) :=
  calls.foldlM (fun b call => Delayed.push2D geo tiny eps b call.2 call.1) b

theorem ofSamples_push (s : List (K × K)) (hp : ∀ x ∈ s, 0 < x.2) (a : Stats.Acc K)
    (ha : Stats.ofSamples s = .ok a) (vs : List K) :
    Stats.ofSamples (s ++ vs.map fun v => (v, 1)) = .ok (vs.foldl Stats.push a) := by
  induction vs using List.reverseRecOn with
  | nil => simpa using ha
  | append_singleton vs v ih =>
    have hp' : ∀ x ∈ s ++ vs.map (fun v => (v, (1 : K))), 0 < x.2 := by
      intro x hx
      rcases List.mem_append.1 hx with h | h
      · exact hp x h
      · obtain ⟨y, _, rfl⟩ := List.mem_map.1 h
        exact one_pos
    obtain ⟨b, e, m, m'⟩ := Stats.ofSamples_spec _ hp'
    rw [ih] at e
    have hb := Stats.push_spec hp' m m' v
    rw [← Except.ok.inj e] at hb
    rw [List.map_append, ← List.append_assoc]
    unfold Stats.ofSamples at ih ⊢
    rw [List.foldlM_append, ih]
    simp only [bind, Except.bind, List.map_cons, List.map_nil, List.foldlM_cons, List.foldlM_nil, hb,
      List.foldl_append, List.foldl_cons, List.foldl_nil]
    rfl

theorem itemsOf_linear (ws : K → K → List (Nat × K)) (c : Nat) (samples : List (K × K × Option K)) :
    Bin2D.itemsOf c (Delayed.linearItems ws samples) = samples.flatMap fun s => match s.2.2 with
      | none => []
      | some v => ((ws s.1 s.2.1).filter fun p => p.1 = c).map fun p => (v, p.2) := by
  induction samples with
  | nil => rfl
  | cons s samples ih =>
    rw [List.flatMap_cons, ← ih]
    unfold Delayed.linearItems
    rw [List.flatMap_cons, Delayed.itemsOf_append]
    congr 1
    cases s.2.2 with
    | none => rfl
    | some v => simp [Bin2D.itemsOf, List.filter_map, Function.comp_def]

theorem cellValues_shared (cx cy : K → Nat) (m i j : Nat) (hcy : ∀ v, cy v < m) (hj : j < m)
    (samples : List (K × K × Option K)) :
    (cellValues cx cy i j samples).map (fun v => (v, (1 : K))) =
      samples.flatMap fun s => match s.2.2 with
        | none => []
        | some v => (([(cx s.1 * m + cy s.2.1, (1 : K))] : List (Nat × K)).filter
            fun p => p.1 = i * m + j).map fun p => (v, p.2) := by
  induction samples with
  | nil => rfl
  | cons s samples ih =>
    rw [List.flatMap_cons, ← ih]
    have hiff : (cx s.1 * m + cy s.2.1 = i * m + j) ↔ (cx s.1 = i ∧ cy s.2.1 = j) := by
      constructor
      · intro h
        have h1 : (cx s.1 * m + cy s.2.1) / m = (i * m + j) / m := by rw [h]
        have h2 : (cx s.1 * m + cy s.2.1) % m = (i * m + j) % m := by rw [h]
        have hm : 0 < m := by omega
        rw [Nat.mul_comm (cx s.1), Nat.mul_comm i, Nat.mul_add_div hm, Nat.mul_add_div hm,
          Nat.div_eq_of_lt (hcy _), Nat.div_eq_of_lt hj] at h1
        rw [Nat.mul_comm (cx s.1), Nat.mul_comm i, Nat.mul_add_mod, Nat.mul_add_mod,
          Nat.mod_eq_of_lt (hcy _), Nat.mod_eq_of_lt hj] at h2
        exact ⟨by omega, h2⟩
      · rintro ⟨h1, h2⟩; rw [h1, h2]
    unfold cellValues
    rw [List.filter_cons]
    by_cases h : cx s.1 = i ∧ cy s.2.1 = j
    · rw [if_pos (by simpa using h)]
      cases ho : s.2.2 with
      | none => simp [ho]
      | some v => simp [ho, hiff.2 h]
    · rw [if_neg (by simpa using h)]
      cases ho : s.2.2 with
      | none => simp
      | some v =>
        have : ¬ (cx s.1 * m + cy s.2.1 = i * m + j) := fun h' => h (hiff.1 h')
        simp [this]

theorem itemsOf_spread (n c : Nat) (hc : c < n) (f : Nat → List (K × K)) :
    Bin2D.itemsOf c ((List.range n).flatMap fun c => (f c).map fun q => (c, q)) = f c := by
  unfold Bin2D.itemsOf
  rw [List.filter_flatMap, List.map_flatMap]
  have h : ∀ d, List.map (·.2) (List.filter (fun it : Nat × (K × K) => decide (it.1 = c))
      ((f d).map fun q => (d, q))) = if d = c then f d else [] := by
    intro d
    rw [List.filter_map]
    by_cases hd : d = c
    · simp [hd, Function.comp_def]
    · simp [hd, Function.comp_def]
  simp only [h]
  induction n with
  | zero => omega
  | succ n ih =>
    rw [List.range_succ, List.flatMap_append]
    by_cases h : c = n
    · subst h
      have hz : (List.range c).flatMap (fun d => if d = c then f d else []) = [] := by
        rw [List.flatMap_eq_nil_iff]
        intro d hd
        rw [if_neg (List.mem_range.1 hd).ne]
      rw [hz]; simp
    · rw [ih (by omega)]
      simp [Ne.symm h]

/-- C108: after any sequence of calls of `push` in a new instance without spheroid, some with
simple binning and some with linear binning, `variable(name)` gives, for each documented name
but `skewness`, an array with the shape of the grid, whose element (i, j) is this statistic of
the values given to the node (i, j) by all the samples. The nodes to which a sample gives its
value and the weights only depend on its position: with simple binning it is a nearest node
with the weight 1; with linear binning the weights are those of C37. The instance is
unchanged. -/
theorem C108_mixed (geo : K × K → List (K × K) → K) (wgs : Option (K × K)) (tiny eps : K)
    (heps : 0 < eps) (skew : Stats.Acc K → Option K) (x y : Axis K)
    (lx ly : List K) (rx : Reach false x) (ry : Reach false y) (hx : Coordinates x lx)
    (hy : Coordinates y ly) (hA : ∀ w, wgs = some w → AreaOk (geo w) lx ly)
    (hx2 : x.isCircle = true → 2 ≤ lx.length) (hy2 : y.isCircle = true → 2 ≤ ly.length) :
    ∃ (cx cy : K → Nat) (share : Bool → K → K → List (Nat × K)),
      NearestIndex x lx cx ∧ NearestIndex y ly cy ∧
      (∀ px py, share true px py = [(cx px * ly.length + cy py, 1)]) ∧
      (∀ px py, ∀ p ∈ share false px py, p.1 < lx.length * ly.length ∧ 0 < p.2) ∧
      ∀ calls, ∃ b, pushes2D geo tiny eps (Bin2D.make x y wgs) calls = .ok b ∧
        ∀ name ∈ documented, ∃ cells, variable' skew b name =
            .ok (.array lx.length ly.length cells, b) ∧ cells.length = lx.length * ly.length ∧
          ∀ i j, i < lx.length → j < ly.length → ∃ r, cells[i * ly.length + j]? = some r ∧
            ExpectedW name (shared share (i * ly.length + j) calls) r := by
  have okx := reach_axisOk rx hx
  have oky := reach_axisOk ry hy
  have hsx : x.size = (lx.length : Int) := okx.stores.size_eq
  have hsy : y.size = (ly.length : Int) := oky.stores.size_eq
  choose ws g1 g2 using Delayed.pushLinearOne_scatter (tiny := tiny) heps (Delayed.strategy_ok hA) okx oky hx2 hy2
  obtain ⟨cx, fx, bx, nx⟩ := Bin2D.exists_index_function okx
  obtain ⟨cy, fy, by', ny⟩ := Bin2D.exists_index_function oky
  let share : Bool → K → K → List (Nat × K) := fun simple px py =>
    if simple then [(cx px * ly.length + cy py, 1)] else ws px py
  have shareOk : ∀ s px py, ∀ p ∈ share s px py, p.1 < lx.length * ly.length ∧ 0 < p.2 := by
    intro s px py p hp
    cases s with
    | false => exact g1 px py p hp
    | true =>
      obtain rfl : p = (cx px * ly.length + cy py, 1) := by simpa [share] using hp
      exact ⟨Bin2D.cell_lt (bx px) (by' py), one_pos⟩
  have pos : ∀ c calls, ∀ q ∈ shared share c calls, 0 < q.2 := by
    intro c calls q hq
    obtain ⟨call, _, hq⟩ := List.mem_flatMap.1 hq
    obtain ⟨s, _, hq⟩ := List.mem_flatMap.1 hq
    cases ho : s.2.2 with
    | none => simp [ho] at hq
    | some v =>
      simp only [ho] at hq
      obtain ⟨p, hp, rfl⟩ := List.mem_map.1 hq
      exact (shareOk _ _ _ p (List.mem_of_mem_filter hp)).2
  have main : ∀ calls, ∃ acc, pushes2D geo tiny eps (Bin2D.make x y wgs) calls = .ok ⟨x, y, acc, wgs⟩ ∧
      acc.length = lx.length * ly.length ∧
      ∀ i j, i < lx.length → j < ly.length → ∃ a, acc[i * ly.length + j]? = some a ∧
        Stats.ofSamples (shared share (i * ly.length + j) calls) = .ok a := by
    intro calls
    induction calls using List.reverseRecOn with
    | nil =>
      have hacc := Delayed.make_acc okx oky wgs
      refine ⟨List.replicate (lx.length * ly.length) Stats.empty, ?_, by simp, ?_⟩
      · rw [← hacc]; rfl
      · intro i j hi hj
        exact ⟨Stats.empty, by
          rw [List.getElem?_replicate, if_pos (Bin2D.cell_lt hi hj)], rfl⟩
    | append_singleton calls call ih =>
      obtain ⟨acc, e, hlen, hcell⟩ := ih
      obtain ⟨simple, samples⟩ := call
      have step : pushes2D geo tiny eps (Bin2D.make x y wgs) (calls ++ [(simple, samples)]) =
          Delayed.push2D geo tiny eps ⟨x, y, acc, wgs⟩ samples simple := by
        unfold pushes2D at e ⊢
        rw [List.foldlM_append, e]
        simp only [bind, Except.bind, List.foldlM_cons, List.foldlM_nil]
        cases Delayed.push2D geo tiny eps ⟨x, y, acc, wgs⟩ samples simple <;> rfl
      have hsh : ∀ c, shared share c (calls ++ [(simple, samples)]) = shared share c calls ++
          samples.flatMap fun s => match s.2.2 with
            | none => []
            | some v => ((share simple s.1 s.2.1).filter fun p => p.1 = c).map fun p => (v, p.2) := by
        intro c
        simp [shared]
      cases simple with
      | true =>
        have hs := Bin2D.pushNearest_scatter okx.stores.size_eq oky.stores.size_eq cx cy fx fy bx by'
          (fun s v => (.ok (Stats.push s v) : Out (Stats.Acc K))) samples acc
        have hok := Bin2D.scatter_ok (fun s v => (.ok (Stats.push s v) : Out (Stats.Acc K)))
          (Bin2D.nearestItems ly.length cx cy samples) acc
          (acc.mapIdx fun c a =>
            (Bin2D.itemsOf c (Bin2D.nearestItems ly.length cx cy samples)).foldl Stats.push a)
          (by simp) (by rw [hlen]; exact Bin2D.nearestItems_lt bx by' samples)
          (by intro c hc; rw [Bin2D.foldlM_pure]; simp)
        refine ⟨acc.mapIdx fun c a =>
            (Bin2D.itemsOf c (Bin2D.nearestItems ly.length cx cy samples)).foldl Stats.push a,
          step.trans ?_, by rw [List.length_mapIdx]; exact hlen, ?_⟩
        · simp only [Delayed.push2D, if_true, Bin2D.Binning.pushSimple, hs, hok, bind, Except.bind]
        · intro i j hi hj
          obtain ⟨a, ea, ha⟩ := hcell i j hi hj
          refine ⟨_, by rw [List.getElem?_mapIdx, Bin2D.itemsOf_nearest by' hj, ea]; rfl, ?_⟩
          rw [hsh]
          have := ofSamples_push _ (pos _ calls) a ha (cellValues cx cy i j samples)
          rw [cellValues_shared cx cy ly.length i j by' hj] at this
          exact this
      | false =>
        have hcells : Delayed.CellsOf (lx.length * ly.length)
            ((List.range (lx.length * ly.length)).flatMap fun c =>
              (shared share c calls).map fun q => (c, q)) acc := by
          refine ⟨hlen, fun c a hc => ?_⟩
          have hcn : c < lx.length * ly.length := by
            obtain ⟨h, _⟩ := List.getElem?_eq_some_iff.1 hc
            omega
          have hitems : Bin2D.itemsOf c ((List.range (lx.length * ly.length)).flatMap fun c =>
              (shared share c calls).map fun q => (c, q)) = shared share c calls := by
            exact itemsOf_spread _ c hcn _
          have hdm : c = c / ly.length * ly.length + c % ly.length := by
            rw [Nat.mul_comm]; exact (Nat.div_add_mod c ly.length).symm
          have hly : 0 < ly.length := List.length_pos_of_ne_nil oky.stores.ne
          have hm : c % ly.length < ly.length := Nat.mod_lt _ hly
          have hd : c / ly.length < lx.length := by
            rw [Nat.div_lt_iff_lt_mul hly]; exact hcn
          obtain ⟨a', ea, ha⟩ := hcell _ _ hd hm
          rw [← hdm, hc] at ea
          rw [← hdm] at ha
          rw [hitems, ha, Option.some.inj ea]
        have hgood : Delayed.GoodItems (lx.length * ly.length)
            ((List.range (lx.length * ly.length)).flatMap fun c =>
              (shared share c calls).map fun q => (c, q)) := by
          intro it hit
          obtain ⟨c, hc, hit⟩ := List.mem_flatMap.1 hit
          obtain ⟨q, hq, rfl⟩ := List.mem_map.1 hit
          exact ⟨List.mem_range.1 hc, pos c calls q hq⟩
        have hgood' : Delayed.GoodItems (lx.length * ly.length) (Delayed.linearItems ws samples) := by
          intro it hit
          obtain ⟨q, _, hq⟩ := List.mem_flatMap.1 hit
          cases ho : q.2.2 with
          | none => simp [ho] at hq
          | some v =>
            simp only [ho] at hq
            obtain ⟨p, hp, rfl⟩ := List.mem_map.1 hq
            exact g1 _ _ p hp
        obtain ⟨acc0, e0, c0⟩ := Delayed.scatter_cells hgood
        obtain rfl := Delayed.cellsOf_unique c0 hcells
        obtain ⟨acc', e', c'⟩ := Delayed.scatter_cells (n := lx.length * ly.length)
          (items := ((List.range (lx.length * ly.length)).flatMap fun c =>
              (shared share c calls).map fun q => (c, q)) ++ Delayed.linearItems ws samples)
          (by
            intro it hit
            rcases List.mem_append.1 hit with h | h
            exacts [hgood it h, hgood' it h])
        rw [Bin2D.scatter_append, e0] at e'
        have el : Bin2D.pushLinear (Delayed.strategy geo wgs) tiny eps x y acc0 samples = .ok acc' := by
          rw [Delayed.pushLinear_scatter ws g2]
          exact e'
        refine ⟨acc', step.trans ?_, c'.1, ?_⟩
        · simp only [Delayed.push2D, Bool.false_eq_true, if_false, el, bind, Except.bind]
        · intro i j hi hj
          have hlt : i * ly.length + j < acc'.length := by
            rw [c'.1]; exact Bin2D.cell_lt hi hj
          refine ⟨_, List.getElem?_eq_getElem hlt, ?_⟩
          have hc' := c'.2 _ _ (List.getElem?_eq_getElem hlt)
          rw [Delayed.itemsOf_append, itemsOf_linear] at hc'
          have hitems : Bin2D.itemsOf (i * ly.length + j)
              ((List.range (lx.length * ly.length)).flatMap fun c =>
                (shared share c calls).map fun q => (c, q)) = shared share (i * ly.length + j) calls := by
            exact itemsOf_spread _ _ (Bin2D.cell_lt hi hj) _
          rw [hitems] at hc'
          rw [hsh]
          exact hc'
  refine ⟨cx, cy, share, nx, ny, fun _ _ => rfl, fun px py => shareOk false px py, fun calls => ?_⟩
  obtain ⟨acc, e, hlen, hcell⟩ := main calls
  refine ⟨_, e, fun name hname => ⟨acc.map (getter name), ?_, by rw [List.length_map, hlen], ?_⟩⟩
  · rw [variable_documented skew _ name hname, calculate]
    simp only [hsx, hsy]
  · intro i j hi hj
    obtain ⟨a, ea, ha⟩ := hcell i j hi hj
    exact ⟨_, by rw [List.getElem?_map, ea]; rfl,
      getter_expectedW name hname _ (pos _ calls) a ha⟩

example : ∃ x y : Axis ℚ, Reach false x ∧ Reach false y ∧ Coordinates x [0, 2, 4] ∧
    Coordinates y [0, 4] ∧ (pushes2D (fun _ => Bin2D.ringArea) (1 / 10 ^ 12) (1 / 10 ^ 10) (Bin2D.make x y none)
      [(false, [(1, 1, some 8)]), (true, [(3, 4, some 2), (0, 0, none), (0, 0, some 4)])]).bind
      (fun b => (variable' (fun _ => none) b "sum").map (·.1)) =
      .ok (.array 3 2 [some 7, some 1, some 3, some 1, some 0, some 2]) := by
  refine ⟨⟨false, none, .regular ⟨3, 0, 2, 1 / 2, true⟩⟩, ⟨false, none, .regular ⟨2, 0, 4, 1 / 4, true⟩⟩,
    .regular 0 4 3 (1/1000000) false _ (by decide +kernel),
    .regular 0 4 2 (1/1000000) false _ (by decide +kernel),
    ⟨rfl, by decide +kernel⟩, ⟨rfl, by decide +kernel⟩, by decide +kernel⟩

end

/-! ### The skewness -/

/-- C108: `variable("skewness")` on real numbers. After any sequence of simple binnings, the
element (i, j) is the third central moment over the power 3/2 of the second one, of the
defined values of the samples nearest to the node (i, j); NaN when there is none or when they
are all equal. -/
theorem C108_skewness (x y : Axis ℝ) (wgs : Option (ℝ × ℝ))
    (lx ly : List ℝ) (rx : Reach false x) (ry : Reach false y) (hx : Coordinates x lx)
    (hy : Coordinates y ly) :
    ∃ cx cy : ℝ → Nat, NearestIndex x lx cx ∧ NearestIndex y ly cy ∧
      ∀ calls, ∃ b cells, pushes (Bin2D.make x y wgs) calls = .ok b ∧
        variable' Stats.skewness b "skewness" = .ok (.array lx.length ly.length cells, b) ∧
        cells.length = lx.length * ly.length ∧
        ∀ i j, i < lx.length → j < ly.length →
          (central 2 (cellValues cx cy i j calls.flatten) = 0 →
            cells[i * ly.length + j]? = some none) ∧
          (central 2 (cellValues cx cy i j calls.flatten) ≠ 0 →
            cells[i * ly.length + j]? = some (some
              (central 3 (cellValues cx cy i j calls.flatten) /
                ((cellValues cx cy i j calls.flatten).length : ℝ) /
              (central 2 (cellValues cx cy i j calls.flatten) /
                ((cellValues cx cy i j calls.flatten).length : ℝ)) ^ (3 / 2 : ℝ)))) := by
  have okx := reach_axisOk rx hx
  have oky := reach_axisOk ry hy
  have hacc : (Bin2D.make x y wgs).acc = List.replicate (lx.length * ly.length) Stats.empty := by
    simp only [Bin2D.make]
    congr 1
    rw [show x.size = (lx.length : Int) from okx.stores.size_eq,
      show y.size = (ly.length : Int) from oky.stores.size_eq]
    rw [← Int.natCast_mul]; rfl
  obtain ⟨cx, cy, nx, ny, hpush⟩ := Bin2D.C38_simple (Bin2D.make x y wgs) lx ly rx ry hx hy
    (by rw [hacc, List.length_replicate])
  refine ⟨cx, cy, nx, ny, fun calls => ?_⟩
  obtain ⟨b, e, e1, e2, e3, e4, e5⟩ := hpush calls.flatten
  have main : ∀ i j, i < lx.length → j < ly.length →
      (b.acc.map Stats.skewness)[i * ly.length + j]? =
        some (Stats.skewness (Stats.ofValues (cellValues cx cy i j calls.flatten))) := by
    intro i j hi hj
    rw [List.getElem?_map, e5 i j hi hj, hacc, List.getElem?_replicate,
      if_pos (Bin2D.cell_lt hi hj)]
    rfl
  have key : ∀ s : List ℝ, Stats.skewness (Stats.ofValues s) = if central 2 s = 0 then none
      else some (central 3 s / (s.length : ℝ) / (central 2 s / (s.length : ℝ)) ^ (3 / 2 : ℝ)) := by
    intro s
    by_cases hs : s = []
    · subst hs
      rw [if_pos (by simp [central])]
      simp [Stats.ofValues, Stats.skewness, Stats.empty]
    · have hp : ∀ x ∈ s.map (fun v => (v, (1 : ℝ))), 0 < x.2 := by
        intro x hx
        obtain ⟨y, _, rfl⟩ := List.mem_map.1 hx
        exact one_pos
      obtain ⟨a, ea, h⟩ := Stats.C34_skewness _ hp (by simpa using hs)
      rw [Stats.C34_unweighted] at ea
      rw [Except.ok.inj ea, h, totalWeight_ones, weightedSum_ones]
      simp only [centralSum_ones]
      rfl
  refine ⟨b, b.acc.map Stats.skewness, (pushes_flatten _ _).trans e, ?_, ?_, ?_⟩
  · show Except.ok (calculate b Stats.skewness, b) = _
    rw [calculate, e1, e2]
    rw [show (Bin2D.make x y wgs).x.size = (lx.length : Int) from okx.stores.size_eq,
      show (Bin2D.make x y wgs).y.size = (ly.length : Int) from oky.stores.size_eq]
  · rw [List.length_map, e4, hacc, List.length_replicate]
  · intro i j hi hj
    rw [main i j hi hj, key]
    exact ⟨fun h => by rw [if_pos h], fun h => by rw [if_neg h]⟩

/- The skewness of 0, 0, 3 is not NaN. -/
example : central 2 ([0, 0, 3] : List ℝ) ≠ 0 := by
  norm_num [central]

end Pyinterp.Variable
