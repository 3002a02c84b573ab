import Verif.Model.Variable
import Verif.Props.C37_Binning

/-
C108: `variable` of Binning2D.
-/
namespace Pyinterp.Variable

open Spec

set_option linter.unusedSectionVars false

section
variable {K : Type} [Field K] [LinearOrder K] [IsStrictOrderedRing K] [FloorRing K]

/-- Σ (v - mean)ⁿ -/
def central (n : Nat) (s : List K) : K := (s.map fun v => (v - s.sum / (s.length : K)) ^ n).sum

/-- The values of a statistical variable of the data set `s`: what a user expects from its
name. -/
def Expected (name : String) (s : List K) (r : Option K) : Prop :=
  (name = "count" → r = some (s.length : K)) ∧
  (name = "sum" → r = some s.sum) ∧
  (name = "sum_of_weights" → r = some (s.length : K)) ∧
  (name = "mean" → (s = [] → r = none) ∧ (s ≠ [] → r = some (s.sum / (s.length : K)))) ∧
  (name = "min" → (s = [] → r = none) ∧ (s ≠ [] → ∃ m ∈ s, r = some m ∧ ∀ v ∈ s, m ≤ v)) ∧
  (name = "max" → (s = [] → r = none) ∧ (s ≠ [] → ∃ m ∈ s, r = some m ∧ ∀ v ∈ s, v ≤ m)) ∧
  (name = "variance" → (s = [] → r = none) ∧
    (s ≠ [] → r = some (central 2 s / (s.length : K)))) ∧
  (name = "kurtosis" → (s = [] → r = none) ∧
    (s ≠ [] → central 2 s ≠ 0 →
      r = some (central 4 s / (s.length : K) / (central 2 s / (s.length : K)) ^ 2 - 3)))

/-- The documented names, but the skewness. -/
def documented : List String :=
  ["count", "kurtosis", "max", "mean", "min", "sum", "sum_of_weights", "variance"]

/-- The accumulator behind each name. -/
def getter (name : String) (a : Stats.Acc K) : Option K :=
  if name = "count" then some (a.count : K)
  else if name = "kurtosis" then Stats.kurtosis a
  else if name = "max" then Stats.getMax a
  else if name = "mean" then Stats.getMean a
  else if name = "min" then Stats.getMin a
  else if name = "sum" then some a.sum
  else if name = "sum_of_weights" then some a.sumOfWeights
  else Stats.variance a 0

theorem variable_documented (skew : Stats.Acc K → Option K) (b : Bin2D.Binning K) (name : String)
    (h : name ∈ documented) : variable' skew b name = .ok (calculate b (getter name), b) := by
  simp only [documented, List.mem_cons, List.not_mem_nil, or_false] at h
  rcases h with rfl | rfl | rfl | rfl | rfl | rfl | rfl | rfl <;> rfl

theorem totalWeight_ones (s : List K) : totalWeight (s.map fun v => (v, (1 : K))) = s.length := by
  simp [totalWeight, Function.comp_def]

theorem weightedSum_ones (s : List K) : weightedSum (s.map fun v => (v, (1 : K))) = s.sum := by
  simp [weightedSum, Function.comp_def]

theorem centralSum_ones (n : Nat) (c : K) (s : List K) :
    centralSum n c (s.map fun v => (v, (1 : K))) = (s.map fun v => (v - c) ^ n).sum := by
  simp [centralSum, Function.comp_def]

theorem getter_expected (name : String) (h : name ∈ documented) (s : List K) :
    Expected name s (getter name (Stats.ofValues s)) := by
  by_cases hs : s = []
  · subst hs
    have e : (Stats.ofValues ([] : List K)) = Stats.empty := rfl
    obtain ⟨h1, h2, h3, h4, h5, h6⟩ := Stats.C34_empty (K := K)
    rw [e]
    simp only [documented, List.mem_cons, List.not_mem_nil, or_false] at h
    rcases h with rfl | rfl | rfl | rfl | rfl | rfl | rfl | rfl <;>
      simp [Expected, getter, h1, h2, h3, h4, h5, h6 0 le_rfl]
    · simp [Stats.empty]
    · simp [Stats.empty]
  · have hp : ∀ x ∈ s.map (fun v => (v, (1 : K))), 0 < x.2 := by
      intro x hx
      obtain ⟨y, _, rfl⟩ := List.mem_map.1 hx
      exact one_pos
    have hs' : s.map (fun v => (v, (1 : K))) ≠ [] := by simpa using hs
    obtain ⟨a, e, c, w, sm, mean, m2, m3, m4, ⟨mn, n1, ⟨x, hx, n2⟩, n3⟩, ⟨mx, x1, ⟨y, hy, x2⟩, x3⟩⟩ :=
      Stats.C34_exact _ hp hs'
    obtain ⟨a', e', hv, hk⟩ := Stats.C34_variance_kurtosis _ hp hs'
    rw [Stats.C34_unweighted] at e e'
    have ea : Stats.ofValues s = a := Except.ok.inj e
    have ea' : Stats.ofValues s = a' := Except.ok.inj e'
    have hlen : (0 : K) < (s.length : K) := by
      exact_mod_cast List.length_pos_iff.2 hs
    rw [totalWeight_ones, weightedSum_ones] at *
    simp only [centralSum_ones] at *
    simp only [show ∀ n, (s.map fun v => (v - s.sum / (s.length : K)) ^ n).sum = central n s from
      fun _ => rfl] at hv hk
    obtain ⟨x', hx', rfl⟩ := List.mem_map.1 hx
    obtain ⟨y', hy', rfl⟩ := List.mem_map.1 hy
    simp only [one_mul] at n2 x2
    subst n2
    subst x2
    have n3' : ∀ v ∈ s, mn ≤ v := fun v hv' => by
      simpa using n3 (v, 1) (List.mem_map.2 ⟨v, hv', rfl⟩)
    have x3' : ∀ v ∈ s, v ≤ mx := fun v hv' => by
      simpa using x3 (v, 1) (List.mem_map.2 ⟨v, hv', rfl⟩)
    have hv0 := hv 0
    rw [if_neg (by push_cast; linarith)] at hv0
    simp only [documented, List.mem_cons, List.not_mem_nil, or_false] at h
    rcases h with rfl | rfl | rfl | rfl | rfl | rfl | rfl | rfl
    · simp [Expected, getter, ea, c]
    · refine ⟨fun h => absurd h (by decide), fun h => absurd h (by decide),
        fun h => absurd h (by decide), fun h => absurd h (by decide),
        fun h => absurd h (by decide), fun h => absurd h (by decide),
        fun h => absurd h (by decide), fun _ => ⟨fun h => absurd h hs, fun _ hne => ?_⟩⟩
      show Stats.kurtosis (Stats.ofValues s) = _
      rw [ea', hk, if_neg hne]
    · simp [Expected, getter, ea, x1, hs]
      exact ⟨hy', x3'⟩
    · simp [Expected, getter, ea, mean, hs]
    · simp [Expected, getter, ea, n1, hs]
      exact ⟨hx', n3'⟩
    · simp [Expected, getter, ea, sm]
    · simp [Expected, getter, ea, w]
    · simp [Expected, getter, ea', hv0, hs]

/-- C108: after a simple binning of any samples in a new instance, `variable(name)` gives, for
each documented name but `skewness`, an array with the shape of the grid, whose element
(i, j) is this statistic of the defined values of the samples nearest to the node (i, j), or
NaN when there is none (0 for the counts and the sums); the instance is unchanged. -/
theorem C108_variable (skew : Stats.Acc K → Option K) (x y : Axis K) (wgs : Option (K × K))
    (lx ly : List K) (rx : Reach false x) (ry : Reach false y) (hx : Coordinates x lx)
    (hy : Coordinates y ly) :
    ∃ cx cy : K → Nat, NearestIndex x lx cx ∧ NearestIndex y ly cy ∧
      ∀ samples, ∃ b, (Bin2D.make x y wgs).pushSimple samples = .ok b ∧
        ∀ name ∈ documented, ∃ cells, variable' skew b name =
            .ok (.array lx.length ly.length cells, b) ∧ cells.length = lx.length * ly.length ∧
          ∀ i j, i < lx.length → j < ly.length → ∃ r, cells[i * ly.length + j]? = some r ∧
            Expected name (cellValues cx cy i j samples) r := by
  have okx := reach_axisOk rx hx
  have oky := reach_axisOk ry hy
  have hacc : (Bin2D.make x y wgs).acc = List.replicate (lx.length * ly.length) Stats.empty := by
    simp only [Bin2D.make]
    congr 1
    rw [show x.size = (lx.length : Int) from okx.stores.size_eq,
      show y.size = (ly.length : Int) from oky.stores.size_eq]
    rw [← Int.natCast_mul]; rfl
  obtain ⟨cx, cy, nx, ny, hpush⟩ := Bin2D.C38_simple (Bin2D.make x y wgs) lx ly rx ry hx hy
    (by rw [hacc, List.length_replicate])
  refine ⟨cx, cy, nx, ny, fun samples => ?_⟩
  obtain ⟨b, e, e1, e2, e3, e4, e5⟩ := hpush samples
  refine ⟨b, e, fun name hname => ⟨b.acc.map (getter name), ?_, ?_, ?_⟩⟩
  · rw [variable_documented skew b name hname, calculate, e1, e2]
    rw [show (Bin2D.make x y wgs).x.size = (lx.length : Int) from okx.stores.size_eq,
      show (Bin2D.make x y wgs).y.size = (ly.length : Int) from oky.stores.size_eq]
  · rw [List.length_map, e4, hacc, List.length_replicate]
  · intro i j hi hj
    refine ⟨_, ?_, getter_expected name hname _⟩
    rw [List.getElem?_map, e5 i j hi hj, hacc, List.getElem?_replicate,
      if_pos (Bin2D.cell_lt hi hj)]
    rfl

example : ∃ x y : Axis ℚ, Reach false x ∧ Reach false y ∧ Coordinates x [0, 2, 4] ∧
    Coordinates y [0, 4] ∧ ((Bin2D.make x y none).pushSimple
      [(1 / 2, 1, some 8), (3, 4, some 2), (1 / 2, 0, some 2), (1, 1, none)]).bind
      (fun b => (variable' (fun _ => none) b "variance").map (·.1)) =
      .ok (.array 3 2 [some 9, none, none, none, none, some 0]) := by
  refine ⟨⟨false, none, .regular ⟨3, 0, 2, 1 / 2, true⟩⟩, ⟨false, none, .regular ⟨2, 0, 4, 1 / 4, true⟩⟩,
    .regular 0 4 3 (1/1000000) false _ (by decide +kernel),
    .regular 0 4 2 (1/1000000) false _ (by decide +kernel),
    ⟨rfl, by decide +kernel⟩, ⟨rfl, by decide +kernel⟩, by decide +kernel⟩

/-- C108: the instance is unchanged, and the other names are refused, unless the name is
`clear`. -/
theorem C108_unknown (skew : Stats.Acc K → Option K) (b : Bin2D.Binning K) (name : String)
    (h : name ∉ documented) (hs : name ≠ "skewness") (hc : name ≠ "clear") :
    variable' skew b name = .error .exn := by
  simp only [documented, List.mem_cons, List.not_mem_nil, or_false, not_or] at h
  simp [variable', h, hs, hc]

example : "median" ∉ documented ∧ "median" ≠ "skewness" ∧ "median" ≠ "clear" := by decide

/-- C108, what is false: `variable("clear")` is accepted, returns `None` and erases the
statistics. -/
theorem C108_clear_false (skew : Stats.Acc K → Option K) (b : Bin2D.Binning K) :
    variable' skew b "clear" = .ok (.nothing, Bin2D.make b.x b.y b.wgs) := rfl

end

end Pyinterp.Variable
