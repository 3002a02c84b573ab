import Verif.Model.Dispatch

/-
C131. Which functions take which grids.
-/
set_option linter.unusedVariables false
namespace Pyinterp.Dispatch
open Pyinterp

/-- The functions that take a grid. -/
inductive Fun where
  | bivariate | trivariate | quadrivariate | bicubic | spline | loess
  deriving DecidableEq

/-- Their names. -/
def Fun.name : Fun → List Char
  | .bivariate => "bivariate".toList
  | .trivariate => "trivariate".toList
  | .quadrivariate => "quadrivariate".toList
  | .bicubic => "bicubic".toList
  | .spline => "spline".toList
  | .loess => "loess".toList

/-- The grids that a function takes: `bivariate` the grids of 2 dimensions with any type of values; the others need floats,
`trivariate` and `quadrivariate` 3 and 4 dimensions. -/
def Takes (f : Fun) (c : Cls) : Prop := match f with
  | .bivariate => c.dims = 2
  | .trivariate => c.dims = 3 ∧ (c.val = .float64 ∨ c.val = .float32)
  | .quadrivariate => c.dims = 4 ∧ (c.val = .float64 ∨ c.val = .float32)
  | _ => c.val = .float64 ∨ c.val = .float32

instance (f : Fun) (c : Cls) : Decidable (Takes f c) := by
  unfold Takes; cases f <;> infer_instance

/-- A class that exists: 2 dimensions without time axis, or 3 or 4 dimensions. -/
def Exists (c : Cls) : Prop := (c.dims = 2 ∧ c.temporal = false) ∨ c.dims = 3 ∨ c.dims = 4

theorem mem_classes (c : Cls) : c ∈ classes ↔ Exists c := by
  obtain ⟨t, n, v⟩ := c
  unfold Exists classes vals
  cases t <;> cases v <;> simp

theorem call_table : ∀ f ∈ [Fun.bivariate, .trivariate, .quadrivariate, .bicubic, .spline, .loess], ∀ c ∈ classes,
    (Takes f c → ∃ r ∈ registry, call f.name c = .ok r ∧ r.2 = c) ∧ (¬ Takes f c → call f.name c = .error .exn) := by
  have : ∀ f ∈ [Fun.bivariate, .trivariate, .quadrivariate, .bicubic, .spline, .loess], ∀ c ∈ classes,
      (match call f.name c with
      | .ok r => decide (r ∈ registry ∧ r.2 = c ∧ Takes f c)
      | .error e => decide (e = .exn ∧ ¬ Takes f c)) = true := by decide +kernel
  intro f hf c hc
  have h := this f hf c hc
  revert h
  cases call f.name c with
  | ok r => exact fun h => have h := of_decide_eq_true h; ⟨fun _ => ⟨r, h.1, rfl, h.2.1⟩, fun hn => absurd h.2.2 hn⟩
  | error e => exact fun h => have h := of_decide_eq_true h; ⟨fun ht => absurd ht h.2, fun _ => by rw [h.1]⟩

/-- **C131** A function called with a grid reaches a function of the core made for the class of this grid exactly when the grid is of
the number of dimensions and of a type that the function takes; otherwise an exception is raised. -/
theorem C131_call (f : Fun) (c : Cls) (hc : Exists c) :
    (Takes f c → ∃ r ∈ registry, call f.name c = .ok r ∧ r.2 = c) ∧ (¬ Takes f c → call f.name c = .error .exn) :=
  call_table f (by cases f <;> simp) c ((mem_classes c).2 hc)

/-- **C131** Whatever the text given for the function, a call that is not refused reaches a registered function of the name computed, made
for the class of the grid. -/
theorem C131_unique (f : List Char) (c : Cls) (r : List Char × Cls) (h : call f c = .ok r) :
    r.2 = c ∧ coreFunction f c = .ok r.1 ∧ r ∈ registry := by
  unfold call at h
  cases hn : coreFunction f c with
  | error e => rw [hn] at h; cases h
  | ok name =>
    rw [hn] at h
    change (match registry.find? fun r => r.1 = name ∧ r.2 = c with
      | some r => (.ok r : Out (List Char × Cls))
      | none => .error .exn) = .ok r at h
    cases hf : registry.find? fun r => r.1 = name ∧ r.2 = c with
    | none => rw [hf] at h; cases h
    | some r' =>
      rw [hf] at h
      cases h
      have h1 := List.find?_some hf
      simp only [decide_eq_true_eq] at h1
      exact ⟨h1.2, by rw [h1.1], List.mem_of_find?_eq_some hf⟩

/-- **C131** Every fitting model of `bicubic` other than `bicubic` is given to the splines, for every grid of floats. -/
theorem C131_bicubic (m : List Char) (c : Cls) (hc : Exists c) (hv : c.val = .float64 ∨ c.val = .float32) :
    (m = "bicubic".toList → ∃ r ∈ registry, call (bicubicFunction m) c = .ok r ∧ "bicubic_".toList <+: r.1 ∧ r.2 = c) ∧
    (m ≠ "bicubic".toList → ∃ r ∈ registry, call (bicubicFunction m) c = .ok r ∧ "spline_".toList <+: r.1 ∧ r.2 = c) := by
  have key : ∀ f ∈ [Fun.bicubic, .spline], Takes f c → ∃ r ∈ registry, call f.name c = .ok r ∧ (f.name ++ ['_']) <+: r.1 ∧ r.2 = c := by
    intro f hf ht
    obtain ⟨r, h1, h2, h3⟩ := (C131_call f c hc).1 ht
    refine ⟨r, h1, h2, ?_, h3⟩
    have h4 := (C131_unique _ _ _ h2).2.1
    unfold coreFunction at h4
    split at h4
    · cases h4
    · split at h4
      · cases h4
      · simp only [Except.ok.injEq] at h4
        rw [← h4]
        exact List.prefix_append _ _
  unfold bicubicFunction
  constructor
  · intro h; rw [if_pos h]; exact key .bicubic (by simp) hv
  · intro h; rw [if_neg h]; exact key .spline (by simp) hv

/-- **C131, the part that fails** "Every grid that can be made can be interpolated". The constructor of a grid of 3 or 4
dimensions takes 8-bit integers (the class exists), and then every function refuses it. -/
theorem C131_integers_false (t : Bool) (n : Nat) (hn : n = 3 ∨ n = 4) (v : Val) (hv : v = .int8 ∨ v = .uint8) (f : Fun) :
    (⟨t, n, v⟩ : Cls) ∈ classes ∧ call f.name ⟨t, n, v⟩ = .error .exn := by
  have he : Exists ⟨t, n, v⟩ := by unfold Exists; rcases hn with rfl | rfl <;> simp
  refine ⟨(mem_classes _).2 he, (C131_call f _ he).2 ?_⟩
  unfold Takes
  rcases hn with rfl | rfl <;> rcases hv with rfl | rfl <;> cases f <;> simp

/-- The hypotheses are met: the four types of values, and the names that are reached. -/
example : Exists ⟨false, 2, .uint8⟩ ∧ Takes .bivariate ⟨false, 2, .uint8⟩ ∧
    call Fun.bivariate.name ⟨false, 2, .uint8⟩ = .ok ("bivariate_uint8".toList, ⟨false, 2, .uint8⟩) ∧
    call Fun.loess.name ⟨true, 4, .float32⟩ = .ok ("loess_float32".toList, ⟨true, 4, .float32⟩) ∧
    ¬ Takes .bicubic ⟨false, 2, .int8⟩ := by
  refine ⟨Or.inl ⟨rfl, rfl⟩, rfl, by decide +kernel, by decide +kernel, by decide⟩

end Pyinterp.Dispatch
