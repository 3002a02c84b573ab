import Verif.Model.Interface
import Mathlib.Tactic.Tauto

/-
C78. The names of the Python interface.
-/
set_option linter.unusedVariables false
set_option linter.unusedSimpArgs false
namespace Pyinterp.Interface
open Pyinterp.RTree

/-- The documented names of the covariance functions (rtree.py:423-447). -/
def covDoc : List (List Char × Cov) :=
  [("matern_12".toList, .matern12), ("matern_32".toList, .matern32), ("matern_52".toList, .matern52),
   ("whittle_matern".toList, .whittleMatern), ("cauchy".toList, .cauchy), ("exponential".toList, .exponential),
   ("gaussian".toList, .gaussian), ("spherical".toList, .spherical), ("linear".toList, .linear)]

/-- The documented names of the radial basis functions (rtree.py:264-277). -/
def rbfDoc : List (List Char × Rbf) :=
  [("cubic".toList, .cubic), ("gaussian".toList, .gaussian), ("inverse_multiquadric".toList, .inverseMultiquadric),
   ("linear".toList, .linear), ("multiquadric".toList, .multiquadric), ("thin_plate".toList, .thinPlate)]

/-- All the names that the interface accepts, with the function that it uses. -/
theorem rbf_table : ∀ p ∈ rbfDoc, ∀ e : Bool,
    coreRbf (some p.1) e = if e && !p.2.adjustable then .error .exn else .ok p.2 := by
  decide +kernel

theorem rbf_names : ∀ s ∈ adjustableNames ++ nonAdjustableNames, ∃ p ∈ rbfDoc, p.1 = s := by decide +kernel

theorem rbfDoc_names : ∀ p ∈ rbfDoc, p.1 ∈ adjustableNames ++ nonAdjustableNames := by decide +kernel

theorem rbfDoc_unique : ∀ p ∈ rbfDoc, ∀ q ∈ rbfDoc, p.1 = q.1 → p = q := by decide +kernel

theorem coreRbf_unknown (a : Char) (l : List Char) (e : Bool) (h : a :: l ∉ adjustableNames ++ nonAdjustableNames) :
    coreRbf (some (a :: l)) e = .error .exn := by
  unfold coreRbf
  simp only
  split
  · rfl
  · rfl

/-- **C78** Radial basis functions: a text is accepted exactly if it is one of the documented names and `epsilon` is not given with a
function that does not use it; the function used is then the one of that name. Every other text is refused. -/
theorem C78_rbf (s : List Char) (hs : s ≠ []) (epsilon : Bool) (f : Rbf) :
    coreRbf (some s) epsilon = .ok f ↔ (s, f) ∈ rbfDoc ∧ (epsilon = true → f.adjustable = true) := by
  obtain ⟨a, l, rfl⟩ := List.exists_cons_of_ne_nil hs
  by_cases hmem : (a :: l) ∈ adjustableNames ++ nonAdjustableNames
  · obtain ⟨p, hp, hps⟩ := rbf_names _ hmem
    rw [← hps, rbf_table p hp]
    constructor
    · intro h
      split at h
      · cases h
      · rename_i hn
        injection h with h
        subst h
        refine ⟨hp, fun he => ?_⟩
        subst he
        simpa using hn
    · rintro ⟨h1, h2⟩
      have heq : p = (p.1, f) := rbfDoc_unique p hp _ h1 rfl
      have hpf : p.2 = f := by rw [heq]
      rw [hpf]
      cases epsilon with
      | false => simp
      | true => simp [h2 rfl]
  · rw [coreRbf_unknown a l epsilon hmem]
    constructor
    · intro h; cases h
    · rintro ⟨h1, _⟩
      exact absurd (rbfDoc_names _ h1) hmem

/-- **C78** The default function is the multiquadric, with or without `epsilon`. -/
theorem C78_rbf_default (epsilon : Bool) : coreRbf none epsilon = .ok .multiquadric ∧ coreRbf (some []) epsilon = .ok .multiquadric := by
  revert epsilon; decide +kernel

theorem cov_table : ∀ p ∈ covDoc, p.2 ≠ .whittleMatern → p.2 ≠ .cauchy → coreCovariance (some p.1) = .ok p.2 := by
  decide +kernel

theorem cov_names : ∀ s ∈ covNames, s ≠ "whittle_matern".toList → ∃ p ∈ covDoc, p.1 = s ∧ p.2 ≠ .whittleMatern ∧ p.2 ≠ .cauchy := by
  decide +kernel

theorem covDoc_names : ∀ p ∈ covDoc, p.2 ≠ .cauchy → p.1 ∈ covNames := by decide +kernel

theorem covDoc_unique : ∀ p ∈ covDoc, ∀ q ∈ covDoc, p.1 = q.1 → p = q := by decide +kernel

theorem whittle_refused : coreCovariance (some "whittle_matern".toList) = .error .exn := by decide +kernel

/-- **C78** Covariance functions: a text is accepted exactly if it is one of the documented names other than `cauchy` and
`whittle_matern`, and the function used is then the one of that name. Every other text is refused. -/
theorem C78_covariance_partial (s : List Char) (hs : s ≠ []) (f : Cov) :
    coreCovariance (some s) = .ok f ↔ (s, f) ∈ covDoc ∧ f ≠ .cauchy ∧ f ≠ .whittleMatern := by
  obtain ⟨a, l, rfl⟩ := List.exists_cons_of_ne_nil hs
  by_cases hmem : (a :: l) ∈ covNames
  · by_cases hw : a :: l = "whittle_matern".toList
    · rw [hw, whittle_refused]
      constructor
      · intro h; cases h
      · rintro ⟨h1, _, h3⟩
        have := covDoc_unique _ h1 ("whittle_matern".toList, .whittleMatern) (by decide +kernel) rfl
        injection this with _ h4
        exact absurd h4 h3
    · obtain ⟨p, hp, hps, hp1, hp2⟩ := cov_names _ hmem hw
      rw [← hps, cov_table p hp hp1 hp2]
      constructor
      · intro h
        injection h with h
        subst h
        exact ⟨hp, hp2, hp1⟩
      · rintro ⟨h1, _⟩
        have heq : p = (p.1, f) := covDoc_unique p hp _ h1 rfl
        have hpf : p.2 = f := by rw [heq]
        rw [hpf]
  · have : coreCovariance (some (a :: l)) = .error .exn := by
      unfold coreCovariance
      simp only
      rw [if_pos hmem]
    rw [this]
    constructor
    · intro h; cases h
    · rintro ⟨h1, h2, _⟩
      exact absurd (covDoc_names _ h1 h2) hmem

/-- **C78, the part that fails** Two documented names raise an exception: `cauchy` is not in the list of the interface, and
`whittle_matern` is turned into a name that the enumeration does not have. -/
theorem C78_covariance_false :
    ("cauchy".toList, Cov.cauchy) ∈ covDoc ∧ coreCovariance (some "cauchy".toList) = .error .exn ∧
    ("whittle_matern".toList, Cov.whittleMatern) ∈ covDoc ∧ coreCovariance (some "whittle_matern".toList) = .error .exn := by
  decide +kernel

/-- **C78** The default covariance function is `matern_32`. -/
theorem C78_covariance_default : coreCovariance none = .ok .matern32 ∧ coreCovariance (some []) = .ok .matern32 := by
  decide +kernel

/-- The largest integer of the data type, in absolute value (floating point: the integers that are exact, 2^53 and 2^24). -/
def DType.range : DType → Nat
  | .float64 => 2 ^ 53
  | .float32 => 2 ^ 24
  | .int64 => 2 ^ 63
  | .uint64 => 2 ^ 64 - 1
  | .int32 => 2 ^ 31
  | .uint32 => 2 ^ 32 - 1
  | .int16 => 2 ^ 15
  | .uint16 => 2 ^ 16 - 1
  | .int8 => 2 ^ 7
  | .uint8 => 2 ^ 8 - 1
  | .other => 0

/-- The integers that the core class represents exactly. -/
def Suffix.range : Suffix → Nat
  | .float64 => 2 ^ 53
  | .float32 => 2 ^ 24
  | .int8 => 2 ^ 7
  | .uint8 => 2 ^ 8 - 1

/-- **C78** Data types: exactly the ten listed types are accepted; the class chosen represents all the integers of the type, for the
floating point types and the integers of 8 and 16 bits. -/
theorem C78_dtype_partial (x : DType) (h : Bool) :
    (coreClassSuffix x h = .error .exn ↔ x = .other) ∧
    ∀ s, coreClassSuffix x h = .ok s → x ∉ [DType.int64, .uint64, .int32, .uint32] → x.range ≤ s.range := by
  cases x <;> cases h <;> simp [coreClassSuffix, DType.range, Suffix.range]

/-- **C78** The two integer classes are used exactly for the 8-bit integers when the caller asks for them. -/
theorem C78_dtype_integer (x : DType) (h : Bool) :
    (coreClassSuffix x h = .ok .int8 ↔ x = .int8 ∧ h = true) ∧ (coreClassSuffix x h = .ok .uint8 ↔ x = .uint8 ∧ h = true) := by
  cases x <;> cases h <;> simp [coreClassSuffix]

/-- **C78, the part that fails** Integers of 32 and 64 bits go to a class that cannot represent them all: 32-bit integers are stored in
simple precision. -/
theorem C78_dtype_false (h : Bool) :
    coreClassSuffix .int32 h = .ok .float32 ∧ Suffix.range .float32 < DType.range .int32 ∧
    coreClassSuffix .int64 h = .ok .float64 ∧ Suffix.range .float64 < DType.range .int64 := by
  refine ⟨rfl, by decide, rfl, by decide⟩

/-- Names that meet the hypotheses, and a text that is refused. -/
example : coreRbf (some "thin_plate".toList) false = .ok .thinPlate ∧ coreRbf (some "thin_plate".toList) true = .error .exn ∧
    coreRbf (some "Gaussian".toList) false = .error .exn ∧ coreCovariance (some "matern_52".toList) = .ok .matern52 := by
  decide +kernel

end Pyinterp.Interface
