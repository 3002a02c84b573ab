/-
Outcomes shared by all the models.

A C++ function that may raise an exception or reach undefined behaviour is
modelled by a function returning `Except Err α`; `Err.exn` is a C++ exception
(a Python exception for the user) and `Err.ub` marks an operation without defined
behaviour (reading outside an array, integer division by zero, ...).
-/
namespace Pyinterp

inductive Err where
  /-- a C++ exception is thrown -/
  | exn
  /-- undefined behaviour -/
  | ub
  /-- a floating point NaN enters a state that is modelled with ordinary numbers -/
  | nan
  deriving DecidableEq, Repr

abbrev Out (α : Type) := Except Err α

/-- Instances needed to evaluate examples on `Except`. -/
instance {α : Type} [DecidableEq α] : DecidableEq (Out α) := fun a b =>
  match a, b with
  | .ok x, .ok y => if h : x = y then isTrue (by rw [h]) else isFalse (by intro h'; cases h'; exact h rfl)
  | .error x, .error y => if h : x = y then isTrue (by rw [h]) else isFalse (by intro h'; cases h'; exact h rfl)
  | .ok _, .error _ => isFalse (by intro h; cases h)
  | .error _, .ok _ => isFalse (by intro h; cases h)

/-- Unchecked read of a C++ array (`points_[index]`, `*it`): undefined behaviour
outside the array. -/
def rd {T : Type} (l : List T) (i : Int) : Out T :=
  if i < 0 then .error .ub
  else match l[i.toNat]? with
    | some v => .ok v
    | none => .error .ub

/-- `std::lower_bound(first, first + len, v, cmp)` where `p i` is `cmp(a[i], v)`:
the libstdc++ loop (C++ standard library, not part of /repo; the standard only
specifies the result on a partitioned range, which `lowerBound_spec` proves). -/
def lowerBound (p : Nat → Bool) (first len : Nat) : Nat :=
  if h : len = 0 then first
  else
    let half := len / 2
    let mid := first + half
    if p mid then lowerBound p (mid + 1) (len - half - 1)
    else lowerBound p first half
  termination_by len
  decreasing_by all_goals omega

/-- Correctness of the binary search on a partitioned range. -/
theorem lowerBound_spec (p : Nat → Bool) (first len : Nat)
    (mono : ∀ i j, first ≤ i → i ≤ j → j < first + len → p j = true → p i = true) :
    first ≤ lowerBound p first len ∧ lowerBound p first len ≤ first + len ∧
    (∀ i, first ≤ i → i < lowerBound p first len → p i = true) ∧
    (∀ i, lowerBound p first len ≤ i → i < first + len → p i = false) := by
  induction len using Nat.strongRecOn generalizing first with
  | _ len ih =>
    unfold lowerBound
    by_cases h0 : len = 0
    · simp only [h0, dif_pos]
      refine ⟨by omega, by omega, ?_, ?_⟩ <;> intros <;> omega
    · simp only [h0, dif_neg, not_false_eq_true]
      have hhalf : len / 2 < len := by omega
      by_cases hp : p (first + len / 2) = true
      · simp only [hp, if_pos]
        obtain ⟨a, b, c, d⟩ := ih (len - len / 2 - 1) (by omega) (first + len / 2 + 1)
          (fun i j h1 h2 h3 h4 => mono i j (by omega) h2 (by omega) h4)
        refine ⟨by omega, by omega, ?_, ?_⟩
        · intro i h1 h2
          by_cases hi : i ≤ first + len / 2
          · exact mono i _ h1 hi (by omega) hp
          · exact c i (by omega) h2
        · intro i h1 h2
          exact d i h1 (by omega)
      · simp only [hp, if_neg, Bool.false_eq_true, not_false_eq_true]
        obtain ⟨a, b, c, d⟩ := ih (len / 2) hhalf first
          (fun i j h1 h2 h3 h4 => mono i j h1 h2 (by omega) h4)
        refine ⟨a, by omega, c, ?_⟩
        intro i h1 h2
        by_cases hi : i < first + len / 2
        · exact d i h1 hi
        · cases hpi : p i with
          | false => rfl
          | true => exact absurd (mono _ i (by omega) (by omega) (by omega) hpi) hp

end Pyinterp
