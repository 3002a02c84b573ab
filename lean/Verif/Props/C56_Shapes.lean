import Verif.Model.Shapes
import Mathlib.Tactic.Linarith
import Mathlib.Data.Rat.Floor

/-
C56. The checks of the shapes of the arrays.
-/
set_option linter.unusedVariables false
namespace Pyinterp.Shapes

theorem okBind {α β : Type} (a : α) (f : α → Out β) : ((.ok a : Out α) >>= f) = f a := rfl

theorem errorBind {α β : Type} (e : Err) (f : α → Out β) : ((.error e : Out α) >>= f) = .error e := rfl

/-- **C56** Matrices: accepted if all the shapes are the first one, refused with an exception otherwise. -/
theorem C56_eigen (a : Nat × Nat) (others : List (Nat × Nat)) :
    ((∀ b ∈ others, b = a) → checkEigenAll a others = .ok ()) ∧
    ((∃ b ∈ others, b ≠ a) → checkEigenAll a others = .error .exn) := by
  induction others with
  | nil => simp [checkEigenAll]
  | cons b l ih =>
    by_cases h : b = a
    · subst h
      have : checkEigen b b = .ok () := by simp [checkEigen]
      simp only [checkEigenAll, this, okBind, List.mem_cons, forall_eq_or_imp, true_and, exists_eq_or_imp, ne_eq, not_true_eq_false, false_or]
      exact ih
    · have : checkEigen a b = .error .exn := by
        unfold checkEigen
        rw [if_pos]
        by_contra hc
        simp only [not_or, not_not, ne_eq] at hc
        exact h (Prod.ext hc.2.symm hc.1.symm)
      simp only [checkEigenAll, this, errorBind, implies_true, and_true]
      intro hall
      exact absurd (hall b (by simp)) h

/-- **C56** Vectors: accepted if all the sizes are the first one, refused with an exception otherwise. -/
theorem C56_size (a : Nat) (others : List Nat) :
    ((∀ b ∈ others, b = a) → checkSizeAll a others = .ok ()) ∧
    ((∃ b ∈ others, b ≠ a) → checkSizeAll a others = .error .exn) := by
  induction others with
  | nil => simp [checkSizeAll]
  | cons b l ih =>
    by_cases h : b = a
    · subst h
      have : checkSize b b = .ok () := by simp [checkSize]
      simp only [checkSizeAll, this, okBind, List.mem_cons, forall_eq_or_imp, true_and, exists_eq_or_imp, ne_eq, not_true_eq_false, false_or]
      exact ih
    · have : checkSize a b = .error .exn := by
        unfold checkSize
        rw [if_pos (Ne.symm h)]
      simp only [checkSizeAll, this, errorBind, implies_true, and_true]
      intro hall
      exact absurd (hall b (by simp)) h

/-- **C56** Numbers of dimensions: accepted if each array has the number of dimensions asked for, refused with an exception otherwise. -/
theorem C56_ndim (args : List (Nat × List Nat)) :
    ((∀ p ∈ args, p.2.length = p.1) → checkNdimAll args = .ok ()) ∧
    ((∃ p ∈ args, p.2.length ≠ p.1) → checkNdimAll args = .error .exn) := by
  induction args with
  | nil => simp [checkNdimAll]
  | cons p l ih =>
    by_cases h : p.2.length = p.1
    · have : checkNdim p.1 p.2 = .ok () := by simp [checkNdim, h]
      simp only [checkNdimAll, this, okBind, List.mem_cons, forall_eq_or_imp, h, true_and, exists_eq_or_imp, ne_eq, not_true_eq_false, false_or]
      exact ih
    · have : checkNdim p.1 p.2 = .error .exn := by
        unfold checkNdim
        rw [if_pos h]
      simp only [checkNdimAll, this, errorBind, implies_true, and_true]
      intro hall
      exact absurd (hall p (by simp)) h

theorem rd_nat {T : Type} (l : List T) (i : Nat) (h : i < l.length) : rd l (i : Int) = .ok l[i] := by
  unfold rd
  rw [if_neg (by omega)]
  simp [List.getElem?_eq_getElem h]

theorem sameDims_eq (a b : List Nat) (ix k : Nat) (ha : ix + k = a.length) (hb : ix + k = b.length) :
    sameDims a b ix k = .ok (decide (a.drop ix = b.drop ix)) := by
  induction k generalizing ix with
  | zero =>
    rw [List.drop_of_length_le (by omega), List.drop_of_length_le (by omega)]
    simp [sameDims]
  | succ k ih =>
    have h1 := rd_nat a ix (by omega)
    have h2 := rd_nat b ix (by omega)
    simp only [sameDims, h1, h2, okBind]
    have ea := List.drop_eq_getElem_cons (show ix < a.length by omega)
    have eb := List.drop_eq_getElem_cons (show ix < b.length by omega)
    rw [ea, eb]
    by_cases h : a[ix] = b[ix]
    · simp only [h, ne_eq, not_true_eq_false, if_false]
      rw [ih (ix + 1) (by omega) (by omega)]
      simp only [List.cons.injEq, true_and]
    · simp only [ne_eq, h, not_false_eq_true, if_true, List.cons.injEq, false_and, decide_false]
      rfl

theorem checkNdarray_eq (a b : List Nat) : checkNdarray a b = if a = b then .ok () else .error .exn := by
  unfold checkNdarray
  by_cases hl : a.length = b.length
  · rw [if_pos hl, sameDims_eq a b 0 a.length (by omega) (by omega), okBind]
    simp only [List.drop_zero]
    by_cases h : a = b <;> simp [h]
  · rw [if_neg hl, okBind]
    have : a ≠ b := fun h => hl (by rw [h])
    simp [this]

/-- **C56** Arrays: accepted if all the shapes are the first one, refused with an exception otherwise; the dimensions of an array are
never read beyond the last one. -/
theorem C56_ndarray (a : List Nat) (others : List (List Nat)) :
    ((∀ b ∈ others, b = a) → checkNdarrayAll a others = .ok ()) ∧
    ((∃ b ∈ others, b ≠ a) → checkNdarrayAll a others = .error .exn) := by
  induction others with
  | nil => simp [checkNdarrayAll]
  | cons b l ih =>
    by_cases h : b = a
    · subst h
      simp only [checkNdarrayAll, checkNdarray_eq, if_true, okBind, List.mem_cons, forall_eq_or_imp, true_and, exists_eq_or_imp, ne_eq,
        not_true_eq_false, false_or]
      exact ih
    · simp only [checkNdarrayAll, checkNdarray_eq, if_neg (Ne.symm h), errorBind, implies_true, and_true]
      intro hall
      exact absurd (hall b (by simp)) h

/-- **C56** The interpolations of grids and the two dimensional binnings accept vectors of one length, and refuse anything else with
an exception. -/
theorem C56_vectors (first : List Nat) (others : List (List Nat)) :
    ((∃ n, ∀ s ∈ first :: others, s = [n]) → checkVectors first others = .ok ()) ∧
    ((¬ ∃ n, ∀ s ∈ first :: others, s = [n]) → checkVectors first others = .error .exn) := by
  unfold checkVectors
  have hnd := C56_ndim ((first :: others).map fun s => (1, s))
  constructor
  · rintro ⟨n, hn⟩
    rw [hnd.1 (by
      intro p hp
      obtain ⟨s, hs, rfl⟩ := List.mem_map.1 hp
      simp [hn s hs]), okBind]
    apply (C56_ndarray first others).1
    intro b hb
    rw [hn b (List.mem_cons_of_mem _ hb), hn first (by simp)]
  · intro hne
    by_cases hall : ∀ p ∈ (first :: others).map fun s => (1, s), p.2.length = p.1
    · rw [hnd.1 hall, okBind]
      apply (C56_ndarray first others).2
      by_contra hc
      push Not at hc
      apply hne
      have h1 : first.length = 1 := hall (1, first) (by simp)
      obtain ⟨n, rfl⟩ := List.length_eq_one_iff.1 h1
      exact ⟨n, fun s hs => by
        rcases List.mem_cons.1 hs with h | h
        · exact h
        · exact hc s h⟩
    · push Not at hall
      rw [hnd.2 hall, errorBind]

/-- **C56** A mesh accepts a matrix of coordinates with two or three columns and as many rows as values, and refuses anything else with
an exception. -/
theorem C56_packing (coordinates values : List Nat) :
    ((∃ n, (coordinates = [n, 2] ∨ coordinates = [n, 3]) ∧ values = [n]) → checkPacking coordinates values = .ok ()) ∧
    ((¬ ∃ n, (coordinates = [n, 2] ∨ coordinates = [n, 3]) ∧ values = [n]) → checkPacking coordinates values = .error .exn) := by
  constructor
  · rintro ⟨n, h | h, rfl⟩ <;> subst h <;> simp [checkPacking, checkNdim, rd, bind, Except.bind]
  · intro hne
    unfold checkPacking checkNdim
    by_cases hc : coordinates.length = 2
    · obtain ⟨n, m, rfl⟩ := List.length_eq_two.1 hc
      by_cases hv : values.length = 1
      · obtain ⟨k, rfl⟩ := List.length_eq_one_iff.1 hv
        by_cases hnk : n = k
        · subst hnk
          have : ¬ (m = 2 ∨ m = 3) := by
            rintro (h | h)
            · exact hne ⟨n, .inl (by rw [h]), rfl⟩
            · exact hne ⟨n, .inr (by rw [h]), rfl⟩
          simp [rd, bind, Except.bind, this]
        · simp [rd, bind, Except.bind, hnk]
      · simp [bind, Except.bind, hv]
    · simp [bind, Except.bind, hc]

/-- Cases: three vectors of one length; one of another length; a matrix. -/
example : checkVectors [7] [[7], [7]] = .ok () ∧ checkVectors [7] [[7], [8]] = .error .exn ∧
    checkVectors [7] [[7, 1], [7]] = .error .exn ∧ checkNdarrayAll [2, 3] [[2, 3], [3, 2]] = .error .exn ∧
    checkPacking [5, 2] [5] = .ok () ∧ checkPacking [5, 4] [5] = .error .exn := by decide

/-! ### The one dimensional binning -/
section
variable {K : Type} [Field K] [LinearOrder K] [FloorRing K]

/-- The samples of the arrays: coordinates, values, weights (1 without weights). -/
def samples1D (xs : List K) (zs : List (Option K)) (ws : Option (List K)) : List (K × Option K × K) :=
  xs.zip (zs.zip (ws.getD (List.replicate xs.length 1)))

theorem push1D_cons (x : Axis K) (lo hi : K) (acc : List (Stats.Acc K)) (px value weight : K) (l : List (K × Option K × K)) :
    Bin2D.push1D x lo hi acc ((px, some value, weight) :: l) =
      pushOne x lo hi acc px value (.ok weight) >>= fun acc' => Bin2D.push1D x lo hi acc' l := by
  rw [Bin2D.push1D, pushOne]
  by_cases h : lo ≤ px ∧ px ≤ hi
  · simp only [if_pos h]
    cases x.findIndex px true with
    | error e => rfl
    | ok ix =>
      simp only [okBind]
      by_cases hx : ix ≠ -1
      · simp only [if_pos hx]
      · simp only [if_neg hx]; rfl
  · simp only [if_neg h]

theorem push1DLoop_eq (x : Axis K) (lo hi : K) (xs : List K) (zs : List (Option K)) (ws : Option (List K))
    (hz : xs.length ≤ zs.length) (hw : ∀ w, ws = some w → xs.length ≤ w.length) (idx k : Nat) (hk : idx + k = xs.length)
    (acc : List (Stats.Acc K)) :
    push1DLoop x lo hi xs zs ws idx k acc = Bin2D.push1D x lo hi acc ((samples1D xs zs ws).drop idx) := by
  induction k generalizing idx acc with
  | zero =>
    rw [List.drop_of_length_le (by simp [samples1D]; omega)]
    rfl
  | succ k ih =>
    have hwl : xs.length ≤ (ws.getD (List.replicate xs.length 1)).length := by
      cases ws with
      | none => simp
      | some w => simpa using hw w rfl
    have hlt : idx < (samples1D xs zs ws).length := by simp [samples1D]; omega
    rw [List.drop_eq_getElem_cons hlt]
    have hget : (samples1D xs zs ws)[idx] = (xs[idx]'(by omega), zs[idx]'(by omega), (ws.getD (List.replicate xs.length 1))[idx]'(by omega)) := by
      simp [samples1D]
    rw [hget]
    have h1 := rd_nat zs idx (by omega)
    have h2 := rd_nat xs idx (by omega)
    simp only [push1DLoop, h1, okBind]
    cases hv : zs[idx]'(by omega) with
    | none => simp only [Bin2D.push1D]; exact ih (idx + 1) (by omega) acc
    | some value =>
      rw [push1D_cons]
      have hwt : readWeight ws idx = .ok ((ws.getD (List.replicate xs.length 1))[idx]'(by omega)) := by
        cases ws with
        | none => simp [readWeight]
        | some w => simp only [Option.getD_some, readWeight]; exact rd_nat w idx (by have := hw w rfl; omega)
      simp only [h2, hwt, okBind]
      congr 1
      funext acc'
      exact ih (idx + 1) (by omega) acc'

/-- **C56** `Binning1D.push` with as many values (and weights) as coordinates pushes the samples they form (C38 says what this does). -/
theorem C56_push1D_partial (x : Axis K) (lo hi : K) (acc : List (Stats.Acc K)) (xs : List K) (zs : List (Option K)) (ws : Option (List K))
    (hz : zs.length = xs.length) (hw : ∀ w, ws = some w → w.length = xs.length) :
    push1DArrays x lo hi acc xs zs ws = Bin2D.push1D x lo hi acc (samples1D xs zs ws) := by
  have := push1DLoop_eq x lo hi xs zs ws (by omega) (fun w h => by rw [hw w h]) 0 xs.length (by omega) acc
  simpa [push1DArrays] using this

/-- **C56, the part that fails** `Binning1D.push` does not refuse more values than coordinates: the last ones are ignored. -/
theorem C56_push1D_longer_false (x : Axis K) (lo hi : K) (acc : List (Stats.Acc K)) (xs : List K) (zs more : List (Option K))
    (hz : zs.length = xs.length) :
    push1DArrays x lo hi acc xs (zs ++ more) none = push1DArrays x lo hi acc xs zs none := by
  have h1 := push1DLoop_eq x lo hi xs (zs ++ more) none (by simp; omega) (by simp) 0 xs.length (by omega) acc
  have h2 := push1DLoop_eq x lo hi xs zs none (by omega) (by simp) 0 xs.length (by omega) acc
  unfold push1DArrays
  rw [h1, h2]
  congr 2
  unfold samples1D
  have h3 : (zs ++ more).zip ((none : Option (List K)).getD (List.replicate xs.length 1)) = zs.zip ((none : Option (List K)).getD (List.replicate xs.length 1)) := by
    have : (List.replicate xs.length (1 : K)) = List.replicate xs.length 1 ++ [] := by simp
    simp only [Option.getD_none]
    conv_lhs => rw [this, List.zip_append (by simp [hz])]
    simp
  rw [h3]

/-- **C56, the part that fails** With less values than coordinates, `Binning1D.push` does not raise: it reads after the last value.
(`hgood`: the samples that exist are pushed without problem.) -/
theorem C56_push1D_shorter_false (x : Axis K) (lo hi : K) (acc acc' : List (Stats.Acc K)) (xs more : List K) (zs : List (Option K))
    (hz : zs.length = xs.length) (hmore : more ≠ []) (hgood : Bin2D.push1D x lo hi acc (samples1D xs zs none) = .ok acc') :
    push1DArrays x lo hi acc (xs ++ more) zs none = .error .ub := by
  unfold push1DArrays
  have key : ∀ k idx (acc : List (Stats.Acc K)), idx + k = (xs ++ more).length → idx ≤ xs.length →
      Bin2D.push1D x lo hi acc ((samples1D xs zs none).drop idx) = .ok acc' →
      push1DLoop x lo hi (xs ++ more) zs none idx k acc = .error .ub := by
    intro k
    induction k with
    | zero =>
      intro idx acc h1 h2
      have : more.length ≠ 0 := by simpa using hmore
      simp at h1; omega
    | succ k ih =>
      intro idx acc h1 h2 h3
      by_cases hend : idx = xs.length
      · have : rd zs (idx : Int) = .error .ub := by
          unfold rd
          rw [if_neg (by omega), hend]
          simp [hz]
        simp only [push1DLoop, this, errorBind]
      · have hlt : idx < (samples1D xs zs none).length := by simp [samples1D]; omega
        rw [List.drop_eq_getElem_cons hlt] at h3
        have hget : (samples1D xs zs none)[idx] = (xs[idx]'(by omega), zs[idx]'(by omega), 1) := by
          simp [samples1D]
        rw [hget] at h3
        have e1 := rd_nat zs idx (by omega)
        have e2 := rd_nat (xs ++ more) idx (by simp; omega)
        rw [List.getElem_append_left (by omega)] at e2
        simp only [push1DLoop, e1, okBind]
        cases hv : zs[idx]'(by omega) with
        | none => simp only [hv, Bin2D.push1D] at h3; exact ih (idx + 1) acc (by omega) (by omega) h3
        | some value =>
          rw [hv, push1D_cons] at h3
          simp only [e2, okBind, readWeight]
          cases hr : pushOne x lo hi acc (xs[idx]'(by omega)) value (.ok 1) with
          | error e => rw [hr] at h3; cases h3
          | ok acc2 =>
            rw [hr, okBind] at h3
            rw [okBind]
            exact ih (idx + 1) acc2 (by omega) (by omega) h3
  exact key _ 0 acc (by simp) (by omega) hgood

end

/-- Two coordinates, one value (the other part of the axis has no sample): undefined behaviour. -/
example : push1DArrays (⟨false, none, .regular ⟨3, 0, 2, 1 / 2, true⟩⟩ : Axis ℚ) 0 4 (List.replicate 3 Stats.empty) [1, 2] [some 5] none = .error .ub := by
  decide +kernel

/-- The hypothesis `hgood` of the theorem for these samples. -/
example : ∃ acc', Bin2D.push1D (⟨false, none, .regular ⟨3, 0, 2, 1 / 2, true⟩⟩ : Axis ℚ) 0 4 (List.replicate 3 Stats.empty)
    (samples1D [1] [some 5] none) = .ok acc' := ⟨[Stats.empty, Stats.push Stats.empty 5, Stats.empty], by decide +kernel⟩

end Pyinterp.Shapes
