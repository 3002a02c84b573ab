import Verif.Model.FillPy
import Verif.Props.C52_FillLine

/-
**C112** `pyinterp.fill.vector` and `pyinterp.fill.matrix` (Python): the types of the elements, the
filling value, the array of the caller.
-/
namespace Pyinterp.FillPy
open Pyinterp Pyinterp.FillLine Spec
set_option linter.unusedSectionVars false
set_option linter.unusedVariables false

variable {K : Type} [Field K] [LinearOrder K] [IsStrictOrderedRing K] [FloorRing K]

/-- **C112** With `in_place=False` the array of the caller is never modified; otherwise the array returned is the array of the
caller. A call of `vector` that raises an exception modifies nothing. -/
theorem C112_in_place (x : Vec K) (fill : FillArg K) (m : Mat K) :
    (vector x fill false).caller = x.data ∧ (matrix m fill false).caller = m.data ∧
    (∀ d, (vector x fill true).result = .ok d → (vector x fill true).caller = d) ∧
    (∀ d, (matrix m fill true).result = .ok d → (matrix m fill true).caller = d) ∧
    (∀ e ip, (vector x fill ip).result = .error e → (vector x fill ip).caller = x.data) := by
  refine ⟨?_, ?_, ?_, ?_, ?_⟩
  · unfold vector
    by_cases h : x.ndim ≠ 1
    · rw [if_pos h]
    · rw [if_neg h]
      split <;> rfl
  · unfold matrix
    by_cases h : m.ndim ≠ 2
    · rw [if_pos h]
    · rw [if_neg h]
      simp only
      split
      · rfl
      · split <;> rfl
  · intro d
    unfold vector
    by_cases h : x.ndim ≠ 1
    · rw [if_pos h]; intro h'; cases h'
    · rw [if_neg h]
      split
      · intro h'; cases h'
      · intro h'; cases h'; rfl
  · intro d
    unfold matrix
    by_cases h : m.ndim ≠ 2
    · rw [if_pos h]; intro h'; cases h'
    · rw [if_neg h]
      simp only
      split
      · intro h'; cases h'
      · split
        · intro h'; cases h'
        · intro h'; cases h'; rfl
  · intro e ip
    unfold vector
    by_cases h : x.ndim ≠ 1
    · rw [if_pos h]; intro _; rfl
    · rw [if_neg h]
      split
      · intro _; rfl
      · intro h'; cases h'

/-- **C112** `vector`, floating point numbers: the values undefined (NaN, or equal to the number given) are filled along
straight lines. In place, the elements must follow one another in memory. -/
theorem C112_vector_float (x : Vec K) (f : Nat → Option K) (fill : FillArg K) (v : Option K) (inPlace : Bool)
    (ht : x.dtype = .float32 ∨ x.dtype = .float64) (hn : x.ndim = 1) (hd : x.data = .flt f)
    (hc : inPlace = false ∨ x.contiguous = true)
    (hf : (fill = .flt v) ∨ ∃ n : Int, fill = .int n ∧ v = some (n : K)) :
    ∃ y, (vector x fill inPlace).result = .ok (.flt y) ∧
      LineFilled x.size (fun i => undefinedBy v (f i)) f y := by
  have hv : asFloat fill = .ok v := by
    rcases hf with rfl | ⟨n, rfl, rfl⟩ <;> rfl
  have hcore : coreVectorFloat x.size (if inPlace = true then x.contiguous else true) f fill =
      .ok (FillLine.vector x.size f v) := by
    unfold coreVectorFloat
    rw [if_neg (by rcases hc with h | h <;> cases inPlace <;> simp_all), hv]
    rfl
  refine ⟨_, ?_, C52_vector x.size f v⟩
  unfold vector
  rw [if_neg (by simp [hn]), hd]
  rcases ht with h | h <;>
  · rw [h]
    simp only [vectorCore, hcore, bind, Except.bind]

/-- What filling gives with integers: the values that differ from the filling value are kept, the gaps are filled between
the two values that bound them (exactly on the line when the difference is a multiple of the length of the gap). -/
def IntFilled (size : Nat) (fill : Int) (x y : Nat → Int) : Prop :=
  (∀ i, i < size → x i ≠ fill → y i = x i) ∧
  ∀ a b i, b < size → a < i → i < b → x a ≠ fill → x b ≠ fill → (∀ m, a < m → m < b → x m = fill) →
    ((x a ≤ y i ∧ y i ≤ x b) ∨ (x b ≤ y i ∧ y i ≤ x a)) ∧
    (((b : Int) - a) ∣ (x b - x a) → y i = x a + ((i : Int) - a) * ((x b - x a) / ((b : Int) - a)))

theorem int_filled (size : Nat) (x : Nat → Int) (fill : Int) :
    IntFilled size fill x (fun i => (FillLine.vector size (fun j => some (x j)) (some fill) i).getD 0) := by
  obtain ⟨h1, h2⟩ := C52_vector_int size (fun j => some (x j)) fill
  have hu : ∀ i, undefinedBy (some fill) (some (x i)) = false ↔ x i ≠ fill := by
    intro i
    rw [← maskOf_eq]
    simp [maskOf]
  have hu' : ∀ i, undefinedBy (some fill) (some (x i)) = true ↔ x i = fill := by
    intro i
    rw [← maskOf_eq]
    simp [maskOf]
  refine ⟨fun i hi hx => ?_, ?_⟩
  · simp only
    rw [h1 i hi ((hu i).2 hx)]
    rfl
  · intro a b i hb hai hib ha hbf hgap
    obtain ⟨v, e, p, q⟩ := h2 a b (x a) (x b) i hb ⟨by omega, (hu a).2 ha, (hu b).2 hbf,
      fun m m1 m2 => (hu' m).2 (hgap m m1 m2)⟩ rfl rfl hai hib
    simp only
    rw [e]
    exact ⟨p, q⟩

/-- **C112** `vector`, integers and dates: the elements equal to the filling value (a date for dates, `NaT` for instance) are
filled. The filling value `2^63 - 1` is excluded (`C52_max_int_false`). -/
theorem C112_vector_int (x : Vec K) (f : Nat → Int) (fill : Int) (inPlace : Bool) (arg : FillArg K)
    (ht : (x.dtype = .int64 ∧ arg = .int fill) ∨
      ((x.dtype = .datetime64 ∨ x.dtype = .timedelta64) ∧ arg = .time fill))
    (hn : x.ndim = 1) (hd : x.data = .int f) (hc : inPlace = false ∨ x.contiguous = true)
    (hf : -(2 ^ 63) ≤ fill ∧ fill < 2 ^ 63 - 1) :
    ∃ y, (vector x arg inPlace).result = .ok (.int y) ∧ IntFilled x.size fill f y := by
  have hv : asInt64 (.int fill : FillArg K) = .ok (some fill) := by
    simp only [asInt64]
    rw [if_neg (by omega), if_neg (by omega)]
  have hcore : coreVectorInt x.size (if inPlace = true then x.contiguous else true) f (.int fill : FillArg K) =
      .ok (fun i => (FillLine.vector x.size (fun j => some (f j)) (some fill) i).getD 0) := by
    unfold coreVectorInt
    rw [if_neg (by rcases hc with h | h <;> cases inPlace <;> simp_all), hv]
    rfl
  refine ⟨_, ?_, int_filled x.size f fill⟩
  unfold vector
  rw [if_neg (by simp [hn]), hd]
  rcases ht with ⟨h, rfl⟩ | ⟨h | h, rfl⟩ <;> rw [h] <;>
    simp only [vectorCore, viewInt64, hcore, bind, Except.bind]

/-- **C112** The refusals of `vector`: an array that has not one dimension, an unknown type of elements, a filling value of another
kind, elements that do not follow one another with `in_place=True`. -/
theorem C112_vector_refused (x : Vec K) (fill : FillArg K) (inPlace : Bool)
    (hdata : (∃ f, x.data = .flt f ∧ (x.dtype = .float32 ∨ x.dtype = .float64 ∨ x.dtype = .other)) ∨
      ∃ f, x.data = .int f ∧ (x.dtype = .int64 ∨ x.dtype = .datetime64 ∨ x.dtype = .timedelta64 ∨ x.dtype = .other))
    (h : x.ndim ≠ 1 ∨ x.dtype = .other ∨ (inPlace = true ∧ x.contiguous = false) ∨
      ((x.dtype = .float32 ∨ x.dtype = .float64) ∧ ∃ n, fill = .time n) ∨
      (x.dtype = .int64 ∧ ∀ n, fill ≠ .int n) ∨
      ((x.dtype = .datetime64 ∨ x.dtype = .timedelta64) ∧ ∀ n, fill ≠ .time n)) :
    (vector x fill inPlace).result = .error .exn := by
  unfold vector
  by_cases hn : x.ndim ≠ 1
  · rw [if_pos hn]
  rw [if_neg hn]
  have key : vectorCore x.dtype x.size (if inPlace then x.contiguous else true) x.data fill = .error .exn := by
    rcases h with h | h | ⟨h1, h2⟩ | ⟨h, n, rfl⟩ | ⟨h, hf⟩ | ⟨h, hf⟩
    · exact absurd h hn
    · rw [h]
      cases x.data <;> rfl
    · rw [h1, h2]
      simp only [if_true]
      rcases hdata with ⟨f, e, h | h | h⟩ | ⟨f, e, h | h | h | h⟩ <;> rw [e, h] <;>
        simp only [vectorCore, coreVectorFloat, coreVectorInt, if_true, bind, Except.bind] <;>
        cases fill <;> rfl
    · rcases hdata with ⟨f, e, -⟩ | ⟨f, e, h'⟩
      · rcases h with h | h <;> rw [e, h] <;>
        · simp only [vectorCore, coreVectorFloat, asFloat, bind, Except.bind]
          split <;> first | rfl | simp_all
      · rcases h with h | h <;> rw [h] at h' <;> simp at h'
    · rcases hdata with ⟨f, e, h'⟩ | ⟨f, e, -⟩
      · rw [h] at h'; simp at h'
      · rw [e, h]
        have : asInt64 fill = .error .exn := by
          cases fill with
          | int n => exact absurd rfl (hf n)
          | flt v => rfl
          | time n => rfl
        simp only [vectorCore, coreVectorInt, this, bind, Except.bind]
        split <;> first | rfl | simp_all
    · rcases hdata with ⟨f, e, h'⟩ | ⟨f, e, -⟩
      · rcases h with h | h <;> rw [h] at h' <;> simp at h'
      · have : viewInt64 fill = .error .exn := by
          cases fill with
          | time n => exact absurd rfl (hf n)
          | flt v => rfl
          | int n => rfl
        rcases h with h | h <;> rw [e, h] <;> simp only [vectorCore, this, bind, Except.bind]
  rw [key]

/-- **C112**, the part that fails: the default filling value (NaN) is refused for integers and for dates, although the
documentation gives it for every type. -/
theorem C112_default_fill_false (x : Vec K) (f : Nat → Int) (inPlace : Bool) (hd : x.data = .int f)
    (ht : x.dtype = .int64 ∨ x.dtype = .datetime64 ∨ x.dtype = .timedelta64) :
    (vector x defaultFill inPlace).result = .error .exn := by
  refine C112_vector_refused x _ inPlace (Or.inr ⟨f, hd, by tauto⟩) ?_
  rcases ht with h | h
  · exact Or.inr (Or.inr (Or.inr (Or.inr (Or.inl ⟨h, fun n e => by cases e⟩))))
  · exact Or.inr (Or.inr (Or.inr (Or.inr (Or.inr ⟨h, fun n e => by cases e⟩))))

/-- **C112** `matrix` with elements of type `float64`: the result is that of C52. -/
theorem C112_matrix (x : Mat K) (fill : FillArg K) (v : Option K) (inPlace : Bool) (ht : x.dtype = .float64)
    (hn : x.ndim = 2) (hf : (fill = .flt v) ∨ ∃ n : Int, fill = .int n ∧ v = some (n : K)) :
    ∃ y, (matrix x fill inPlace).result = .ok y ∧
      ∃ bad : Nat → Bool,
        (∀ i, i < x.rows → (bad i = false ↔ Usable x.cols (fun j => undefinedBy v (x.data i j)))) ∧
        (∀ i, i < x.rows → bad i = false → LineFilled x.cols (fun j => undefinedBy v (x.data i j)) (x.data i) (y i)) ∧
        ∀ j, j < x.cols → LineFilled x.rows bad (fun i => if bad i then x.data i j else y i j) (fun i => y i j) := by
  have hv : asFloat fill = .ok v := by
    rcases hf with rfl | ⟨n, rfl, rfl⟩ <;> rfl
  refine ⟨FillLine.matrix x.rows x.cols x.data v, ?_, C52_matrix x.rows x.cols x.data v⟩
  unfold matrix
  rw [if_neg (by simp [hn]), ht]
  simp only [reduceCtorEq, if_false, coreMatrix, ne_eq, not_true_eq_false, hv, bind, Except.bind]

/-- **C112**, the part that fails: with elements of type `float32` the function always raises an exception (it fills the array, then
calls the function for `float64` too, which refuses it); with `in_place=True` the array of the caller has nevertheless
been filled. -/
theorem C112_matrix_float32_false (x : Mat K) (fill : FillArg K) (v : Option K) (inPlace : Bool)
    (ht : x.dtype = .float32) (hn : x.ndim = 2) (hf : asFloat fill = .ok v) :
    (matrix x fill inPlace).result = .error .exn ∧
    (matrix x fill true).caller = FillLine.matrix x.rows x.cols x.data v := by
  constructor <;>
  · unfold matrix
    rw [if_neg (by simp [hn]), ht]
    simp only [if_true, coreMatrix, ne_eq, not_true_eq_false, if_false, hf, bind, Except.bind, reduceCtorEq,
      not_false_eq_true]

/-- **C112** The refusals of `matrix`. -/
theorem C112_matrix_refused (x : Mat K) (fill : FillArg K) (inPlace : Bool)
    (h : x.ndim ≠ 2 ∨ (x.dtype ≠ .float32 ∧ x.dtype ≠ .float64)) :
    (matrix x fill inPlace).result = .error .exn ∧ (matrix x fill inPlace).caller = x.data := by
  unfold matrix
  by_cases hn : x.ndim ≠ 2
  · rw [if_pos hn]; exact ⟨rfl, rfl⟩
  · rw [if_neg hn]
    rcases h with h | ⟨h1, h2⟩
    · exact absurd h hn
    · simp only [if_neg h1, coreMatrix, if_pos h2]
      refine ⟨trivial, ?_⟩
      split <;> rfl

section Examples

def exVec : Vec ℚ := { dtype := .datetime64, ndim := 1, size := 4, contiguous := true,
                       data := .int fun i => if i = 1 then -(2 ^ 63) else 10 * (i : Int) }

/- Non vacuity: a date missing (`NaT`) between two dates. -/
example : ∃ y, (vector exVec (.time (-(2 ^ 63))) true).result = .ok (.int y) ∧ y 1 = 10 := by
  refine ⟨_, rfl, ?_⟩
  decide +kernel

example : ∃ y, (vector exVec (.time (-(2 ^ 63))) true).result = .ok (.int y) ∧
    IntFilled 4 (-(2 ^ 63)) (fun i => if i = 1 then -(2 ^ 63) else 10 * (i : Int)) y :=
  C112_vector_int exVec _ (-(2 ^ 63)) true _ (Or.inr ⟨Or.inl rfl, rfl⟩) rfl rfl (Or.inr rfl) (by decide)

example : (vector exVec defaultFill true).result = .error .exn :=
  C112_default_fill_false exVec _ true rfl (Or.inr (Or.inl rfl))

def exMat : Mat ℚ := { dtype := .float32, ndim := 2, rows := 2, cols := 3,
                       data := fun i j => if j = 1 then none else some ((i : ℚ) + j) }

example : (matrix exMat defaultFill true).caller 0 1 = some 1 := by decide +kernel

example : (matrix exMat defaultFill true).result = .error .exn :=
  (C112_matrix_float32_false exMat defaultFill none true rfl rfl rfl).1

example : ∃ y, (matrix { exMat with dtype := .float64 } defaultFill false).result = .ok y ∧ y 1 1 = some 2 := by
  refine ⟨_, rfl, ?_⟩
  decide +kernel

end Examples

end Pyinterp.FillPy
