import Verif.Lemmas.FillLine
import Mathlib.Tactic.FieldSimp
import Mathlib.Tactic.Ring
import Mathlib.Tactic.Linarith
import Mathlib.Data.Rat.Floor

/-!
C52 – filling of the gaps of a vector or of a matrix (`pyinterp.fill.vector`,
`pyinterp.fill.matrix`).
-/
namespace Pyinterp.FillLine
open Pyinterp Spec
set_option linter.unusedSectionVars false
set_option linter.unusedVariables false

section Field
variable {K : Type} [Field K] [LinearOrder K] [IsStrictOrderedRing K] [FloorRing K]

/-- What filling a line must do: `x` are the values before, `y` after. The defined values are kept, every gap is
filled along the straight line through the two values that bound it, the two ends along the
straight line through the first and the last value; a line with at most one defined value is not changed. -/
structure LineFilled (size : Nat) (undef : Nat → Bool) (x y : Nat → Option K) : Prop where
  kept : ∀ i, i < size → undef i = false → y i = x i
  gap : ∀ a b va vb i, b < size → Consecutive undef a b → x a = some va → x b = some vb → a < i → i < b →
    y i = some (onLine a b va vb i)
  ends : ∀ f l vf vl i, FirstDefined size undef f → LastDefined size undef l → f < l → x f = some vf → x l = some vl →
    i < size → (i < f ∨ l < i) → y i = some (onLine f l vf vl i)
  few : (∀ a b, a < size → b < size → undef a = false → undef b = false → a = b) → ∀ i, i < size → y i = x i

theorem ahead_eq {a b i : Nat} (hab : a < b) (hai : a < i) (va vb : K) :
    ahead (slope (some va) (some vb) ((b - a : Nat) : Int)) (i - a) (some va) = some (onLine a b va vb i) := by
  unfold ahead slope onLine
  simp only [Option.bind_eq_bind, Option.bind_some, AxisNum.divInt]
  congr 1
  have : ((b : K) - (a : K)) ≠ 0 := by
    have : (a : K) < b := by exact_mod_cast hab
    exact (sub_pos.2 this).ne'
  rw [Nat.cast_sub hai.le]
  push_cast [Nat.cast_sub hab.le]
  field_simp
  ring

theorem fillLine_filled (size : Nat) (x : Nat → Option K) (undef : Nat → Bool) :
    LineFilled size undef x (fillLine size x undef).1 := by
  by_cases hfew : ∀ a b, a < size → b < size → undef a = false → undef b = false → a = b
  · have h := (fillLine_few size x undef hfew).1
    refine ⟨fun i _ _ => h i, ?_, ?_, fun _ i _ => h i⟩
    · intro a b va vb i hb hc _ _ h1 h2
      have := hfew a b (by omega) hb hc.2.1 hc.2.2.1
      omega
    · intro f l vf vl i hf hl hlt
      have := hfew f l hf.1 hl.1 hf.2.1 hl.2.1
      omega
  · push Not at hfew
    obtain ⟨a, b, ha, hb, ua, ub, hab⟩ := hfew
    obtain ⟨f, l, hf, hl, hlt⟩ : ∃ f l, FirstDefined size undef f ∧ LastDefined size undef l ∧ f < l := by
      rcases Nat.lt_or_gt_of_ne hab with h | h
      · exact exists_first_last size undef ha hb ua ub h
      · exact exists_first_last size undef hb ha ub ua h
    obtain ⟨h1, h2, h3, h4, -, -⟩ := fillLine_many size x undef f l hf hl hlt
    refine ⟨h1, ?_, ?_, ?_⟩
    · intro a b va vb i hb hc ea eb hi1 hi2
      rw [h2 a b i hb hc hi1 hi2, ea, eb]
      exact ahead_eq hc.1 hi1 va vb
    · intro f' l' vf vl i hf' hl' _ ef el hi hcase
      have e1 : f' = f := by
        rcases Nat.lt_trichotomy f' f with h | h | h
        · have := hf.2.2 f' h; rw [hf'.2.1] at this; cases this
        · exact h
        · have := hf'.2.2 f h; rw [hf.2.1] at this; cases this
      have e2 : l' = l := by
        rcases Nat.lt_trichotomy l' l with h | h | h
        · have := hl'.2.2 l h hl.1; rw [hl.2.1] at this; cases this
        · exact h
        · have := hl.2.2 l' h hl'.1; rw [hl'.2.1] at this; cases this
      subst e1 e2
      have hne : ((l' : K) - (f' : K)) ≠ 0 := by
        have : (f' : K) < l' := by exact_mod_cast hlt
        exact (sub_pos.2 this).ne'
      rcases hcase with hc | hc
      · rw [h3 i hc, ef, el]
        unfold behind slope onLine
        simp only [Option.bind_eq_bind, Option.bind_some, AxisNum.divInt]
        congr 1
        rw [Nat.cast_sub hc.le]
        push_cast
        field_simp
        ring
      · rw [h4 i hc hi, ef, el]
        unfold ahead slope onLine
        simp only [Option.bind_eq_bind, Option.bind_some, AxisNum.divInt]
        congr 1
        rw [Nat.cast_sub hc.le]
        push_cast
        field_simp
        ring
    · intro hh
      exact absurd (hh a b ha hb ua ub) hab

/-- The mask of the code is the specification. -/
theorem maskOf_eq {T : Type} [LinearOrder T] : (@maskOf T _) = undefinedBy := by
  funext f v
  cases f <;> cases v <;> simp [maskOf, undefinedBy]

/-- **C52** `vector`, floating point data: the undefined values are NaN (`fill = none`) or the values equal to the
filling value; the array is filled as `LineFilled` says. -/
theorem C52_vector (size : Nat) (x : Nat → Option K) (fill : Option K) :
    LineFilled size (fun i => undefinedBy fill (x i)) x (vector size x fill) := by
  rw [← maskOf_eq]; exact fillLine_filled size x _

/-- **C52** With NaN as filling value and at least two defined values, nothing remains undefined. -/
theorem C52_vector_defined (size : Nat) (x : Nat → Option K) (a b : Nat) (ha : a < size) (hb : b < size)
    (hab : a ≠ b) (da : x a ≠ none) (db : x b ≠ none) (i : Nat) (hi : i < size) :
    vector size x none i ≠ none := by
  have h := C52_vector size x none
  rw [← maskOf_eq] at h
  generalize vector size x none = y at *
  have und : ∀ j, (maskOf none (x j) = false ↔ x j ≠ none) := by
    intro j; unfold maskOf; cases x j <;> simp
  cases hu : maskOf none (x i) with
  | false => rw [h.kept i hi hu]; exact (und i).1 hu
  | true =>
    obtain ⟨f, l, hf, hl, hlt⟩ : ∃ f l, FirstDefined size (fun i => maskOf none (x i)) f ∧
        LastDefined size (fun i => maskOf none (x i)) l ∧ f < l := by
      rcases Nat.lt_or_gt_of_ne hab with h | h
      · exact exists_first_last size _ ha hb ((und a).2 da) ((und b).2 db) h
      · exact exists_first_last size _ hb ha ((und b).2 db) ((und a).2 da) h
    obtain ⟨vf, ef⟩ := Option.ne_none_iff_exists'.1 ((und f).1 hf.2.1)
    obtain ⟨vl, el⟩ := Option.ne_none_iff_exists'.1 ((und l).1 hl.2.1)
    by_cases hcase : i < f ∨ l < i
    · rw [h.ends f l vf vl i hf hl hlt ef el hi hcase]; simp
    · push Not at hcase
      -- the defined positions around `i`
      have hfi : f < i := lt_of_le_of_ne hcase.1 (by rintro rfl; have h0 := hf.2.1; dsimp only at h0; rw [h0] at hu; cases hu)
      have hil : i < l := lt_of_le_of_ne hcase.2 (by rintro rfl; have h0 := hl.2.1; dsimp only at h0; rw [h0] at hu; cases hu)
      have hA : ∃ p, p < i ∧ x p ≠ none ∧ ∀ m, p < m → m ≤ i → x m = none := by
        have : ∀ n, n ≤ i → (∀ m, n < m → m ≤ i → x m = none) → f ≤ n → ∃ p, p < i ∧ x p ≠ none ∧ ∀ m, p < m → m ≤ i → x m = none := by
          intro n
          induction n with
          | zero =>
            intro h1 h2 h3
            have : f = 0 := by omega
            subst this
            exact ⟨0, hfi, (und 0).1 hf.2.1, h2⟩
          | succ n ih =>
            intro h1 h2 h3
            by_cases hn : x (n + 1) = none
            · by_cases hfn : f ≤ n
              · refine ih (by omega) (fun m m1 m2 => ?_) hfn
                rcases Nat.lt_or_ge (n + 1) m with hm | hm
                · exact h2 m hm m2
                · have : m = n + 1 := by omega
                  rw [this]; exact hn
              · have : f = n + 1 := by omega
                rw [this] at hf
                exact absurd hn ((und _).1 hf.2.1)
            · refine ⟨n + 1, ?_, hn, h2⟩
              rcases Nat.lt_or_ge (n + 1) i with h | h
              · exact h
              · have : n + 1 = i := by omega
                rw [this] at hn
                have := (und i).2 hn
                rw [hu] at this; cases this
        exact this i (le_refl _) (fun m h1 h2 => by omega) (by omega)
      obtain ⟨p, hp, dp, pn⟩ := hA
      have hB : ∃ q, i < q ∧ q < size ∧ x q ≠ none ∧ ∀ m, i ≤ m → m < q → x m = none := by
        classical
        have hex : ∃ q, i < q ∧ x q ≠ none := ⟨l, hil, (und l).1 hl.2.1⟩
        refine ⟨Nat.find hex, (Nat.find_spec hex).1, ?_, (Nat.find_spec hex).2, ?_⟩
        · have := Nat.find_min' hex ⟨hil, (und l).1 hl.2.1⟩
          have := hl.1
          omega
        · intro m h1 h2
          rcases Nat.eq_or_lt_of_le h1 with rfl | h1
          · by_contra hh
            have := (und i).2 hh
            rw [hu] at this; cases this
          · by_contra hh
            exact Nat.find_min hex h2 ⟨h1, hh⟩
      obtain ⟨q, hq, hqs, dq, qn⟩ := hB
      obtain ⟨vp, ep⟩ := Option.ne_none_iff_exists'.1 dp
      obtain ⟨vq, eq⟩ := Option.ne_none_iff_exists'.1 dq
      rw [h.gap p q vp vq i hqs ⟨by omega, (und p).2 dp, (und q).2 dq, ?_⟩ ep eq hp hq]
      · simp
      · intro m h1 h2
        have : x m = none := by
          rcases Nat.lt_or_ge i m with h | h
          · exact qn m h.le h2
          · exact pn m h1 h
        simp [maskOf, this]

/-- A row is usable when it has two defined values. -/
def Usable (cols : Nat) (undef : Nat → Bool) : Prop :=
  ∃ a b, a < cols ∧ b < cols ∧ a ≠ b ∧ undef a = false ∧ undef b = false

theorem usable_mask {cols : Nat} {x : Nat → Option K} {undef : Nat → Bool} :
    (Usable cols undef → ∀ j, (fillLine cols x undef).2 j = false) ∧
    (¬ Usable cols undef → (∀ j, (fillLine cols x undef).2 j = true) ∧ ∀ j, (fillLine cols x undef).1 j = x j) := by
  constructor
  · rintro ⟨a, b, ha, hb, hab, ua, ub⟩
    obtain ⟨f, l, hf, hl, hlt⟩ : ∃ f l, FirstDefined cols undef f ∧ LastDefined cols undef l ∧ f < l := by
      rcases Nat.lt_or_gt_of_ne hab with h | h
      · exact exists_first_last cols undef ha hb ua ub h
      · exact exists_first_last cols undef hb ha ub ua h
    exact (fillLine_many cols x undef f l hf hl hlt).2.2.2.2.2
  · intro h
    have := fillLine_few cols x undef (by
      intro a b ha hb ua ub
      by_contra hab
      exact h ⟨a, b, ha, hb, hab, ua, ub⟩)
    exact ⟨this.2, this.1⟩

/-- The state after the loop over the rows. -/
theorem rowPass_fold (cols : Nat) (x : Nat → Nat → Option K) (m : Nat → Nat → Bool) (k : Nat) :
    let s := (List.range k).foldl (rowPass cols) (x, m)
    (∀ i, k ≤ i → s.1 i = x i ∧ s.2 i = m i) ∧
    ∀ i, i < k → (Usable cols (m i) → s.1 i = (fillLine cols (x i) (m i)).1 ∧ ∀ j, j < cols → s.2 i j = false) ∧
      (¬ Usable cols (m i) → s.1 i = x i ∧ ∀ j, j < cols → s.2 i j = true) := by
  induction k with
  | zero => exact ⟨fun i _ => ⟨rfl, rfl⟩, fun i h => by omega⟩
  | succ k ih =>
    simp only [List.range_succ, List.foldl_append, List.foldl_cons, List.foldl_nil]
    dsimp only at ih
    generalize (List.range k).foldl (rowPass cols) (x, m) = s at *
    obtain ⟨i1, i2⟩ := ih
    obtain ⟨e1, e2⟩ := i1 k (le_refl _)
    unfold rowPass
    by_cases hall : (List.range cols).all (s.2 k) = true
    · rw [if_pos hall]
      refine ⟨fun i hi => i1 i (by omega), fun i hi => ?_⟩
      rcases Nat.lt_succ_iff_lt_or_eq.1 hi with hi | rfl
      · exact i2 i hi
      · have hm : ∀ j, j < cols → m i j = true := by
          rw [e2] at hall
          intro j hj
          exact List.all_eq_true.1 hall j (List.mem_range.2 hj)
        refine ⟨?_, fun _ => ⟨e1, fun j hj => by rw [e2]; exact hm j hj⟩⟩
        rintro ⟨a, b, ha, -, -, ua, -⟩
        rw [hm a ha] at ua; cases ua
    · rw [if_neg hall]
      simp only [e1, e2]
      refine ⟨fun i hi => ?_, fun i hi => ?_⟩
      · have : i ≠ k := by omega
        simp only [put, if_neg this]
        exact i1 i (by omega)
      · by_cases hik : i = k
        · subst hik
          simp only [put, if_true]
          obtain ⟨u1, u2⟩ := usable_mask (x := x i) (cols := cols) (undef := m i)
          refine ⟨fun hu => ⟨trivial, fun j _ => u1 hu j⟩, fun hu => ?_⟩
          obtain ⟨v1, v2⟩ := u2 hu
          exact ⟨funext v2, fun j _ => v1 j⟩
        · simp only [put, if_neg hik]
          exact i2 i (by omega)

/-- The values after the loop over the columns. -/
theorem colPass_fold (rows : Nat) (x : Nat → Nat → Option K) (m : Nat → Nat → Bool) (k : Nat) :
    let s := (List.range k).foldl (colPass rows) (x, m)
    ∀ i j, (j < k → s.1 i j = (fillLine rows (fun i => x i j) (fun i => m i j)).1 i) ∧
      (k ≤ j → s.1 i j = x i j ∧ s.2 i j = m i j) := by
  induction k with
  | zero => intro s i j; exact ⟨fun h => by omega, fun _ => ⟨rfl, rfl⟩⟩
  | succ k ih =>
    simp only [List.range_succ, List.foldl_append, List.foldl_cons, List.foldl_nil]
    dsimp only at ih
    generalize (List.range k).foldl (colPass rows) (x, m) = s at *
    intro i j
    have e1 : (fun i => s.1 i k) = fun i => x i k := funext fun i => ((ih i k).2 (le_refl _)).1
    have e2 : (fun i => s.2 i k) = fun i => m i k := funext fun i => ((ih i k).2 (le_refl _)).2
    unfold colPass
    simp only [e1, e2, put]
    by_cases hj : j = k
    · subst hj
      refine ⟨fun _ => by simp, fun h => by omega⟩
    · refine ⟨fun h => ?_, fun h => ?_⟩
      · rw [if_neg hj]; exact (ih i j).1 (by omega)
      · rw [if_neg hj, if_neg hj]; exact (ih i j).2 (by omega)

/-- **C52** `matrix`: the usable rows (two defined values at least) are filled as lines and not
changed any more; then the other rows are filled column by column from the usable rows, as lines
again (if there are two usable rows; otherwise they are unchanged). All the values of the rows that are not usable
count as undefined here, so that a row with one single value may lose it (`C52_matrix_false`). -/
theorem C52_matrix (rows cols : Nat) (x : Nat → Nat → Option K) (fill : Option K) :
    let y := matrix rows cols x fill
    ∃ bad : Nat → Bool, (∀ i, i < rows → (bad i = false ↔ Usable cols (fun j => undefinedBy fill (x i j)))) ∧
      (∀ i, i < rows → bad i = false → LineFilled cols (fun j => undefinedBy fill (x i j)) (x i) (y i)) ∧
      ∀ j, j < cols → LineFilled rows bad (fun i => if bad i then x i j else y i j) (fun i => y i j) := by
  classical
  rw [← maskOf_eq]
  intro y
  have hrow := (rowPass_fold cols x (fun i j => maskOf fill (x i j)) rows).2
  refine ⟨fun i => decide (¬ Usable cols (fun j => maskOf fill (x i j))), fun i _ => by simp, ?_⟩
  have hy : ∀ i j, j < cols → y i j =
      (fillLine rows (fun i => ((List.range rows).foldl (rowPass cols) (x, fun i j => maskOf fill (x i j))).1 i j)
        (fun i => ((List.range rows).foldl (rowPass cols) (x, fun i j => maskOf fill (x i j))).2 i j)).1 i := by
    intro i j hj
    have := (colPass_fold rows ((List.range rows).foldl (rowPass cols) (x, fun i j => maskOf fill (x i j))).1
      ((List.range rows).foldl (rowPass cols) (x, fun i j => maskOf fill (x i j))).2 cols i j).1 hj
    exact this
  generalize (List.range rows).foldl (rowPass cols) (x, fun i j => maskOf fill (x i j)) = s at *
  have keep : ∀ i j, i < rows → j < cols → Usable cols (fun j => maskOf fill (x i j)) →
      y i j = (fillLine cols (x i) (fun j => maskOf fill (x i j))).1 j := by
    intro i j hi hj hu
    rw [hy i j hj, (fillLine_filled rows _ _).kept i hi (((hrow i hi).1 hu).2 j hj), ((hrow i hi).1 hu).1]
  constructor
  · intro i hi hb
    have hu : Usable cols (fun j => maskOf fill (x i j)) := by simpa using hb
    have h := fillLine_filled cols (x i) (fun j => maskOf fill (x i j))
    refine ⟨?_, ?_, ?_, ?_⟩
    · intro j hj uj
      rw [keep i j hi hj hu]
      exact h.kept j hj uj
    · intro a b va vb j hb hc ea eb h1 h2
      rw [keep i j hi (by omega) hu]
      exact h.gap a b va vb j hb hc ea eb h1 h2
    · intro f l vf vl j hf hl hlt ef el hj hc
      rw [keep i j hi hj hu]
      exact h.ends f l vf vl j hf hl hlt ef el hj hc
    · intro hfew j hj
      rw [keep i j hi hj hu]
      exact h.few hfew j hj
  · intro j hj
    have h := fillLine_filled rows (fun i => s.1 i j) (fun i => s.2 i j)
    have hm : ∀ i, i < rows → s.2 i j = decide (¬ Usable cols (fun j => maskOf fill (x i j))) := by
      intro i hi
      by_cases hu : Usable cols (fun j => maskOf fill (x i j))
      · rw [((hrow i hi).1 hu).2 j hj]; simp [hu]
      · rw [((hrow i hi).2 hu).2 j hj]; simp [hu]
    have hx : ∀ i, i < rows → s.1 i j =
        (if decide (¬ Usable cols (fun j => maskOf fill (x i j))) = true then x i j else y i j) := by
      intro i hi
      by_cases hu : Usable cols (fun j => maskOf fill (x i j))
      · rw [keep i j hi hj hu, ((hrow i hi).1 hu).1]; simp [hu]
      · rw [((hrow i hi).2 hu).1]; simp [hu]
    have hcons : ∀ a b, b < rows → Consecutive (fun i => decide (¬ Usable cols (fun j => maskOf fill (x i j)))) a b →
        Consecutive (fun i => s.2 i j) a b := by
      rintro a b hb ⟨c1, c2, c3, c4⟩
      exact ⟨c1, by dsimp only; rw [hm a (by omega)]; exact c2, by dsimp only; rw [hm b hb]; exact c3,
        fun m h1 h2 => by dsimp only; rw [hm m (by omega)]; exact c4 m h1 h2⟩
    refine ⟨?_, ?_, ?_, ?_⟩
    · intro i hi ui
      dsimp only at ui ⊢
      rw [if_neg (by rw [ui]; simp)]
    · intro a b va vb i hb hc ea eb h1 h2
      dsimp only at ea eb ⊢
      rw [hy i j hj]
      refine h.gap a b va vb i hb (hcons a b hb hc) ?_ ?_ h1 h2
      · rw [hx a (by omega)]; exact ea
      · rw [hx b hb]; exact eb
    · intro f l vf vl i hf hl hlt ef el hi hcase
      dsimp only at ef el ⊢
      rw [hy i j hj]
      refine h.ends f l vf vl i ⟨hf.1, ?_, ?_⟩ ⟨hl.1, ?_, ?_⟩ hlt ?_ ?_ hi hcase
      · dsimp only; rw [hm f hf.1]; exact hf.2.1
      · intro m hmf
        have := hf.1
        dsimp only; rw [hm m (by omega)]; exact hf.2.2 m hmf
      · dsimp only; rw [hm l hl.1]; exact hl.2.1
      · intro m h1 h2
        dsimp only; rw [hm m h2]; exact hl.2.2 m h1 h2
      · rw [hx f hf.1]; exact ef
      · rw [hx l hl.1]; exact el
    · intro hfew i hi
      refine (hy i j hj).trans ((h.few ?_ i hi).trans (hx i hi))
      · intro a b ha hb ua ub
        rw [hm a ha] at ua
        rw [hm b hb] at ub
        exact hfew a b ha hb ua ub

end Field

section Integers

/-- **C52** `vector` on 64-bit integers (dates): the defined values are kept, and every value filled in the gap between
two consecutive defined values lies between them. -/
theorem C52_vector_int (size : Nat) (x : Nat → Option Int) (fill : Int) :
    let undef := fun i => undefinedBy (some fill) (x i)
    let y := vector size x (some fill)
    (∀ i, i < size → undef i = false → y i = x i) ∧
    ∀ a b va vb i, b < size → Consecutive undef a b → x a = some va → x b = some vb → a < i → i < b →
      ∃ v, y i = some v ∧ ((va ≤ v ∧ v ≤ vb) ∨ (vb ≤ v ∧ v ≤ va)) ∧
        (((b : Int) - a) ∣ (vb - va) → v = va + ((i : Int) - a) * ((vb - va) / ((b : Int) - a))) := by
  rw [← maskOf_eq]
  intro undef y
  by_cases hfew : ∀ a b, a < size → b < size → undef a = false → undef b = false → a = b
  · have h := (fillLine_few size x undef hfew).1
    refine ⟨fun i _ _ => h i, ?_⟩
    intro a b va vb i hb hc _ _ h1 h2
    have := hfew a b (by omega) hb hc.2.1 hc.2.2.1
    omega
  · push Not at hfew
    obtain ⟨a, b, ha, hb, ua, ub, hab⟩ := hfew
    obtain ⟨f, l, hf, hl, hlt⟩ : ∃ f l, FirstDefined size undef f ∧ LastDefined size undef l ∧ f < l := by
      rcases Nat.lt_or_gt_of_ne hab with h | h
      · exact exists_first_last size undef ha hb ua ub h
      · exact exists_first_last size undef hb ha ub ua h
    obtain ⟨h1, h2, -⟩ := fillLine_many size x undef f l hf hl hlt
    refine ⟨h1, ?_⟩
    intro a b va vb i hb hc ea eb hi1 hi2
    refine ⟨_, by rw [show y i = _ from h2 a b i hb hc hi1 hi2, ea, eb]; rfl, ?_, ?_⟩
    · simp only [AxisNum.divInt]
      have hn : ((b - a : Nat) : Int) = (b : Int) - a := by omega
      have hd : ((i - a : Nat) : Int) = (i : Int) - a := by omega
      rw [show ((i - a : Nat) : Int) = (i : Int) - a from hd, hn]
      generalize hN : (b : Int) - a = N
      generalize hD : (i : Int) - a = D
      have hN0 : 0 < N := by omega
      have hDN : D ≤ N := by omega
      have hD0 : 0 ≤ D := by omega
      rcases le_total va vb with hle | hle
      · left
        have q0 : 0 ≤ (vb - va).tdiv N := Int.tdiv_nonneg (by omega) (by omega)
        have q1 : N * (vb - va).tdiv N ≤ vb - va := Int.mul_tdiv_self_le (by omega)
        constructor <;> nlinarith
      · right
        have e : (vb - va).tdiv N = -((va - vb).tdiv N) := by
          rw [← Int.neg_tdiv, neg_sub]
        have q0 : 0 ≤ (va - vb).tdiv N := Int.tdiv_nonneg (by omega) (by omega)
        have q1 : N * (va - vb).tdiv N ≤ va - vb := Int.mul_tdiv_self_le (by omega)
        rw [e]
        constructor <;> nlinarith
    · intro hdvd
      simp only [AxisNum.divInt]
      have hn : ((b - a : Nat) : Int) = (b : Int) - a := by omega
      have hd : ((i - a : Nat) : Int) = (i : Int) - a := by omega
      rw [show ((i - a : Nat) : Int) = (i : Int) - a from hd, hn, Int.tdiv_eq_ediv_of_dvd hdvd]
      ring

/-- **C52, the part that fails** When the filling value is the largest 64-bit integer, the gaps are looked for among the NaN, of
which an array of integers has none: nothing is filled. -/
theorem C52_max_int_false (size : Nat) (x : Nat → Int) (i : Nat) (hi : i < size) :
    vector size (fun j => some (x j)) none i = some (x i) := by
  by_cases hfew : ∀ a b, a < size → b < size → (false : Bool) = false → (false : Bool) = false → a = b
  · exact (fillLine_few size _ (fun _ => false) hfew).1 i
  · push Not at hfew
    obtain ⟨a, b, ha, hb, -, -, hab⟩ := hfew
    have h := fillLine_many size (fun j => some (x j)) (fun _ => false) 0 (size - 1)
      ⟨by omega, rfl, fun m h => by omega⟩ ⟨by omega, rfl, fun m h1 h2 => by omega⟩ (by omega)
    exact h.1 i hi rfl

end Integers

section Examples

/-- values of a list, NaN elsewhere -/
def ofList {T : Type} (l : List (Option T)) : Nat → Option T := fun i => (l[i]?).join

example : (List.range 7).map (vector 7 (ofList [none, some (1 : ℚ), none, none, some 7, some 8, none]) none) =
    [some (-3 / 4), some 1, some 3, some 5, some 7, some 8, some (39 / 4)] := by decide +kernel

example : (List.range 5).map (vector 5 (ofList [some (10 : Int), some (-1), some (-1), some (-1), some 20]) (some (-1))) =
    [some 10, some 12, some 14, some 16, some 20] := by decide +kernel

/-- rows of a list of lists -/
def ofRows {T : Type} (l : List (List (Option T))) : Nat → Nat → Option T := fun i => ofList ((l[i]?).getD [])

/-- **C52, the part that fails** A defined value alone in its row is replaced by the interpolation of the rows around:
the value 100 becomes 3. -/
theorem C52_matrix_false :
    (matrix 3 2 (ofRows [[some (1 : ℚ), some 2], [some 100, none], [some 5, some 6]]) none) 1 0 = some 3 ∧
    (matrix 3 2 (ofRows [[some (1 : ℚ), some 2], [some 100, none], [some 5, some 6]]) none) 1 1 = some 4 := by
  decide +kernel

end Examples

end Pyinterp.FillLine
