import Verif.Model.AxisPy
import Verif.Props.C08_FlipPickle

/-
C117: equality, copies and flipped copies of axes.
-/
namespace Pyinterp
open Spec
set_option linter.unusedVariables false
set_option linter.unusedSectionVars false

section
variable {K : Type} [Field K] [LinearOrder K] [IsStrictOrderedRing K] [FloorRing K]

theorem regCoords_inj {s s' t t' : K} {n : Nat} (hn : 2 ≤ n) (h : regCoords s t n = regCoords s' t' n) : s = s' ∧ t = t' := by
  have h0 : (regCoords s t n)[0]? = (regCoords s' t' n)[0]? := by rw [h]
  have h1 : (regCoords s t n)[1]? = (regCoords s' t' n)[1]? := by rw [h]
  rw [List.getElem?_eq_getElem (by simp; omega), List.getElem?_eq_getElem (by simp; omega), Option.some.injEq,
    regCoords_getElem, regCoords_getElem] at h0 h1
  simp at h0 h1
  subst h0
  exact ⟨rfl, by simpa using h1⟩

/-- **C117** Two axes of two or more coordinates are equal (`==`) exactly when they have the same coordinates, both or none of
them covers the circle, and both or none of them stores its coordinates as regularly spaced. -/
theorem C117_eq (a b : Axis K) (ha : Reach false a) (hb : Reach false b) (la lb : List K) (hla : Coordinates a la)
    (hlb : Coordinates b lb) (h2 : 2 ≤ a.size) :
    a.beq b = true ↔ la = lb ∧ a.isCircle = b.isCircle ∧ a.isRegular = b.isRegular := by
  rw [coordinates_eq_contList ha hla, coordinates_eq_contList hb hlb]
  have ia := (reach_inv ha).1
  have ib := (reach_inv hb).1
  obtain ⟨ca, cia, ka⟩ := a
  obtain ⟨cb, cib, kb⟩ := b
  cases ka with
  | undefined => exact ia.elim
  | irregular l asc =>
    cases kb with
    | undefined => exact ib.elim
    | irregular l' asc' =>
      simp only [Axis.beq, Container.beq, contList, Axis.isRegular, Bool.and_eq_true, decide_eq_true_eq, beq_iff_eq]
      constructor
      · rintro ⟨⟨-, h⟩, h'⟩; exact ⟨h.symm, h', trivial⟩
      · rintro ⟨h, h', -⟩; subst h; exact ⟨⟨rfl, rfl⟩, h'⟩
    | regular r => simp [Axis.beq, Container.beq, Axis.isRegular]
  | regular r =>
    cases kb with
    | undefined => exact ib.elim
    | irregular l' asc' => simp [Axis.beq, Container.beq, Axis.isRegular]
    | regular r' =>
      simp only [Axis.beq, Container.beq, contList, Axis.isRegular, Bool.and_eq_true, decide_eq_true_eq, beq_iff_eq]
      constructor
      · rintro ⟨⟨h, h', h''⟩, hc⟩
        rw [h, h', h'']
        exact ⟨rfl, hc, trivial⟩
      · rintro ⟨h, hc, -⟩
        have hn : 2 ≤ r.size := h2
        have hlen := congrArg List.length h
        simp only [regCoords_length] at hlen
        have h0 : 0 < r'.size := ib.1
        rw [← hlen] at h
        obtain ⟨h3, h4⟩ := regCoords_inj (by omega) h
        exact ⟨⟨h4.symm, h3.symm, by omega⟩, hc⟩

/-- **C117** `==` is reflexive, symmetric and transitive. -/
theorem C117_eq_equivalence (a b c : Axis K) :
    a.beq a = true ∧ (a.beq b = true → b.beq a = true) ∧ (a.beq b = true → b.beq c = true → a.beq c = true) := by
  obtain ⟨ca, cia, ka⟩ := a
  obtain ⟨cb, cib, kb⟩ := b
  obtain ⟨cc, cic, kc⟩ := c
  refine ⟨?_, ?_, ?_⟩
  · cases ka <;> simp [Axis.beq, Container.beq]
  · cases ka <;> cases kb <;> simp only [Axis.beq, Container.beq, Bool.and_eq_true, decide_eq_true_eq, beq_iff_eq,
      Bool.false_and, Bool.false_eq_true, Bool.true_and, false_imp_iff]
    · exact fun h => h.symm
    · rintro ⟨⟨h1, h2⟩, h3⟩; exact ⟨⟨h1.symm, h2.symm⟩, h3.symm⟩
    · rintro ⟨⟨h1, h2, h4⟩, h3⟩; exact ⟨⟨h1.symm, h2.symm, h4.symm⟩, h3.symm⟩
  · cases ka <;> cases kb <;> cases kc <;> simp only [Axis.beq, Container.beq, Bool.and_eq_true, decide_eq_true_eq, beq_iff_eq,
      Bool.false_and, Bool.false_eq_true, Bool.true_and, false_imp_iff, imp_false, not_and, implies_true, not_false_eq_true]
    · exact fun h h' => h.trans h'
    · rintro ⟨⟨h1, h2⟩, h3⟩ ⟨⟨h1', h2'⟩, h3'⟩; exact ⟨⟨h1'.trans h1, h2'.trans h2⟩, h3.trans h3'⟩
    · rintro ⟨⟨h1, h2, h4⟩, h3⟩ ⟨⟨h1', h2', h4'⟩, h3'⟩
      exact ⟨⟨h1'.trans h1, h2'.trans h2, h4'.trans h4⟩, h3.trans h3'⟩

/-- **C117** Two equal axes of two or more coordinates that are both angles, or both not, answer every query alike: they are
the same axis. -/
theorem C117_eq_same (a b : Axis K) (ha : Reach false a) (hb : Reach false b) (h2 : 2 ≤ a.size) (hang : a.isAngle = b.isAngle)
    (h : a.beq b = true) : a = b := by
  obtain ⟨i1, i2, i3⟩ := reach_inv ha
  obtain ⟨j1, j2, j3⟩ := reach_inv hb
  obtain ⟨ca, cia, ka⟩ := a
  obtain ⟨cb, cib, kb⟩ := b
  have hci : cia = cib := by
    simp only [Axis.isAngle] at hang
    rcases i2 with h | h <;> rcases j2 with h' | h' <;> simp only at h h' <;> subst h <;> subst h' <;> simp at hang ⊢
  subst hci
  cases ka with
  | undefined => exact i1.elim
  | irregular l asc =>
    cases kb with
    | undefined => exact j1.elim
    | irregular l' asc' =>
      simp only [Axis.beq, Container.beq, Bool.and_eq_true, decide_eq_true_eq, beq_iff_eq] at h
      obtain ⟨⟨-, h⟩, hc⟩ := h
      subst h; subst hc
      have hlen : 2 ≤ l'.length := by simpa [Axis.size, Container.size] using h2
      have e1 : isAscendingList l' = asc := by
        cases asc
        · exact (isAscendingList_eq l').2 (i1.2.2 rfl) hlen
        · exact (isAscendingList_eq l').1 (i1.2.1 rfl)
      have e2 : isAscendingList l' = asc' := by
        cases asc'
        · exact (isAscendingList_eq l').2 (j1.2.2 rfl) hlen
        · exact (isAscendingList_eq l').1 (j1.2.1 rfl)
      rw [← e1, ← e2]
    | regular r => simp [Axis.beq, Container.beq] at h
  | regular r =>
    cases kb with
    | undefined => exact j1.elim
    | irregular l' asc' => simp [Axis.beq, Container.beq] at h
    | regular r' =>
      simp only [Axis.beq, Container.beq, Bool.and_eq_true, decide_eq_true_eq, beq_iff_eq] at h
      obtain ⟨⟨h, h', h''⟩, hc⟩ := h
      subst hc
      obtain ⟨n0, s0, a1, a2, haux⟩ := i1
      obtain ⟨n0', s0', a1', a2', haux'⟩ := j1
      have hn : 2 ≤ r.size := h2
      obtain ⟨n, s, t, x, d⟩ := r
      obtain ⟨n', s', t', x', d'⟩ := r'
      simp only at h h' h'' hn a1 a2 a1' a2'
      subst h; subst h'; subst h''
      have haux : x = 1 / t' := haux
      have haux' : x' = 1 / t' := haux'
      subst haux; subst haux'
      have hd : d = d' := by
        cases d <;> cases d' <;> try rfl
        · rcases a2 rfl with h1 | h1
          · rcases a1' rfl with h3 | h3
            · exact absurd h1 (not_lt.2 h3.le)
            · omega
          · omega
        · rcases a1 rfl with h1 | h1
          · rcases a2' rfl with h3 | h3
            · exact absurd h1 (not_lt.2 h3.le)
            · omega
          · omega
      rw [hd]

/-- **C117** A copy (`copy.copy`) is the same axis. -/
theorem C117_copy (a : Axis K) (h : Reach false a) : a.pyCopy = .ok a := by
  have i1 := (reach_inv h).1
  obtain ⟨ca, cia, ka⟩ := a
  cases ka with
  | undefined => exact i1.elim
  | irregular l asc => rfl
  | regular r => rfl

/-- **C117** `flip(inplace=True)` reverses the axis itself, and returns it. -/
theorem C117_flip_inplace (a : Axis K) (l : List K) (h : Reach false a) (hl : Coordinates a l) :
    ∃ b, a.pyFlip true = .ok (b, b) ∧ Coordinates b l.reverse ∧ b.isCircle = a.isCircle ∧ b.isAngle = a.isAngle :=
  ⟨a.flip, rfl, C08_flip_reverses a l h hl, rfl, rfl⟩

/-- **C117** (partial: two or more coordinates; the axis is not an angle, or covers the circle) `flip(inplace=False)` leaves the
axis unchanged and returns the axis that `flip(inplace=True)` would give. -/
theorem C117_flip_copy_partial (a : Axis K) (l : List K) (h : Reach false a) (hl : Coordinates a l) (h2 : 2 ≤ a.size)
    (hang : a.isAngle = true → a.isCircle = true) :
    ∃ b, a.pyFlip false = .ok (a, b) ∧ a.pyFlip true = .ok (b, b) ∧ Coordinates b l.reverse := by
  obtain ⟨s, hs, hs'⟩ := C09_pickle_identity_partial a h h2 hang
  refine ⟨a.flip, ?_, rfl, C08_flip_reverses a l h hl⟩
  simp only [Axis.pyFlip, hs, hs', bind, Except.bind, pure, Except.pure, Bool.false_eq_true, if_false]

/-- **C117** `increment()` is the difference of any two consecutive coordinates, and raises exactly for the axes that are not
stored as regularly spaced. -/
theorem C117_increment (a : Axis K) (l : List K) (h : Reach false a) (hl : Coordinates a l) :
    (a.isRegular = false → a.increment = .error .exn) ∧
    (a.isRegular = true → ∃ d, a.increment = .ok d ∧ ∀ i (hi : i + 1 < l.length), l[i + 1] - l[i] = d) := by
  rw [coordinates_eq_contList h hl] at *
  have i1 := (reach_inv h).1
  obtain ⟨ca, cia, ka⟩ := a
  cases ka with
  | undefined => exact i1.elim
  | irregular l asc => simp [Axis.isRegular, Axis.increment]
  | regular r =>
    refine ⟨by simp [Axis.isRegular], fun _ => ⟨r.step, rfl, ?_⟩⟩
    intro i hi
    simp only [contList]
    rw [regCoords_getElem, regCoords_getElem]
    push_cast
    ring

end

/-- **C117, the claim is false** `flip(inplace=False)` of a regional longitude axis (an angle that does not cover the circle)
returns an axis that is not an angle: 365° is found in the axis flipped in place, not in the flipped copy. -/
theorem C117_flip_copy_false :
    ∃ (a b c : Axis ℚ), Reach false a ∧ a.isAngle = true ∧ a.pyFlip true = .ok (b, b) ∧ a.pyFlip false = .ok (a, c) ∧
      b.findNearestIndex 365 false = .ok 1 ∧ c.findNearestIndex 365 false = .ok (-1) := by
  refine ⟨⟨false, some 360, .regular ⟨3, 0, 5, 1/5, true⟩⟩, ⟨false, some 360, .regular ⟨3, 10, -5, -1/5, false⟩⟩,
    ⟨false, none, .regular ⟨3, 10, -5, -1/5, false⟩⟩, ?_, rfl, by decide +kernel, by decide +kernel, by decide +kernel,
    by decide +kernel⟩
  exact .regular 0 10 3 (1/1000000) true _ (by decide +kernel)

/-- **C117, the claim is false** `flip(inplace=False)` raises for a regular axis of one coordinate. -/
theorem C117_flip_single_false : ∃ a : Axis ℚ, Reach false a ∧ a.pyFlip false = .error .exn :=
  ⟨⟨false, none, .regular ⟨1, 0, 5, 1/5, true⟩⟩, .regular 0 5 1 (1/1000000) false _ (by decide +kernel), by decide +kernel⟩

/-- **C117, the claim is false** Two axes are equal although one is an angle and the other is not: they answer differently. -/
theorem C117_eq_angle_false :
    ∃ (a b : Axis ℚ), Reach false a ∧ Reach false b ∧ a.beq b = true ∧ a.findNearestIndex 365 false = .ok 1 ∧
      b.findNearestIndex 365 false = .ok (-1) :=
  ⟨⟨false, some 360, .regular ⟨3, 0, 5, 1/5, true⟩⟩, ⟨false, none, .regular ⟨3, 0, 5, 1/5, true⟩⟩,
    .regular 0 10 3 (1/1000000) true _ (by decide +kernel), .regular 0 10 3 (1/1000000) false _ (by decide +kernel),
    by decide +kernel, by decide +kernel, by decide +kernel⟩

/-- **C117, the claim is false** Two axes with the same coordinates differ when their tolerances made one of them regular and
not the other. -/
theorem C117_eq_regular_false :
    ∃ (a b : Axis ℚ), mkAxis false [0, 1, 2] (1/1000000) false = .ok a ∧ mkAxis false [0, 1, 2] 1 false = .ok b ∧
      Coordinates a [0, 1, 2] ∧ Coordinates b [0, 1, 2] ∧ a.beq b = false := by
  refine ⟨⟨false, none, .regular ⟨3, 0, 1, 1, true⟩⟩, ⟨false, none, .irregular [0, 1, 2] true⟩, by decide +kernel,
    by decide +kernel, ⟨by decide +kernel, ?_⟩, ⟨by decide +kernel, ?_⟩, by decide +kernel⟩
  · decide +kernel
  · decide +kernel

/-- A full circle of four longitudes meets the hypotheses. -/
example : ∃ a b : Axis ℚ, Reach false a ∧ 2 ≤ a.size ∧ a.isAngle = true ∧ a.isCircle = true ∧ a.pyFlip false = .ok (a, b) ∧
    Coordinates b [270, 180, 90, 0] := by
  have hr : Reach false (⟨true, some 360, .regular ⟨4, 0, 90, 1/90, true⟩⟩ : Axis ℚ) :=
    .values [0, 90, 180, 270] (1/1000000) true _ (by norm_num) (by decide +kernel)
  have hc : Coordinates (⟨true, some 360, .regular ⟨4, 0, 90, 1/90, true⟩⟩ : Axis ℚ) [0, 90, 180, 270] := by
    refine ⟨by decide +kernel, ?_⟩
    decide +kernel
  obtain ⟨b, h1, -, h3⟩ := C117_flip_copy_partial _ _ hr hc (by decide +kernel) (fun _ => rfl)
  exact ⟨_, b, hr, by decide +kernel, rfl, rfl, h1, h3⟩

end Pyinterp
