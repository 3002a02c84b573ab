import Verif.Lemmas.DoubleCircle
import Verif.Props.C121_NormalizeDouble
import Verif.Props.C123_InterpDouble
import Mathlib.Tactic.IntervalCases

/-
C125: axes of doubles of any kind (regular or irregular, longitudes or not), with the rounding of every operation.
-/
namespace Pyinterp.Double

open Spec Pyinterp

/-- The axes built by the two constructors from at least two values: the values are doubles; if the axis is stored as a regular
one, its bounds are those of `Spacing`. -/
inductive Built : Ax → Prop
  | range {start stop eps : ℚ} {num : ℤ} {circ : Bool} {a : Ax} (h : Spacing start stop num)
      (e : Ax.ofRange start stop num eps circ = .ok a) : Built a
  | values {values : List ℚ} {eps : ℚ} {circ : Bool} {a : Ax} (hd : ∀ x ∈ values, IsDouble x) (h2 : 2 ≤ values.length)
      (e : Ax.ofValues values eps circ = .ok a)
      (hr : ∀ r, a.cont = .regular r → ∃ s t, Spacing s t r.size ∧ Reg.mk' s t r.size = .ok r) : Built a

theorem bind_okD {α β : Type} {x : Out α} {f : α → Out β} {b : β} (h : x.bind f = .ok b) : ∃ a, x = .ok a ∧ f a = .ok b := by
  cases x with
  | error e => cases h
  | ok a => exact ⟨a, rfl, h⟩

theorem compute_cont {angle : Bool} {k : Cont} {eps : ℚ} {a : Ax} (h : Ax.computeProperties angle k eps = .ok a) :
    a.cont = k ∧ a.angle = angle ∧ k.isMonotonic = true ∧ (a.isCircle = true → angle = true) := by
  unfold Ax.computeProperties at h
  split at h
  · cases h
  split at h
  · cases h
  rename_i hm
  have hm' : k.isMonotonic = true := by simpa using hm
  split at h
  · rename_i ha
    cases h
    exact ⟨rfl, by simpa using ha, hm', fun h => by cases h⟩
  rename_i ha
  have ha' : angle = true := by simpa using ha
  cases k with
  | regular r => cases h; exact ⟨rfl, ha'.symm, hm', fun _ => ha'⟩
  | irregular p s =>
    simp only at h
    split at h
    · cases h; exact ⟨rfl, ha'.symm, hm', fun _ => ha'⟩
    · obtain ⟨_, _, h⟩ := bind_okD h
      obtain ⟨_, _, h⟩ := bind_okD h
      obtain ⟨_, _, h⟩ := bind_okD h
      obtain ⟨_, _, h⟩ := bind_okD h
      cases h; exact ⟨rfl, ha'.symm, hm', fun _ => ha'⟩

theorem unwrap_double (asc : Bool) (l : List ℚ) : ∀ (prev : ℚ) (cross : Bool), (∀ x ∈ l, IsDouble x) →
    (∀ x ∈ Ax.unwrapFrom asc prev cross l, IsDouble x) ∧ (Ax.unwrapFrom asc prev cross l).length = l.length := by
  induction l with
  | nil => intro prev cross _; simp [Ax.unwrapFrom]
  | cons x l ih =>
    intro prev cross h
    unfold Ax.unwrapFrom
    simp only
    generalize (if !cross then (if asc = true then decide (prev > x) else decide (prev < x)) else cross) = cr
    obtain ⟨i1, i2⟩ := ih (if cr = true then add x (if asc = true then 360 else -360) else x) cr
      (fun y hy => h y (by simp [hy]))
    refine ⟨?_, by rw [List.length_cons, i2, List.length_cons]⟩
    intro y hy
    rcases List.mem_cons.1 hy with rfl | hy
    · split
      · exact isDouble_fl _
      · exact h x (by simp)
    · exact i1 y hy

theorem normalized_double {l : List ℚ} (h : ∀ x ∈ l, IsDouble x) (h2 : 2 ≤ l.length) :
    (∀ x ∈ (Ax.normalizeLongitude l).getD l, IsDouble x) ∧ 2 ≤ ((Ax.normalizeLongitude l).getD l).length := by
  unfold Ax.normalizeLongitude
  simp only
  split
  · exact ⟨h, h2⟩
  · cases l with
    | nil => exact ⟨h, h2⟩
    | cons x l =>
      obtain ⟨i1, i2⟩ := unwrap_double (isAscendingList (x :: l)) l x false (fun y hy => h y (by simp [hy]))
      simp only [Option.getD_some]
      refine ⟨?_, by simpa [i2] using h2⟩
      intro y hy
      rcases List.mem_cons.1 hy with rfl | hy
      · exact h _ (by simp)
      · exact i1 y hy

theorem built_coords {a : Ax} (h : Built a) : (∃ n f, Coords a.cont n f) ∧ (a.isCircle = true → a.angle = true) := by
  cases h with
  | @range start stop eps num circ _ h e =>
    obtain ⟨r, hr, e⟩ := bind_okD e
    obtain ⟨s, asc, hs⟩ := built_sane h hr (Or.inl rfl)
    obtain ⟨e1, e2, -, e3⟩ := compute_cont e
    rw [e1, e2]
    exact ⟨⟨_, _, coords_regular s asc⟩, e3⟩
  | @values values eps circ _ hd h2 e hr =>
    obtain ⟨l, ang, hl, hl2, e⟩ : ∃ l ang, (∀ x ∈ l, IsDouble x) ∧ 2 ≤ l.length ∧ Ax.initializeFromValues ang l eps = .ok a := by
      unfold Ax.ofValues at e
      split at e
      · exact ⟨_, _, (normalized_double hd h2).1, (normalized_double hd h2).2, e⟩
      · exact ⟨_, _, hd, h2, e⟩
    unfold Ax.initializeFromValues at e
    split at e
    · obtain ⟨r, -, e⟩ := bind_okD e
      obtain ⟨e1, e2, -, e3⟩ := compute_cont e
      obtain ⟨s, t, sp, mk⟩ := hr r e1
      obtain ⟨sn, asc, hs⟩ := built_sane sp mk (Or.inl rfl)
      rw [e1, e2]
      exact ⟨⟨_, _, coords_regular sn asc⟩, e3⟩
    · rw [if_neg (by omega)] at e
      obtain ⟨e1, e2, e4, e3⟩ := compute_cont e
      rw [e1, e2]
      refine ⟨⟨_, _, coords_irregular hl2 hl ?_ ?_⟩, e3⟩
      · exact ((isMonotonic_irregular l (isAscendingList l)).1 e4).1
      · exact ((isMonotonic_irregular l (isAscendingList l)).1 e4).2

/-- The neighbouring coordinates `p` and `q`, number `i` and `j` of the axis, hold `c` between them. -/
structure Framed (a : Ax) (c : ℚ) (i j : ℤ) (p q : ℚ) : Prop where
  left : 0 ≤ i ∧ i < a.cont.size
  right : 0 ≤ j ∧ j < a.cont.size
  next : j = i + 1 ∨ i = j + 1
  coord : a.cont.coord i = .ok p ∧ a.cont.coord j = .ok q
  ne : p ≠ q
  holds : (p ≤ c ∧ c ≤ q) ∨ (q ≤ c ∧ c ≤ p)

theorem normalize_double {a : Ax} {c c' : ℚ} (hc : IsDouble c) (hn : a.normalizeCoordinate c = .ok c') : IsDouble c' := by
  obtain ⟨mn, -, e⟩ := bind_okD hn
  cases e
  unfold Ax.normalizeCoordinate'
  split
  · exact isDouble_fl _
  · exact hc

theorem normalize_again {a : Ax} {c mn : ℚ} (hm : a.cont.minValue = .ok mn) (h0 : a.angle = true → mn ≤ c)
    (hl : a.angle = true → c < add mn 360) : a.normalizeCoordinate c = .ok c := by
  unfold Ax.normalizeCoordinate
  rw [hm]
  simp only [bind, Except.bind, pure, Except.pure]
  congr 1
  unfold Ax.normalizeCoordinate'
  rw [if_neg]
  rintro ⟨ha, h | h⟩
  · exact absurd (hl ha) (not_lt.2 h)
  · exact absurd (h0 ha) (not_le.2 h)

theorem indexes_eq {a : Ax} {c c' : ℚ} {i : ℤ} {n : ℤ} {f : ℤ → ℚ} (C : Coords a.cont n f)
    (hn : a.normalizeCoordinate c = .ok c') (hn' : a.findIndex c' false = .ok i) (i0 : 0 ≤ i) (i1 : i < n) :
    a.findIndexes c = .ok (Ax.around a.isCircle a.cont.asc n i (sub c' (f i))) := by
  unfold Ax.findIndexes
  rw [hn]
  simp only [bind, Except.bind, hn', if_neg (show ¬ i = -1 by omega), C.coord i i0 i1, C.size]
  rfl

theorem indexes_none {a : Ax} {c c' : ℚ} {n : ℤ} {f : ℤ → ℚ} (C : Coords a.cont n f)
    (hn : a.normalizeCoordinate c = .ok c') (hn' : a.findIndex c' false = .ok (-1)) :
    a.findIndexes c = .ok (if a.isCircle then some (n - 1, 0) else none) := by
  unfold Ax.findIndexes
  rw [hn]
  simp only [bind, Except.bind, hn', C.size]
  rfl

theorem index_again {a : Ax} {c c' : ℚ} (hn : a.normalizeCoordinate c = .ok c') {b : Bool} :
    a.findIndex c b = a.cont.findIndex c' b := by
  unfold Ax.findIndex
  rw [hn]
  rfl

theorem Coords.ends {k : Cont} {n : ℤ} {f : ℤ → ℚ} (C : Coords k n f) {v0 v1 mn : ℚ} (h0 : k.coord 0 = .ok v0)
    (h1 : k.coord (k.size - 1) = .ok v1) (hm : k.minValue = .ok mn) :
    v0 = f 0 ∧ v1 = f (n - 1) ∧ mn = (if k.asc then f 0 else f (n - 1)) := by
  have := C.two
  have e0 := C.coord 0 le_rfl (by omega)
  have e1 := C.coord (n - 1) (by omega) (by omega)
  have e2 := C.min_eq
  rw [C.size] at h1
  rw [h0] at e0
  rw [h1] at e1
  rw [hm] at e2
  exact ⟨Except.ok.inj e0, Except.ok.inj e1, Except.ok.inj e2⟩

theorem Coords.min_le {k : Cont} {n : ℤ} {f : ℤ → ℚ} (C : Coords k n f) {c : ℚ} (hb : Btw (f 0) c (f (n - 1))) :
    (if k.asc then f 0 else f (n - 1)) ≤ c := by
  have h2 := C.two
  cases ha : k.asc
  · have := C.down ha 0 (n - 1) le_rfl (by omega) (by omega)
    rcases hb with ⟨b1, b2⟩ | ⟨b1, b2⟩ <;> simp <;> linarith
  · have := C.up ha 0 (n - 1) le_rfl (by omega) (by omega)
    rcases hb with ⟨b1, b2⟩ | ⟨b1, b2⟩ <;> simp <;> linarith

/-- **C125**: for every double between the first and the last coordinate of the axis, `find_indexes` gives two neighbouring
coordinates that hold it, exactly, whatever the rounding errors. For a longitude, this is said of the normalised longitude, if
it is less than the first one plus 360. -/
theorem C125_frame {a : Ax} (h : Built a) {c c' v0 v1 mn : ℚ} (hc : IsDouble c) (hn : a.normalizeCoordinate c = .ok c')
    (hm : a.cont.minValue = .ok mn) (hl : a.angle = true → c' < add mn 360) (h0 : a.cont.coord 0 = .ok v0)
    (h1 : a.cont.coord (a.cont.size - 1) = .ok v1) (hb : (v0 ≤ c' ∧ c' ≤ v1) ∨ (v1 ≤ c' ∧ c' ≤ v0)) :
    ∃ i j p q, a.findIndexes c = .ok (some (i, j)) ∧ Framed a c' i j p q ∧
      (p ≤ c' ∨ (a.cont.asc = false ∧ c' = v1)) := by
  obtain ⟨⟨n, f, C⟩, -⟩ := built_coords h
  obtain ⟨rfl, rfl, rfl⟩ := C.ends h0 h1 hm
  have hc' := normalize_double hc hn
  have hb' : Btw (f 0) c' (f (n - 1)) := hb
  have again : a.normalizeCoordinate c' = .ok c' := normalize_again hm (fun _ => C.min_le hb') hl
  obtain ⟨i, fi, i0, i1, hi⟩ := C.inside c' hc' hb' false
  obtain ⟨x, y, e, bx, by', next, fr, -, low⟩ := C.around_inside hc' hb' i0 i1 hi a.isCircle
  refine ⟨x, y, f x, f y, ?_, ⟨by rw [C.size]; exact bx, by rw [C.size]; exact by', next,
    ⟨C.coord x bx.1 bx.2, C.coord y by'.1 by'.2⟩, ?_, fr⟩, low⟩
  · rw [indexes_eq C hn (by rw [index_again again]; exact fi) i0 i1, e]
  · cases ha : a.cont.asc
    · rcases next with rfl | rfl
      · exact (C.down ha x (x + 1) bx.1 (by omega) by'.2).ne'
      · exact (C.down ha y (y + 1) by'.1 (by omega) bx.2).ne
    · rcases next with rfl | rfl
      · exact (C.up ha x (x + 1) bx.1 (by omega) by'.2).ne
      · exact (C.up ha y (y + 1) by'.1 (by omega) bx.2).ne'

theorem normalize_linear {a : Ax} {c mn : ℚ} (ha : a.angle = false) (hm : a.cont.minValue = .ok mn) :
    a.normalizeCoordinate c = .ok c :=
  normalize_again hm (fun h => by rw [ha] at h; cases h) (fun h => by rw [ha] at h; cases h)

/-- What the two searches give outside of the axis. -/
theorem Coords.out {k : Cont} {n : ℤ} {f : ℤ → ℚ} (C : Coords k n f) {c : ℚ} (hc : IsDouble c)
    (far : |c - f 0| ≤ 2 ^ 60 * |f 1 - f 0|) (hb : ¬ Btw (f 0) c (f (n - 1))) :
    k.findIndex c false = .ok (-1) ∨
      (k.findIndex c false = .ok (n - 1) ∧ if k.asc then f (n - 1) < c else c < f (n - 1)) ∨
      (k.findIndex c false = .ok 0 ∧ if k.asc then c < f 0 else f 0 < c) := by
  have h2 := C.two
  unfold Btw at hb
  push Not at hb
  cases ha : k.asc
  · have hd := C.down ha 0 (n - 1) le_rfl (by omega) (by omega)
    by_cases h : c < f (n - 1)
    · rcases C.after c hc far (Or.inr ⟨h, hd⟩) with e | e
      · exact Or.inl e
      · exact Or.inr (Or.inl ⟨e, by simpa using h⟩)
    · have h' := hb.2 (not_lt.1 h)
      rcases C.before c hc far (Or.inr ⟨h', hd⟩) with e | e
      · exact Or.inl e
      · exact Or.inr (Or.inr ⟨e, by simpa using h'⟩)
  · have hd := C.up ha 0 (n - 1) le_rfl (by omega) (by omega)
    by_cases h : c < f 0
    · rcases C.before c hc far (Or.inl ⟨h, hd⟩) with e | e
      · exact Or.inl e
      · exact Or.inr (Or.inr ⟨e, by simpa using h⟩)
    · have h' := hb.1 (not_lt.1 h)
      rcases C.after c hc far (Or.inl ⟨h', hd⟩) with e | e
      · exact Or.inl e
      · exact Or.inr (Or.inl ⟨e, by simpa using h'⟩)

/-- **C125**: on an axis that is not a circle, a coordinate outside of the axis (and not too far: at most 2^60 steps) is never
framed: the result is empty. -/
theorem C125_outside {a : Ax} (h : Built a) (hcirc : a.isCircle = false) {c c' v0 v1 v2 mn : ℚ} (hc : IsDouble c)
    (hn : a.normalizeCoordinate c = .ok c') (hm : a.cont.minValue = .ok mn) (hm0 : a.angle = true → mn ≤ c')
    (hl : a.angle = true → c' < add mn 360)
    (h0 : a.cont.coord 0 = .ok v0) (h1 : a.cont.coord (a.cont.size - 1) = .ok v1) (h2 : a.cont.coord 1 = .ok v2)
    (far : |c' - v0| ≤ 2 ^ 60 * |v2 - v0|) (hb : ¬ ((v0 ≤ c' ∧ c' ≤ v1) ∨ (v1 ≤ c' ∧ c' ≤ v0))) :
    a.findIndexes c = .ok none := by
  obtain ⟨⟨n, f, C⟩, -⟩ := built_coords h
  obtain ⟨rfl, rfl, rfl⟩ := C.ends h0 h1 hm
  have two := C.two
  obtain rfl : v2 = f 1 := by
    have := C.coord 1 (by omega) (by omega)
    rw [h2] at this; exact Except.ok.inj this
  have hc' := normalize_double hc hn
  have again : a.normalizeCoordinate c' = .ok c' := normalize_again hm hm0 hl
  rcases C.out hc' far hb with e | ⟨e, w⟩ | ⟨e, w⟩
  · rw [indexes_none C hn (by rw [index_again again]; exact e), hcirc]; rfl
  · rw [indexes_eq C hn (by rw [index_again again]; exact e) (by omega) (by omega), hcirc]
    have hd := C.double (n - 1) (by omega) (by omega)
    unfold Ax.around
    cases ha : a.cont.asc
    · rw [ha] at w
      have hs : sub c' (f (n - 1)) < 0 := sub_lt hc' hd (by simpa using w)
      simp only [if_neg hs.ne, if_pos hs]
      simp
    · rw [ha] at w
      have hs : 0 < sub c' (f (n - 1)) := by
        have := sub_lt hd hc' (by simpa using w)
        rw [sub_antisymm] at this; linarith
      simp only [if_neg hs.ne', if_neg hs.le.not_gt]
      simp
  · rw [indexes_eq C hn (by rw [index_again again]; exact e) le_rfl (by omega), hcirc]
    have hd := C.double 0 le_rfl (by omega)
    unfold Ax.around
    cases ha : a.cont.asc
    · rw [ha] at w
      have hs : 0 < sub c' (f 0) := by
        have := sub_lt hd hc' (by simpa using w)
        rw [sub_antisymm] at this; linarith
      simp only [if_neg hs.ne', if_neg hs.le.not_gt]
      simp
    · rw [ha] at w
      have hs : sub c' (f 0) < 0 := sub_lt hc' hd (by simpa using w)
      simp only [if_neg hs.ne, if_pos hs]
      simp

/-- The longitudes of the axis are of a reasonable size: at most 2^20 degrees, the first two of them at least 2^-38 degrees
apart. -/
structure Moderate (a : Ax) : Prop where
  bound : ∀ i v, 0 ≤ i → i < a.cont.size → a.cont.coord i = .ok v → |v| ≤ 2 ^ 20
  step : ∀ v w, a.cont.coord 0 = .ok v → a.cont.coord 1 = .ok w → 2 ^ (-38 : ℤ) ≤ |w - v|

theorem normalize_range {a : Ax} {c c' mn : ℚ} (ha : a.angle = true) (hmn : IsDouble mn) (hm : a.cont.minValue = .ok mn)
    (hn : a.normalizeCoordinate c = .ok c') : mn ≤ c' ∧ c' ≤ add mn 360 := by
  unfold Ax.normalizeCoordinate at hn
  rw [hm] at hn
  cases hn
  unfold Ax.normalizeCoordinate'
  split
  · exact C121_range c mn hmn
  · rename_i h
    simp only [ha, true_and, not_or, not_le, not_lt] at h
    exact ⟨h.2, h.1.le⟩

theorem Moderate.far {a : Ax} {n : ℤ} {f : ℤ → ℚ} (m : Moderate a) (C : Coords a.cont n f) {c : ℚ}
    (h : (if a.cont.asc then f 0 else f (n - 1)) ≤ c ∧ c ≤ add (if a.cont.asc then f 0 else f (n - 1)) 360) :
    |c - f 0| ≤ 2 ^ 60 * |f 1 - f 0| := by
  have two := C.two
  have b0 := abs_le.1 (m.bound 0 _ le_rfl (by rw [C.size]; omega) (C.coord 0 le_rfl (by omega)))
  have b1 := abs_le.1 (m.bound (n - 1) _ (by omega) (by rw [C.size]; omega) (C.coord (n - 1) (by omega) (by omega)))
  have st := m.step _ _ (C.coord 0 le_rfl (by omega)) (C.coord 1 (by omega) (by omega))
  set mn := (if a.cont.asc then f 0 else f (n - 1)) with hmn
  have bm : -(2 ^ 20) ≤ mn ∧ mn ≤ 2 ^ 20 := by rw [hmn]; split <;> assumption
  have hup : add mn 360 ≤ 2 ^ 21 := by
    unfold add
    refine (fl_le_of_double (d := 2 ^ 21) ?_ ?_)
    · have := isDouble_int (n := 2097152) (by norm_num)
      norm_num at this ⊢
      exact this
    · norm_num at bm ⊢; linarith
  have : |c - f 0| ≤ 2 ^ 22 := by
    rw [abs_le]; norm_num at *; constructor <;> linarith
  refine this.trans (le_trans ?_ (mul_le_mul_of_nonneg_left st (by norm_num)))
  norm_num

/-- **C125**: on a circle, a longitude of which the normalised value is not between the first and the last one is framed by
these two. -/
theorem C125_seam {a : Ax} (h : Built a) (hcirc : a.isCircle = true) (m : Moderate a) {c c' v0 v1 mn : ℚ} (hc : IsDouble c)
    (hn : a.normalizeCoordinate c = .ok c') (hm : a.cont.minValue = .ok mn) (hl : c' < add mn 360)
    (h0 : a.cont.coord 0 = .ok v0) (h1 : a.cont.coord (a.cont.size - 1) = .ok v1)
    (hb : ¬ ((v0 ≤ c' ∧ c' ≤ v1) ∨ (v1 ≤ c' ∧ c' ≤ v0))) :
    a.findIndexes c = .ok (some (a.cont.size - 1, 0)) ∨
      (a.cont.asc = false ∧ a.findIndexes c = .ok (some (0, a.cont.size - 1))) := by
  obtain ⟨⟨n, f, C⟩, ang⟩ := built_coords h
  obtain ⟨rfl, rfl, rfl⟩ := C.ends h0 h1 hm
  have two := C.two
  have hmn : IsDouble (if a.cont.asc then f 0 else f (n - 1)) := by
    split <;> exact C.double _ (by omega) (by omega)
  have hc' := normalize_double hc hn
  have rg := normalize_range (ang hcirc) hmn hm hn
  have again : a.normalizeCoordinate c' = .ok c' := normalize_again hm (fun _ => rg.1) (fun _ => hl)
  rw [C.size]
  have rem0 : Math.remainderI n n = 0 := by rw [Math.remainderI_eq_emod _ _ (by omega), Int.emod_self]
  have rem1 : Math.remainderI (-1) n = n - 1 := by
    rw [Math.remainderI_eq_emod _ _ (by omega), Int.emod_eq_iff (by omega)]
    refine ⟨by omega, by omega, ⟨1, by ring⟩⟩
  rcases C.out hc' (m.far C rg) hb with e | ⟨e, w⟩ | ⟨e, w⟩
  · rw [indexes_none C hn (by rw [index_again again]; exact e), hcirc]; exact Or.inl rfl
  · rw [indexes_eq C hn (by rw [index_again again]; exact e) (by omega) (by omega), hcirc]
    have hd := C.double (n - 1) (by omega) (by omega)
    cases ha : a.cont.asc
    · rw [ha] at w rg
      simp at w rg
      linarith
    · rw [ha] at w
      have hs : 0 < sub c' (f (n - 1)) := by
        have := sub_lt hd hc' (by simpa using w)
        rw [sub_antisymm] at this; linarith
      unfold Ax.around
      simp only [if_neg hs.ne', if_neg hs.le.not_gt, if_true, sub_add_cancel, rem0]
      left
      rw [if_pos (by omega)]
  · rw [indexes_eq C hn (by rw [index_again again]; exact e) le_rfl (by omega), hcirc]
    have hd := C.double 0 le_rfl (by omega)
    cases ha : a.cont.asc
    · rw [ha] at w
      have hs : 0 < sub c' (f 0) := by
        have := sub_lt hd hc' (by simpa using w)
        rw [sub_antisymm] at this; linarith
      unfold Ax.around
      simp only [if_neg hs.ne', if_neg hs.le.not_gt, if_true, Bool.false_eq_true, if_false, zero_sub, rem1]
      right
      rw [if_pos (by omega)]
      exact ⟨trivial, rfl⟩
    · rw [ha] at w rg
      simp at w rg
      linarith

/-- **C125**: on a circle no longitude is lost: `find_indexes` gives two numbers of coordinates and `find_nearest_index` one, for
every double. -/
theorem C125_never_lost {a : Ax} (h : Built a) (hcirc : a.isCircle = true) (m : Moderate a) {c : ℚ} (hc : IsDouble c) :
    (∃ i j, a.findIndexes c = .ok (some (i, j)) ∧ (0 ≤ i ∧ i < a.cont.size) ∧ (0 ≤ j ∧ j < a.cont.size)) ∧
    (∃ i, a.findNearestIndex c false = .ok i ∧ 0 ≤ i ∧ i < a.cont.size) := by
  obtain ⟨⟨n, f, C⟩, ang⟩ := built_coords h
  have two := C.two
  have hmn : IsDouble (if a.cont.asc then f 0 else f (n - 1)) := by
    split <;> exact C.double _ (by omega) (by omega)
  have hm := C.min_eq
  have some' : ∀ c, ∃ c', a.normalizeCoordinate c = .ok c' := by
    intro c
    unfold Ax.normalizeCoordinate
    rw [hm]
    exact ⟨_, rfl⟩
  have one : ∀ c c', IsDouble c → a.normalizeCoordinate c = .ok c' →
      ∃ i, a.cont.findIndex c' false = .ok i ∧ (i = -1 ∨ (0 ≤ i ∧ i < n)) := by
    intro c c' hc hn
    have hc' := normalize_double hc hn
    have rg := normalize_range (ang hcirc) hmn hm hn
    by_cases hb : Btw (f 0) c' (f (n - 1))
    · obtain ⟨i, fi, i0, i1, -⟩ := C.inside c' hc' hb false
      exact ⟨i, fi, Or.inr ⟨i0, i1⟩⟩
    · rcases C.out hc' (m.far C rg) hb with e | ⟨e, -⟩ | ⟨e, -⟩
      · exact ⟨_, e, Or.inl rfl⟩
      · exact ⟨_, e, Or.inr ⟨by omega, by omega⟩⟩
      · exact ⟨_, e, Or.inr ⟨by omega, by omega⟩⟩
  obtain ⟨c1, n1⟩ := some' c
  obtain ⟨c2, n2⟩ := some' c1
  have d1 := normalize_double hc n1
  constructor
  · obtain ⟨i, fi, hi⟩ := one c1 c2 d1 n2
    rw [C.size]
    rcases hi with rfl | ⟨i0, i1⟩
    · rw [indexes_none C n1 (by rw [index_again n2]; exact fi), hcirc]
      exact ⟨_, _, rfl, by omega, by omega⟩
    · rw [indexes_eq C n1 (by rw [index_again n2]; exact fi) i0 i1, hcirc]
      obtain ⟨x, y, e, bx, by'⟩ := Coords.around_circle two i0 i1 a.cont.asc (sub c1 (f i))
      exact ⟨x, y, by rw [e], bx, by'⟩
  · obtain ⟨i, fi, hi⟩ := one c c1 hc n1
    rw [C.size]
    unfold Ax.findNearestIndex
    rw [n1]
    simp only [bind, Except.bind, fi, hcirc, and_true]
    rcases hi with rfl | ⟨i0, i1⟩
    · simp only [if_true, C.max_eq, hm, C.size]
      refine ⟨_, rfl, ?_⟩
      split <;> omega
    · rw [if_neg (by omega)]
      exact ⟨i, rfl, i0, i1⟩

theorem nearest_aux (R : ℚ → ℚ → Prop) [DecidableRel R] {l : List ℚ} {c : ℚ} {b : Bool} {i : ℤ}
    (htrans : ∀ x y z, R x y → R y z → R x z) (hirr : ∀ x, ¬ R x x) (htri : ∀ x y, R x y ∨ x = y ∨ R y x)
    (hmid : ∀ x y z, (R x y ∨ x = y) → (R y z ∨ y = z) → |z - y| ≤ |z - x| ∧ |x - y| ≤ |x - z|)
    (hl : l.Pairwise R) (hne : l ≠ []) (hd : ∀ x ∈ l, IsDouble x) (hc : IsDouble c)
    (e : Cont.irregularFind l (fun a b => decide (R a b)) c b = .ok i) (hi : i ≠ -1) :
    ∃ p, rd l i = .ok p ∧ ∀ q ∈ l, |c - p| ≤ |c - q| * (1 + 2 ^ (-51 : ℤ)) := by
  have grow : ∀ x : ℚ, |x| ≤ |x| * (1 + 2 ^ (-51 : ℤ)) := by
    intro x
    have := abs_nonneg x
    norm_num
    linarith
  have rdn : ∀ r : ℕ, ∀ h : r < l.length, rd l (r : ℤ) = .ok l[r] := by
    intro r h
    unfold rd
    simp [h]
  have hget : ∀ i j (hi : i < l.length) (hj : j < l.length), i < j → R l[i] l[j] :=
    fun i j hi hj hij => List.pairwise_iff_getElem.mp hl i j hi hj hij
  have hle : ∀ i j (hi : i < l.length) (hj : j < l.length), i ≤ j → R l[i] l[j] ∨ l[i] = l[j] := by
    intro i j hi hj hij
    rcases hij.lt_or_eq with h | rfl
    · exact Or.inl (hget i j hi hj h)
    · exact Or.inr rfl
  rcases irregularFind_cases R l c b htrans hirr htri hl hne with ⟨r, h, hr, h1, h2, e'⟩ | ⟨h, ⟨h1, e'⟩ | ⟨h1, e'⟩⟩ | ⟨h, h1, e'⟩
  · rw [e] at e'
    have hi' := Except.ok.inj e'
    have dr := hd _ (List.getElem_mem h)
    have dr' := hd _ (List.getElem_mem (show r - 1 < l.length by omega))
    have h2' : R c l[r] ∨ c = l[r] := h2
    -- the two candidates against all the others
    have lower : ∀ j (hj : j < l.length), j ≤ r - 1 → |c - l[r - 1]| ≤ |c - l[j]| := fun j hj hjr =>
      (hmid l[j] l[r - 1] c (hle _ _ _ _ hjr) (Or.inl h1)).1
    have upper : ∀ j (hj : j < l.length), r ≤ j → |c - l[r]| ≤ |c - l[j]| := fun j hj hjr =>
      (hmid c l[r] l[j] h2' (hle _ _ _ _ hjr)).2
    split at hi'
    · rename_i hcmp
      refine ⟨l[r - 1], ?_, ?_⟩
      · have := rdn (r - 1) (by omega); rw [← this]; congr 1; omega
      · intro q hq
        obtain ⟨j, hj, rfl⟩ := List.mem_iff_getElem.1 hq
        rcases Nat.lt_or_ge j r with hjr | hjr
        · exact (lower j hj (by omega)).trans (grow _)
        · exact (dist_le dr dr' hc hcmp.le).trans (mul_le_mul_of_nonneg_right (upper j hj hjr) (by norm_num))
    · rename_i hcmp
      refine ⟨l[r], ?_, ?_⟩
      · rw [hi']; exact rdn r h
      · intro q hq
        obtain ⟨j, hj, rfl⟩ := List.mem_iff_getElem.1 hq
        rcases Nat.lt_or_ge j r with hjr | hjr
        · exact (dist_le dr' dr hc (not_lt.1 hcmp)).trans (mul_le_mul_of_nonneg_right (lower j hj (by omega)) (by norm_num))
        · exact (upper j hj hjr).trans (grow _)
  · rw [e] at e'
    have hi' := Except.ok.inj e'
    split at hi'
    · refine ⟨l[0], by rw [hi']; exact rdn 0 h, ?_⟩
      intro q hq
      obtain ⟨j, hj, rfl⟩ := List.mem_iff_getElem.1 hq
      exact ((hmid c l[0] l[j] (Or.inl h1) (hle _ _ _ _ (by omega))).2).trans (grow _)
    · exact absurd hi' hi
  · rw [e] at e'
    have hi' := Except.ok.inj e'
    refine ⟨l[0], by rw [hi']; exact rdn 0 h, ?_⟩
    intro q hq
    rw [h1]
    simp only [sub_self, abs_zero]
    positivity
  · rw [e] at e'
    have hi' := Except.ok.inj e'
    split at hi'
    · refine ⟨l[l.length - 1], ?_, ?_⟩
      · have := rdn (l.length - 1) (by omega); rw [← this]; congr 1; omega
      · intro q hq
        obtain ⟨j, hj, rfl⟩ := List.mem_iff_getElem.1 hq
        exact ((hmid l[j] l[l.length - 1] c (hle _ _ _ _ (by omega)) (Or.inl h1)).1).trans (grow _)
    · exact absurd hi' hi

/-- The list behind an irregular axis. -/
theorem built_irregular {a : Ax} (h : Built a) {l : List ℚ} {asc : Bool} (hk : a.cont = .irregular l asc) :
    2 ≤ l.length ∧ (∀ x ∈ l, IsDouble x) ∧ (asc = true → l.Pairwise (· < ·)) ∧ (asc = false → l.Pairwise (· > ·)) := by
  cases h with
  | @range start stop eps num circ _ h e =>
    obtain ⟨r, hr, e⟩ := bind_okD e
    obtain ⟨e1, -⟩ := compute_cont e
    rw [hk] at e1
    cases e1
  | @values values eps circ _ hd h2 e hr =>
    obtain ⟨l', ang, hl, hl2, e⟩ : ∃ l ang, (∀ x ∈ l, IsDouble x) ∧ 2 ≤ l.length ∧ Ax.initializeFromValues ang l eps = .ok a := by
      unfold Ax.ofValues at e
      split at e
      · exact ⟨_, _, (normalized_double hd h2).1, (normalized_double hd h2).2, e⟩
      · exact ⟨_, _, hd, h2, e⟩
    unfold Ax.initializeFromValues at e
    split at e
    · obtain ⟨r, -, e⟩ := bind_okD e
      obtain ⟨e1, -⟩ := compute_cont e
      rw [hk] at e1
      cases e1
    · rw [if_neg (by omega)] at e
      obtain ⟨e1, -, e4, -⟩ := compute_cont e
      rw [hk] at e1
      cases e1
      exact ⟨hl2, hl, ((isMonotonic_irregular l (isAscendingList l)).1 e4).1,
        ((isMonotonic_irregular l (isAscendingList l)).1 e4).2⟩

/-- **C125**: on an irregular axis, when `find_index` gives a number, it is that of a coordinate that is the nearest, up to a
relative error of 2^-51 on the distance. -/
theorem C125_nearest {a : Ax} (h : Built a) {l : List ℚ} {asc : Bool} (hk : a.cont = .irregular l asc) {c c' : ℚ}
    (hc : IsDouble c) (hn : a.normalizeCoordinate c = .ok c') {b : Bool} {i : ℤ} (e : a.findIndex c b = .ok i) (hi : i ≠ -1) :
    ∃ p, a.cont.coord i = .ok p ∧ ∀ j q, 0 ≤ j → j < a.cont.size → a.cont.coord j = .ok q →
      |c' - p| ≤ |c' - q| * (1 + 2 ^ (-51 : ℤ)) := by
  obtain ⟨h2, hd, hup, hdn⟩ := built_irregular h hk
  have hc' := normalize_double hc hn
  have hne : l ≠ [] := by rintro rfl; simp at h2
  rw [index_again hn, hk] at e
  rw [hk]
  have mem : ∀ j q, 0 ≤ j → rd l j = .ok q → q ∈ l := by
    intro j q h0 hq
    unfold rd at hq
    rw [if_neg (by omega)] at hq
    split at hq
    · cases hq
      rename_i v
      exact List.mem_of_getElem? (by assumption)
    · cases hq
  suffices hs : ∃ p, rd l i = .ok p ∧ ∀ q ∈ l, |c' - p| ≤ |c' - q| * (1 + 2 ^ (-51 : ℤ)) by
    obtain ⟨p, hp, hq⟩ := hs
    exact ⟨p, hp, fun j q h0 _ hj => hq q (mem j q h0 hj)⟩
  cases asc
  · refine nearest_aux (fun x y => y < x) (b := b) (fun x y z h1 h2 => h2.trans h1) (fun x => lt_irrefl x) ?_ ?_ (hdn rfl) hne
      hd hc' ?_ hi
    · intro x y; rcases lt_trichotomy x y with h | h | h <;> simp [h]
    · intro x y z h1 h2
      have h1' : y ≤ x := by rcases h1 with h | h <;> linarith
      have h2' : z ≤ y := by rcases h2 with h | h <;> linarith
      rw [abs_of_nonpos (by linarith : z - y ≤ 0), abs_of_nonpos (by linarith : z - x ≤ 0), abs_of_nonneg (by linarith : 0 ≤ x - y),
        abs_of_nonneg (by linarith : 0 ≤ x - z)]
      constructor <;> linarith
    · rw [← e]; rfl
  · refine nearest_aux (fun x y => x < y) (b := b) (fun x y z h1 h2 => h1.trans h2) (fun x => lt_irrefl x) ?_ ?_ (hup rfl) hne
      hd hc' ?_ hi
    · intro x y; exact lt_trichotomy x y
    · intro x y z h1 h2
      have h1' : x ≤ y := by rcases h1 with h | h <;> linarith
      have h2' : y ≤ z := by rcases h2 with h | h <;> linarith
      rw [abs_of_nonneg (by linarith : 0 ≤ z - y), abs_of_nonneg (by linarith : 0 ≤ z - x), abs_of_nonpos (by linarith : x - y ≤ 0),
        abs_of_nonpos (by linarith : x - z ≤ 0)]
      constructor <;> linarith
    · rw [← e]; rfl

/-- An irregular axis of doubles. -/
def exIrregular : Ax := { isCircle := false, angle := false, cont := .irregular [-1, 1, 4] true }

theorem exIrregular_ok : Ax.ofValues [-1, 1, 4] (1 / 2 ^ 20) false = .ok exIrregular := by decide +kernel

theorem exIrregular_built : Built exIrregular :=
  .values (values := [-1, 1, 4]) (eps := 1 / 2 ^ 20) (circ := false)
    (by
      intro x hx
      have h : x = ((-1 : ℤ) : ℚ) ∨ x = ((1 : ℤ) : ℚ) ∨ x = ((4 : ℤ) : ℚ) := by simpa using hx
      rcases h with rfl | rfl | rfl <;> exact isDouble_int (by norm_num))
    (by simp) exIrregular_ok (by intro r hr; cases hr)

/- `C125_nearest` and `C125_frame` on it. -/
example : exIrregular.findIndex 2 false = .ok 1 ∧ exIrregular.findIndex 5 true = .ok 2 ∧
    exIrregular.findIndexes 2 = .ok (some (1, 2)) ∧ exIrregular.findIndexes 5 = .ok none := by
  refine ⟨?_, ?_, ?_, ?_⟩ <;> decide +kernel

/-- C125, what is false: the coordinate found is not always exactly the nearest. On the axis -1, 1, 4 the nearest coordinate to
-2^-60 is -1, and the number found is that of 1. -/
theorem C125_nearest_false :
    ∃ (a : Ax) (c p q : ℚ), Built a ∧ IsDouble c ∧ a.findIndex c false = .ok 1 ∧ a.cont.coord 1 = .ok p ∧
      a.cont.coord 0 = .ok q ∧ |c - q| < |c - p| := by
  refine ⟨exIrregular, -(1 / 2 ^ 60), 1, -1, exIrregular_built, ⟨-1, -60, by norm_num, by norm_num, by norm_num⟩, by decide +kernel,
    by decide +kernel, by decide +kernel, by norm_num⟩

/-- The longitudes 0, 45, ..., 315. -/
def exCircle : Ax := { isCircle := true, angle := true, cont := .regular ⟨8, 0, 45, div 1 45, true⟩ }

theorem exCircle_built : Built exCircle :=
  .range (start := 0) (stop := 315) (num := 8) (eps := 1 / 2 ^ 20) (circ := true)
    ⟨isDouble_int (n := 0) (by norm_num), isDouble_int (n := 315) (by norm_num), by norm_num, by norm_num, by norm_num,
      (zpow_le_one_of_nonpos₀ (by norm_num) (by norm_num)).trans (by norm_num),
      le_trans (show |(315 : ℚ) - 0| ≤ 2 ^ (9 : ℤ) by norm_num) (zpow_le_zpow_right₀ (by norm_num) (by norm_num))⟩
    (by decide +kernel)

theorem moderate_regular {a : Ax} {r : Reg} (hk : a.cont = .regular r)
    (hb : ∀ i : ℤ, 0 ≤ i → i < r.size → |r.coord i| ≤ 2 ^ 20) (hs : 2 ^ (-38 : ℤ) ≤ |r.coord 1 - r.coord 0|) : Moderate a := by
  constructor
  · intro i v h0 h1 e
    rw [hk] at h1 e
    cases e
    exact hb i h0 h1
  · intro v w e e'
    rw [hk] at e e'
    cases e
    cases e'
    exact hs

theorem exCircle_moderate : Moderate exCircle := by
  refine moderate_regular rfl ?_ ?_
  · intro i h0 h1
    have : i < 8 := h1
    interval_cases i <;> decide +kernel
  · have : Reg.coord ⟨8, 0, 45, div 1 45, true⟩ 1 - Reg.coord ⟨8, 0, 45, div 1 45, true⟩ 0 = 45 := by decide +kernel
    rw [this]
    norm_num

/- `C125_frame`, `C125_seam` and `C125_never_lost` on it: a longitude of another turn, and the two sides of the seam. -/
example : exCircle.findIndexes 370 = .ok (some (0, 1)) ∧ exCircle.findIndexes 350 = .ok (some (7, 0)) ∧
    exCircle.findIndexes (-1) = .ok (some (7, 0)) ∧ exCircle.findNearestIndex (-1) false = .ok 0 := by
  refine ⟨?_, ?_, ?_, ?_⟩ <;> decide +kernel

/-- A grid on axes built by the constructors. -/
structure OnAxes (g : AxGrid) : Prop where
  x : Built g.x
  y : Built g.y
  shape : g.arr.shape = [g.x.cont.size.toNat, g.y.cont.size.toNat]
  values : ∀ idx v, g.arr.at' idx = some v → IsDouble v

theorem OnAxes.value {g : AxGrid} (h : OnAxes g) {i j : ℤ} (hi : 0 ≤ i ∧ i < g.x.cont.size)
    (hj : 0 ≤ j ∧ j < g.y.cont.size) : g.arr.value [i, j] = .ok (g.arr.at' [i.toNat, j.toNat]) := by
  unfold Variate.Arr.value
  rw [if_pos]
  · rfl
  · rw [h.shape]
    refine ⟨rfl, ?_⟩
    intro p hp
    simp only [List.zip_cons_cons, List.zip_nil_right, List.mem_cons, List.not_mem_nil, or_false] at hp
    rcases hp with rfl | rfl
    · simp only; omega
    · simp only; omega

/-- The first coordinate of an axis and the conditions under which a longitude is used as it is: it is normalised, and it is not
the last one of a descending axis. -/
structure Plain (a : Ax) (c : ℚ) : Prop where
  double : IsDouble c
  inside : ∃ v0 v1, a.cont.coord 0 = .ok v0 ∧ a.cont.coord (a.cont.size - 1) = .ok v1 ∧
    ((v0 ≤ c ∧ c ≤ v1) ∨ (v1 ≤ c ∧ c ≤ v0)) ∧ (a.angle = true → c = v1 → a.cont.asc = true)
  turn : a.angle = true → ∃ mn, a.cont.minValue = .ok mn ∧ c < add mn 360

theorem Plain.frame {a : Ax} (h : Built a) {c : ℚ} (p : Plain a c) :
    ∃ i j u v, a.findIndexes c = .ok (some (i, j)) ∧ Framed a c i j u v ∧ a.normalizeCoordinate' c u = c := by
  obtain ⟨v0, v1, h0, h1, hb, hlast⟩ := p.inside
  obtain ⟨⟨n, f, C⟩, -⟩ := built_coords h
  have hm := C.min_eq
  obtain ⟨e0, e1, -⟩ := C.ends h0 h1 hm
  have hb' : Btw (f 0) c (f (n - 1)) := by rw [← e0, ← e1]; exact hb
  have ht : a.angle = true → c < add (if a.cont.asc then f 0 else f (n - 1)) 360 := by
    intro ha
    obtain ⟨mn, hm', hl⟩ := p.turn ha
    rw [hm] at hm'
    cases hm'
    exact hl
  have hn := normalize_again (a := a) (c := c) hm (fun _ => C.min_le hb') ht
  obtain ⟨i, j, u, v, e, fr, low⟩ := C125_frame h p.double hn hm ht h0 h1 hb
  refine ⟨i, j, u, v, e, fr, ?_⟩
  unfold Ax.normalizeCoordinate'
  rw [if_neg]
  rintro ⟨ha, hh⟩
  have hu : u ≤ c := by
    rcases low with h | ⟨h, h'⟩
    · exact h
    · rw [hlast ha h'] at h; cases h
  rcases hh with hh | hh
  · have hmu : (if a.cont.asc then f 0 else f (n - 1)) ≤ u := by
      have bi := fr.left
      rw [C.size] at bi
      have ci := C.coord i bi.1 bi.2
      rw [fr.coord.1] at ci
      cases ci
      have two := C.two
      cases hs : a.cont.asc
      · simp only [Bool.false_eq_true, if_false]
        rcases eq_or_ne i (n - 1) with rfl | hne
        · exact le_rfl
        · exact (C.down hs i (n - 1) bi.1 (by omega) (by omega)).le
      · simp only [if_true]
        rcases eq_or_ne i 0 with rfl | hne
        · exact le_rfl
        · exact (C.up hs 0 i le_rfl (by omega) bi.2).le
    have := fl_mono (add_le_add_left hmu 360)
    have := ht ha
    unfold add at *
    linarith
  · linarith

theorem OnAxes.cell {g : AxGrid} (h : OnAxes g) {x y : ℚ} {be : Bool} {i0 i1 j0 j1 : ℤ} {x0 x1 y0 y1 : ℚ}
    (e : g.x.findIndexes x = .ok (some (i0, i1))) (e' : g.y.findIndexes y = .ok (some (j0, j1)))
    (fx : Framed g.x x i0 i1 x0 x1) (fy : Framed g.y y j0 j1 y0 y1) (nx : g.x.normalizeCoordinate' x x0 = x)
    {v00 v01 v10 v11 : ℚ} (h00 : g.arr.at' [i0.toNat, j0.toNat] = some v00) (h01 : g.arr.at' [i0.toNat, j1.toNat] = some v01)
    (h10 : g.arr.at' [i1.toNat, j0.toNat] = some v10) (h11 : g.arr.at' [i1.toNat, j1.toNat] = some v11) :
    bivariateAx g x y be = .ok (some (bilinear (x, y) (x0, y0) (x1, y1) v00 v01 v10 v11)) := by
  unfold bivariateAx
  rw [e, e']
  simp only [bind, Except.bind, fx.coord.1, fx.coord.2, fy.coord.1, fy.coord.2, h.value fx.left fy.left, h.value fx.left fy.right,
    h.value fx.right fy.left, h.value fx.right fy.right, h00, h01, h10, h11, nx]
  rfl

/-- **C125**: at a point that is between the bounds of the axes, the interpolation is the exact bilinear interpolation of the four
values of the cell that holds the point, up to 2^-47 times the greatest value of the grid, whatever the kind of the axes: regular
or not, in ascending or descending order. -/
theorem C125_grid_value {g : AxGrid} (h : OnAxes g) {M : ℚ} (hM : 2 ^ (-1022 : ℤ) ≤ M)
    (hv : ∀ i j : ℕ, (i : ℤ) < g.x.cont.size → (j : ℤ) < g.y.cont.size → ∃ v, g.arr.at' [i, j] = some v ∧ |v| ≤ M)
    (hgap : ∀ a, (a = g.x ∨ a = g.y) → ∀ i p q, a.cont.coord i = .ok p → a.cont.coord (i + 1) = .ok q →
      2 ^ (-1010 : ℤ) ≤ |q - p|) {x y : ℚ} (px : Plain g.x x) (py : Plain g.y y) (be : Bool) :
    ∃ (i0 i1 j0 j1 : ℕ) (x0 x1 y0 y1 v00 v01 v10 v11 z : ℚ), Framed g.x x i0 i1 x0 x1 ∧ Framed g.y y j0 j1 y0 y1 ∧
      g.arr.at' [i0, j0] = some v00 ∧ g.arr.at' [i0, j1] = some v01 ∧ g.arr.at' [i1, j0] = some v10 ∧
      g.arr.at' [i1, j1] = some v11 ∧
      bivariateAx g x y be = .ok (some z) ∧
      (let t := (x - x0) / (x1 - x0)
       let u := (y - y0) / (y1 - y0)
       |z - ((1 - t) * (1 - u) * v00 + t * (1 - u) * v10 + (1 - t) * u * v01 + t * u * v11)| ≤ M * 2 ^ (-47 : ℤ)) := by
  obtain ⟨i0, i1, x0, x1, e, fx, nx⟩ := px.frame h.x
  obtain ⟨j0, j1, y0, y1, e', fy, -⟩ := py.frame h.y
  have gap : ∀ a, (a = g.x ∨ a = g.y) → ∀ c i j p q, Framed a c i j p q → 2 ^ (-1010 : ℤ) ≤ |q - p| := by
    intro a ha c i j p q f
    rcases f.next with rfl | rfl
    · exact hgap a ha _ _ _ f.coord.1 f.coord.2
    · rw [abs_sub_comm]; exact hgap a ha _ _ _ f.coord.2 f.coord.1
  have bi0 := fx.left
  have bi1 := fx.right
  have bj0 := fy.left
  have bj1 := fy.right
  obtain ⟨v00, h00, m00⟩ := hv i0.toNat j0.toNat (by omega) (by omega)
  obtain ⟨v01, h01, m01⟩ := hv i0.toNat j1.toNat (by omega) (by omega)
  obtain ⟨v10, h10, m10⟩ := hv i1.toNat j0.toNat (by omega) (by omega)
  obtain ⟨v11, h11, m11⟩ := hv i1.toNat j1.toNat (by omega) (by omega)
  have ti0 : ((i0.toNat : ℕ) : ℤ) = i0 := Int.toNat_of_nonneg bi0.1
  have ti1 : ((i1.toNat : ℕ) : ℤ) = i1 := Int.toNat_of_nonneg bi1.1
  have tj0 : ((j0.toNat : ℕ) : ℤ) = j0 := Int.toNat_of_nonneg bj0.1
  have tj1 : ((j1.toNat : ℕ) : ℤ) = j1 := Int.toNat_of_nonneg bj1.1
  refine ⟨i0.toNat, i1.toNat, j0.toNat, j1.toNat, x0, x1, y0, y1, v00, v01, v10, v11,
    bilinear (x, y) (x0, y0) (x1, y1) v00 v01 v10 v11, by rw [ti0, ti1]; exact fx, by rw [tj0, tj1]; exact fy,
    h00, h01, h10, h11, h.cell e e' fx fy nx h00 h01 h10 h11, ?_⟩
  exact C123_bilinear_error fx.holds fy.holds (gap _ (Or.inl rfl) _ _ _ _ _ fx) (gap _ (Or.inr rfl) _ _ _ _ _ fy)
    m00 m01 m10 m11 hM

/-- Two neighbours that hold a coordinate of the axis. -/
theorem Framed.node {a : Ax} (h : Built a) {c u v : ℚ} {i j k : ℤ} (f : Framed a c i j u v) (k0 : 0 ≤ k) (k1 : k < a.cont.size)
    (hk : a.cont.coord k = .ok c) : (i = k ∧ u = c) ∨ (j = k ∧ v = c) := by
  obtain ⟨⟨n, g, C⟩, -⟩ := built_coords h
  have bi := f.left
  have bj := f.right
  rw [C.size] at bi bj k1
  have ci := C.coord i bi.1 bi.2
  have cj := C.coord j bj.1 bj.2
  have ck := C.coord k k0 k1
  rw [f.coord.1] at ci
  rw [f.coord.2] at cj
  rw [hk] at ck
  cases ci; cases cj; cases ck
  have ho := f.holds
  by_contra hcon
  push Not at hcon
  have hik : i ≠ k := fun e => hcon.1 e (by rw [e])
  have hjk : j ≠ k := fun e => hcon.2 e (by rw [e])
  have mono : ∀ x y, 0 ≤ x → x < y → y < n → if a.cont.asc then g x < g y else g y < g x := by
    intro x y h0 h1 h2
    cases ha : a.cont.asc
    · simpa using C.down ha x y h0 h1 h2
    · simpa using C.up ha x y h0 h1 h2
  rcases f.next with rfl | rfl
  · rcases lt_or_gt_of_ne hik with h | h
    · have m1 := mono i (i + 1) bi.1 (by omega) bj.2
      have m2 := mono (i + 1) k bj.1 (by omega) k1
      split at m1 <;> rename_i hs <;> simp only [hs, if_true, if_false, Bool.false_eq_true] at m2 <;> rcases ho with ⟨o1, o2⟩ | ⟨o1, o2⟩ <;> linarith
    · have m1 := mono i (i + 1) bi.1 (by omega) bj.2
      have m2 := mono k i k0 (by omega) bi.2
      split at m1 <;> rename_i hs <;> simp only [hs, if_true, if_false, Bool.false_eq_true] at m2 <;> rcases ho with ⟨o1, o2⟩ | ⟨o1, o2⟩ <;> linarith
  · rcases lt_or_gt_of_ne hjk with h | h
    · have m1 := mono j (j + 1) bj.1 (by omega) bi.2
      have m2 := mono (j + 1) k bi.1 (by omega) k1
      split at m1 <;> rename_i hs <;> simp only [hs, if_true, if_false, Bool.false_eq_true] at m2 <;> rcases ho with ⟨o1, o2⟩ | ⟨o1, o2⟩ <;> linarith
    · have m1 := mono j (j + 1) bj.1 (by omega) bi.2
      have m2 := mono k j k0 (by omega) bj.2
      split at m1 <;> rename_i hs <;> simp only [hs, if_true, if_false, Bool.false_eq_true] at m2 <;> rcases ho with ⟨o1, o2⟩ | ⟨o1, o2⟩ <;> linarith

theorem Framed.doubles {a : Ax} (h : Built a) {c u v : ℚ} {i j : ℤ} (f : Framed a c i j u v) : IsDouble u ∧ IsDouble v := by
  obtain ⟨⟨n, g, C⟩, -⟩ := built_coords h
  have bi := f.left
  have bj := f.right
  rw [C.size] at bi bj
  have ci := C.coord i bi.1 bi.2
  have cj := C.coord j bj.1 bj.2
  rw [f.coord.1] at ci
  rw [f.coord.2] at cj
  cases ci; cases cj
  exact ⟨C.double i bi.1 bi.2, C.double j bj.1 bj.2⟩

/-- **C125**: the interpolation at a point of the grid is exactly the value of the array, if no value of the array is NaN. -/
theorem C125_grid_node {g : AxGrid} (h : OnAxes g)
    (hv : ∀ i j : ℕ, (i : ℤ) < g.x.cont.size → (j : ℤ) < g.y.cont.size → ∃ v, g.arr.at' [i, j] = some v) {i j : ℕ}
    (hi : (i : ℤ) < g.x.cont.size) (hj : (j : ℤ) < g.y.cont.size) {x y : ℚ} (cx : g.x.cont.coord i = .ok x)
    (cy : g.y.cont.coord j = .ok y) (px : Plain g.x x) (py : Plain g.y y) (be : Bool) :
    bivariateAx g x y be = .ok (g.arr.at' [i, j]) := by
  obtain ⟨i0, i1, x0, x1, e, fx, nx⟩ := px.frame h.x
  obtain ⟨j0, j1, y0, y1, e', fy, -⟩ := py.frame h.y
  have bi0 := fx.left
  have bi1 := fx.right
  have bj0 := fy.left
  have bj1 := fy.right
  obtain ⟨v00, h00⟩ := hv i0.toNat j0.toNat (by omega) (by omega)
  obtain ⟨v01, h01⟩ := hv i0.toNat j1.toNat (by omega) (by omega)
  obtain ⟨v10, h10⟩ := hv i1.toNat j0.toNat (by omega) (by omega)
  obtain ⟨v11, h11⟩ := hv i1.toNat j1.toNat (by omega) (by omega)
  obtain ⟨dx0, dx1⟩ := fx.doubles h.x
  obtain ⟨dy0, dy1⟩ := fy.doubles h.y
  obtain ⟨c00, c01, c10, c11⟩ := C123_bilinear_corners dx0 dx1 dy0 dy1 fx.ne fy.ne (h.values _ _ h00) (h.values _ _ h01)
    (h.values _ _ h10) (h.values _ _ h11)
  rw [h.cell e e' fx fy nx h00 h01 h10 h11]
  rcases fx.node h.x (by omega) hi cx with ⟨w, rfl⟩ | ⟨w, rfl⟩ <;> rcases fy.node h.y (by omega) hj cy with ⟨w', rfl⟩ | ⟨w', rfl⟩
  · rw [c00, ← h00, w, w']; rfl
  · rw [c01, ← h01, w, w']; rfl
  · rw [c10, ← h10, w, w']; rfl
  · rw [c11, ← h11, w, w']; rfl

/-- A grid on these two axes; the values are 1 at the longitude number `k`, 0 elsewhere. -/
def exAxGrid (a : Ax) (k : ℕ) : AxGrid :=
  { x := a, y := exIrregular, arr := { shape := [8, 3], at' := fun idx => some (if idx.headD 0 = k then 1 else 0) } }

theorem exAxGrid_ok {a : Ax} (h : Built a) (h8 : a.cont.size = 8) (k : ℕ) : OnAxes (exAxGrid a k) := by
  refine ⟨h, exIrregular_built, ?_, ?_⟩
  · show [8, 3] = [a.cont.size.toNat, 3]
    rw [h8]; rfl
  · intro idx v hv
    cases hv
    split
    · exact isDouble_one
    · exact isDouble_zero

theorem exAxGrid_values (a : Ax) (k : ℕ) (idx : List ℕ) :
    (exAxGrid a k).arr.at' idx = some 0 ∨ (exAxGrid a k).arr.at' idx = some 1 := by
  show some (if idx.headD 0 = k then (1 : ℚ) else 0) = some 0 ∨ some (if idx.headD 0 = k then (1 : ℚ) else 0) = some 1
  split <;> simp

/- `C125_grid_value` and `C125_grid_node` on it: the hypotheses, and values at a point of the grid and between. -/
example : Plain exCircle 10 ∧ Plain exIrregular 2 ∧
    bivariateAx (exAxGrid exCircle 1) 45 4 true = .ok (some 1) ∧
    bivariateAx (exAxGrid exCircle 1) (45 / 2) 2 true = .ok (some (1 / 2)) := by
  refine ⟨⟨isDouble_int (n := 10) (by norm_num), ⟨0, 315, by decide +kernel, by decide +kernel, by norm_num, fun _ _ => rfl⟩,
    fun _ => ⟨0, by decide +kernel, by decide +kernel⟩⟩, ⟨isDouble_int (n := 2) (by norm_num),
    ⟨-1, 4, by decide +kernel, by decide +kernel, by norm_num, fun h => by cases h⟩, fun h => by cases h⟩, ?_, ?_⟩ <;>
    decide +kernel

/-- C125, what is false: on a circle the interpolation is not always between the least and the greatest of the values. On the
longitudes 0, 45, ..., 315 the longitude -2^-60 is normalised to 360, which `find_index` normalises again to 0: the two
longitudes are then 0 and 45, and 360 is out of this cell. With the value 1 at 0 and 0 elsewhere, the result is -7. -/
theorem C125_seam_value_false :
    ∃ (g : AxGrid) (x y z : ℚ), OnAxes g ∧ Moderate g.x ∧ g.x.isCircle = true ∧
      (∀ idx, g.arr.at' idx = some 0 ∨ g.arr.at' idx = some 1) ∧ IsDouble x ∧
      bivariateAx g x y true = .ok (some z) ∧ z = -7 := by
  refine ⟨exAxGrid exCircle 0, -(1 / 2 ^ 60), 2, -7, exAxGrid_ok exCircle_built rfl 0, exCircle_moderate, rfl, ?_,
    ⟨-1, -60, by norm_num, by norm_num, by norm_num⟩, by decide +kernel, rfl⟩
  exact exAxGrid_values _ _

/-- The longitudes -180, -135, ..., 135. -/
def exCircle' : Ax := { isCircle := true, angle := true, cont := .regular ⟨8, -180, 45, div 1 45, true⟩ }

theorem exCircle'_built : Built exCircle' :=
  .range (start := -180) (stop := 135) (num := 8) (eps := 1 / 2 ^ 20) (circ := true)
    ⟨isDouble_int (n := -180) (by norm_num), isDouble_int (n := 135) (by norm_num), by norm_num, by norm_num, by norm_num,
      (zpow_le_one_of_nonpos₀ (by norm_num) (by norm_num)).trans (by norm_num),
      le_trans (show |(135 : ℚ) - -180| ≤ 2 ^ (9 : ℤ) by norm_num) (zpow_le_zpow_right₀ (by norm_num) (by norm_num))⟩
    (by decide +kernel)

theorem exCircle'_moderate : Moderate exCircle' := by
  refine moderate_regular rfl ?_ ?_
  · intro i h0 h1
    have : i < 8 := h1
    interval_cases i <;> decide +kernel
  · have : Reg.coord ⟨8, -180, 45, div 1 45, true⟩ 1 - Reg.coord ⟨8, -180, 45, div 1 45, true⟩ 0 = 45 := by decide +kernel
    rw [this]
    norm_num

/-- C125, what is false: the same away from the seam. On the longitudes -180, -135, ..., 135 the longitude 225 - 2^-45 is
normalised to -135 by the search, which gives the cell of -135 and -90; normalised with respect to -135 it remains 225 - 2^-45,
out of this cell. With the value 1 at -135 and 0 elsewhere the result is -7 up to a rounding error. -/
theorem C125_cell_value_false :
    ∃ (g : AxGrid) (x y z : ℚ), OnAxes g ∧ Moderate g.x ∧ g.x.isCircle = true ∧
      (∀ idx, g.arr.at' idx = some 0 ∨ g.arr.at' idx = some 1) ∧ IsDouble x ∧ g.x.findIndexes x = .ok (some (1, 2)) ∧
      bivariateAx g x y true = .ok (some z) ∧ z < -6 := by
  have hz : ∃ z, bivariateAx (exAxGrid exCircle' 1) (225 - 1 / 2 ^ 45) 2 true = .ok (some z) ∧ z < -6 := by
    cases h : bivariateAx (exAxGrid exCircle' 1) (225 - 1 / 2 ^ 45) 2 true with
    | error e =>
      have : (match bivariateAx (exAxGrid exCircle' 1) (225 - 1 / 2 ^ 45) 2 true with
        | .ok (some z) => decide (z < -6)
        | _ => false) = true := by decide +kernel
      rw [h] at this; cases this
    | ok o =>
      have : (match bivariateAx (exAxGrid exCircle' 1) (225 - 1 / 2 ^ 45) 2 true with
        | .ok (some z) => decide (z < -6)
        | _ => false) = true := by decide +kernel
      rw [h] at this
      cases o with
      | none => cases this
      | some z => exact ⟨z, rfl, by simpa using this⟩
  obtain ⟨z, e, hz⟩ := hz
  refine ⟨exAxGrid exCircle' 1, 225 - 1 / 2 ^ 45, 2, z, exAxGrid_ok exCircle'_built rfl 1, exCircle'_moderate, rfl, ?_,
    ⟨225 * 2 ^ 45 - 1, -45, by norm_num, by norm_num, by norm_num⟩, by decide +kernel, e, hz⟩
  exact exAxGrid_values _ _

end Pyinterp.Double
