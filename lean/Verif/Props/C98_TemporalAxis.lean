import Verif.Spec.TemporalAxis
import Verif.Props.C03_Nearest
import Verif.Props.C06_Indexes
import Verif.Props.C08_FlipPickle
import Verif.Props.C58_Values
import Verif.Lemmas.GridPy

/-
C98 – temporal axes: units of the dates.
-/
namespace Pyinterp.Temporal
open Pyinterp Dateutils Pyinterp.Spec Pyinterp.Spec.Temporal
open Pyinterp.GridPy (bind_inv)

theorem parse_name (d : DType) : parseDType d.name = .ok d := by
  obtain ⟨t, r⟩ := d
  cases t <;> cases r <;> decide +kernel

theorem parse_ok {s : String} {d : DType} (h : parseDType s = .ok d) : s = d.name := by
  unfold parseDType at h
  split at h
  · rename_i d' hd
    cases h
    have := List.find?_some hd
    exact (by simpa using this : d.name = s).symm
  · cases h

theorem dtypeOf_ok {a : NArray} {d : DType} : dtypeOf a = .ok d ↔ a.ndim = 1 ∧ a.contiguous = true ∧ a.dtype = d.name := by
  unfold dtypeOf
  by_cases h1 : a.ndim = 1
  · by_cases h2 : a.contiguous = true
    · rw [if_neg (by simpa using h1), if_neg (by simp [h2])]
      constructor
      · intro h; exact ⟨h1, h2, parse_ok h⟩
      · rintro ⟨-, -, h⟩; rw [h]; exact parse_name d
    · rw [if_neg (by simpa using h1), if_pos (by simpa using h2)]
      constructor
      · intro h; cases h
      · rintro ⟨-, h, -⟩; exact absurd h h2
  · rw [if_pos h1]
    constructor
    · intro h; cases h
    · rintro ⟨h, -⟩; exact absurd h h1

/-- **C98**: `TemporalAxis(points)` accepts the one-dimensional contiguous arrays of dates or of time differences that
make an axis (C02); `axis.dtype()` is the type of the array, and `axis[i]` is `points[i]`, in this type. -/
theorem C98_values (points : NArray) (t : TAxis) (h : TAxis.make points = .ok t) :
    (points.ndim = 1 ∧ points.contiguous = true ∧ points.dtype = t.dtype.name) ∧
    t.axis.size = points.values.length ∧
    ∀ i (hi : i < points.values.length), t.item (i : Int) = .ok (points.values[i], t.dtype) := by
  unfold TAxis.make at h
  obtain ⟨d, hd, h⟩ := bind_inv h
  obtain ⟨a, ha, h⟩ := bind_inv h
  cases h
  have hc : Coordinates a points.values := by
    have hinv : AxisInv AuxW a :=
      mkAxis_inv (fun _ _ _ _ k h1 h2 hk => mkRegular_int (le_refl _) h1 h2 hk) ha
    have hcl := hinv.1.stores.coordinates
    have hs : SameAngles false points.values _ := C58_values_int _ _ _ _ ha hcl
    have e : points.values = contList a.cont := by
      simp [SameAngles] at hs
      exact hs.1.symm
    rw [e]; exact hcl
  refine ⟨dtypeOf_ok.mp hd, hc.1, ?_⟩
  intro i hi
  unfold TAxis.item
  rw [show ({ axis := a, dtype := d } : TAxis).axis = a from rfl, hc.2 i hi]
  rfl

example : ∃ t, TAxis.make ⟨"datetime64[D]", 1, true, [0, 1, 2, 3]⟩ = .ok t ∧
    t.dtype = ⟨.datetime64, .day⟩ ∧ t.item 2 = .ok (2, ⟨.datetime64, .day⟩) :=
  ⟨_, rfl, by decide +kernel, by decide +kernel⟩

/-- **C98**: what is refused: the other arrays, the arrays of another number of dimensions, the arrays that are not
contiguous, and, for the searches, dates on an axis of time differences or time differences on an axis of dates. -/
theorem C98_refused (astype : DType → DType → Int → Int) (strict : Bool) (q : NArray) (t : TAxis) (bounded : Bool)
    (h : ∀ d : DType, d.datetype = t.dtype.datetype → ¬ (q.ndim = 1 ∧ q.contiguous = true ∧ q.dtype = d.name)) :
    t.findIndex astype strict q bounded = .error .exn ∧ t.findIndexes astype strict q = .error .exn := by
  have key : t.safeCast astype strict q = .error .exn := by
    unfold TAxis.safeCast
    cases hd : dtypeOf q with
    | error e =>
      have : e = .exn := by
        unfold dtypeOf parseDType at hd
        split at hd
        · cases hd; rfl
        · split at hd
          · cases hd; rfl
          · split at hd
            · cases hd
            · cases hd; rfl
      rw [this]; rfl
    | ok d =>
      have hne : d.datetype ≠ t.dtype.datetype := fun e => h d e (dtypeOf_ok.mp hd)
      simp [bind, Except.bind, hne, throw, throwThe, MonadExceptOf.throw]
  constructor
  · unfold TAxis.findIndex; rw [key]; rfl
  · unfold TAxis.findIndexes; rw [key]; rfl

example : ∀ d : DType, d.datetype = DateType.datetime64 →
    ¬ ((1 : Nat) = 1 ∧ true = true ∧ "timedelta64[D]" = d.name) := by
  rintro ⟨t, r⟩ h
  simp only at h
  subst h
  cases r <;> decide +kernel

theorem make_refused (points : NArray)
    (h : ∀ d : DType, ¬ (points.ndim = 1 ∧ points.contiguous = true ∧ points.dtype = d.name)) :
    ∀ t, TAxis.make points ≠ .ok t := by
  intro t ht
  exact h t.dtype (C98_values points t ht).1

/-! ## Units -/

theorem duration_pos {r : Resolution} {u : Int} (h : duration r = some u) : 0 < u := by
  cases r <;> simp [duration] at h <;> omega

/-- A unit with a larger number in the enumeration is a shorter unit. -/
theorem duration_rank {a b : Resolution} {u w : Int} (ha : duration a = some u) (hb : duration b = some w) :
    b.rank < a.rank ↔ u < w := by
  cases a <;> cases b <;> simp [duration] at ha hb <;> subst ha <;> subst hb <;> decide +kernel

theorem duration_dvd {a b : Resolution} {u w : Int} (ha : duration a = some u) (hb : duration b = some w)
    (h : w ≤ u) : w ∣ u := by
  cases a <;> cases b <;> simp [duration] at ha hb <;> subst ha <;> subst hb <;>
    first
    | decide +kernel
    | exact absurd h (by decide +kernel)

theorem each_ok {α : Type} {f : Int → Out α} {P : Int → α → Prop} (h : ∀ v, ∃ r, f v = .ok r ∧ P v r) :
    ∀ l : List Int, ∃ rs, each f l = .ok rs ∧ List.Forall₂ P l rs
  | [] => ⟨[], rfl, .nil⟩
  | v :: l => by
    obtain ⟨r, hr, hp⟩ := h v
    obtain ⟨rs, hrs, hps⟩ := each_ok h l
    refine ⟨r :: rs, ?_, .cons hp hps⟩
    show (do let r ← f v; let rest ← each f l; pure (r :: rest)) = _
    rw [hr, hrs]; rfl

theorem each_ok' {α : Type} {f : Int → Out α} {P : Int → α → Prop} {c : Int → Int}
    (h : ∀ v, ∃ r, f (c v) = .ok r ∧ P v r) :
    ∀ l : List Int, ∃ rs, each f (l.map c) = .ok rs ∧ List.Forall₂ P l rs
  | [] => ⟨[], rfl, .nil⟩
  | v :: l => by
    obtain ⟨r, hr, hp⟩ := h v
    obtain ⟨rs, hrs, hps⟩ := each_ok' h l
    refine ⟨r :: rs, ?_, .cons hp hps⟩
    show (do let r ← f (c v); let rest ← each f (l.map c); pure (r :: rest)) = _
    rw [hr, hrs]; rfl

theorem nearest_scale {l : List Int} {c i w : Int} (_ : 0 < w) (h : Nearest l c i) :
    Nearest (l.map (· * w)) (c * w) i := by
  obtain ⟨v, h0, hv, hmin⟩ := h
  refine ⟨v * w, h0, by simp [hv], ?_⟩
  intro x hx
  obtain ⟨y, hy, rfl⟩ := List.mem_map.mp hx
  rw [← sub_mul, ← sub_mul, abs_mul, abs_mul]
  exact mul_le_mul_of_nonneg_right (hmin y hy) (abs_nonneg w)

theorem outside_scale {l : List Int} {c w : Int} (hw : 0 < w) (h : Outside l c) :
    Outside (l.map (· * w)) (c * w) := by
  rcases h with h | h
  · left
    intro x hx
    obtain ⟨y, hy, rfl⟩ := List.mem_map.mp hx
    exact mul_lt_mul_of_pos_right (h y hy) hw
  · right
    intro x hx
    obtain ⟨y, hy, rfl⟩ := List.mem_map.mp hx
    exact mul_lt_mul_of_pos_right (h y hy) hw

theorem frames_scale {l : List Int} {c w : Int} {i j : Int} (hw : 0 < w) (h : Frames l false c i j) :
    Frames (l.map (· * w)) false (c * w) i j := by
  obtain ⟨hi, hj, hil, hjl, h | h⟩ := h
  · refine ⟨hi, hj, by simpa using hil, by simpa using hjl, Or.inl ⟨h.1, ?_⟩⟩
    simp only [List.getElem_map]
    rcases h.2 with ⟨a, b⟩ | ⟨a, b⟩
    · exact Or.inl ⟨mul_le_mul_of_nonneg_right a hw.le, mul_le_mul_of_nonneg_right b hw.le⟩
    · exact Or.inr ⟨mul_le_mul_of_nonneg_right a hw.le, mul_le_mul_of_nonneg_right b hw.le⟩
  · cases h.1

theorem time_circle {v : List Int} {a : Axis Int} (h : mkAxis true v 0 false = .ok a) :
    a.circle = none ∧ a.isCircle = false := by
  have key : ∀ k, computeProperties true none k (0 : Int) = .ok a → a.circle = none ∧ a.isCircle = false := by
    intro k hk
    obtain ⟨_, e2, e3, _⟩ := computeProperties_ok hk
    refine ⟨e2, ?_⟩
    cases hc : a.isCircle
    · rfl
    · obtain ⟨t, ht⟩ := e3 hc; cases ht
  unfold mkAxis at h
  simp only [Bool.false_eq_true, if_false] at h
  unfold initializeFromValues at h
  split at h
  · obtain ⟨k, -, h⟩ := bind_inv h
    exact key k h
  · obtain ⟨k, -, h⟩ := bind_inv h
    exact key k h

theorem make_axis {points : NArray} {t : TAxis} (h : TAxis.make points = .ok t) :
    mkAxis true points.values 0 false = .ok t.axis ∧ Coordinates t.axis points.values ∧
      t.axis.isAngle = false ∧ t.axis.isCircle = false := by
  have hv := C98_values points t h
  unfold TAxis.make at h
  obtain ⟨d, hd, h⟩ := bind_inv h
  obtain ⟨a, ha, h⟩ := bind_inv h
  cases h
  refine ⟨ha, ⟨hv.2.1, ?_⟩, ?_⟩
  · intro i hi
    have := hv.2.2 i hi
    unfold TAxis.item at this
    obtain ⟨v, e, e'⟩ := bind_inv this
    cases e'
    exact e
  · have hc := time_circle ha
    exact ⟨by simp [Axis.isAngle, hc.1], hc.2⟩

/-- The conversion of the queried dates: warned or not, and the dates of the axis' unit in which they are searched. -/
theorem safeCast_ok {astype : DType → DType → Int → Int} (hcast : FloorCast astype) {strict : Bool} {t : TAxis}
    {q : NArray} {d : DType} {u w : Int} (hq : q.ndim = 1 ∧ q.contiguous = true ∧ q.dtype = d.name)
    (hs : d.datetype = t.dtype.datetype) (hu : duration d.resolution = some u)
    (hw : duration t.dtype.resolution = some w) (hn : strict = true → w ≤ u) :
    ∃ c : Int → Int, (∀ v, c v * w ≤ v * u ∧ v * u < (c v + 1) * w) ∧
      t.safeCast astype strict q = .ok (decide (u < w), q.values.map c) := by
  have hlt : t.dtype.lt d = decide (u < w) := by
    unfold DType.lt
    exact decide_eq_decide.mpr (duration_rank hu hw)
  have hnot : ¬ ((t.dtype.lt d && strict) = true) := by
    rw [hlt]
    simp only [Bool.and_eq_true, decide_eq_true_eq]
    rintro ⟨h1, h2⟩
    exact absurd (hn h2) (by omega)
  have hwp := duration_pos hw
  by_cases he : t.dtype = d
  · refine ⟨id, ?_, ?_⟩
    · intro v
      rw [← he] at hu
      have : u = w := by rw [hu] at hw; exact Option.some.inj hw
      subst this
      simp only [id]
      refine ⟨le_refl _, ?_⟩
      nlinarith
    · unfold TAxis.safeCast
      rw [dtypeOf_ok.mpr hq]
      subst he
      simp only [bind, Except.bind, ne_eq, not_true_eq_false, if_false, hnot, if_true, List.map_id]
      rw [← hlt]
      rfl
  · refine ⟨astype d t.dtype, fun v => hcast d t.dtype u w v hs hu hw, ?_⟩
    unfold TAxis.safeCast
    rw [dtypeOf_ok.mpr hq]
    simp only [bind, Except.bind, hs, ne_eq, not_true_eq_false, if_false, hnot, he]
    rw [← hlt]
    rfl

theorem coarse_exact {r s : Resolution} {u w v c : Int} (hu : duration r = some u) (hw : duration s = some w)
    (hle : w ≤ u) (h1 : c * w ≤ v * u) (h2 : v * u < (c + 1) * w) : c * w = v * u := by
  obtain ⟨k, rfl⟩ := duration_dvd hu hw hle
  have hwp := duration_pos hw
  have e : v * (w * k) = (v * k) * w := by ring
  rw [e] at h1 h2 ⊢
  have a := le_of_mul_le_mul_right h1 hwp
  have b := lt_of_mul_lt_mul_right h2 hwp.le
  have : c = v * k := by omega
  rw [this]

/-- **C98**: the searches of dates of any unit of fixed duration (from the week to the attosecond), on an axis of another
such unit, ascending if it is regular. The search is that of the last date of the axis' unit that is not after the date
searched; a warning is issued if and only if the unit of the dates is shorter than the unit of the axis. -/
theorem C98_truncated (astype : DType → DType → Int → Int) (hcast : FloorCast astype) (points q : NArray) (t : TAxis)
    (h : TAxis.make points = .ok t) (d : DType) (hq : q.ndim = 1 ∧ q.contiguous = true ∧ q.dtype = d.name)
    (hs : d.datetype = t.dtype.datetype) (u w : Int) (hu : duration d.resolution = some u)
    (hw : duration t.dtype.resolution = some w)
    (hasc : t.axis.isRegular = true → t.axis.cont.isAscending = true) (bounded : Bool) :
    ∃ rs, t.findIndex astype false q bounded = .ok (decide (u < w), rs) ∧
      List.Forall₂ (fun v i => ∃ c : Int, c * w ≤ v * u ∧ v * u < (c + 1) * w ∧
        ((i = -1 ∧ bounded = false ∧ Outside (points.values.map (· * w)) (c * w)) ∨
          Nearest (points.values.map (· * w)) (c * w) i)) q.values rs := by
  obtain ⟨ha, hc, hang, -⟩ := make_axis h
  obtain ⟨c, hc1, hc2⟩ := safeCast_ok (strict := false) hcast hq hs hu hw (by simp)
  have hwp := duration_pos hw
  have hr : ReachI t.axis := .values points.values 0 false t.axis (le_refl _) ha hasc
  obtain ⟨rs, h1, h2⟩ := each_ok' (c := c) (f := fun v => t.axis.findNearestIndex v bounded)
    (P := fun v i => ∃ c : Int, c * w ≤ v * u ∧ v * u < (c + 1) * w ∧
        ((i = -1 ∧ bounded = false ∧ Outside (points.values.map (· * w)) (c * w)) ∨
          Nearest (points.values.map (· * w)) (c * w) i)) (by
      intro v
      obtain ⟨i, e, hi⟩ := C05_find_index_int_partial t.axis points.values hr hc hang (c v) bounded
      refine ⟨i, e, c v, (hc1 v).1, (hc1 v).2, ?_⟩
      rcases hi with ⟨x, y, z⟩ | hi
      · exact Or.inl ⟨x, y, outside_scale hwp z⟩
      · exact Or.inr (nearest_scale hwp hi)) q.values
  refine ⟨rs, ?_, h2⟩
  unfold TAxis.findIndex
  rw [hc2]
  simp only [bind, Except.bind, h1]
  rfl

/-- **C98**: with the warnings made exceptions, dates of a shorter unit are refused. -/
theorem C98_strict (astype : DType → DType → Int → Int) (q : NArray) (t : TAxis) (d : DType)
    (hq : q.ndim = 1 ∧ q.contiguous = true ∧ q.dtype = d.name)
    (u w : Int) (hu : duration d.resolution = some u) (hw : duration t.dtype.resolution = some w) (hlt : u < w)
    (bounded : Bool) :
    t.findIndex astype true q bounded = .error .exn ∧ t.findIndexes astype true q = .error .exn := by
  have key : t.safeCast astype true q = .error .exn := by
    unfold TAxis.safeCast
    rw [dtypeOf_ok.mpr hq]
    have : t.dtype.lt d = true := by
      unfold DType.lt
      exact decide_eq_true ((duration_rank hu hw).mpr hlt)
    by_cases hs : d.datetype = t.dtype.datetype
    · simp [bind, Except.bind, hs, this, throw, throwThe, MonadExceptOf.throw]
    · simp [bind, Except.bind, hs, throw, throwThe, MonadExceptOf.throw]
  constructor
  · unfold TAxis.findIndex; rw [key]; rfl
  · unfold TAxis.findIndexes; rw [key]; rfl

example : duration Resolution.hour = some (3600 * 10 ^ 18) ∧ duration Resolution.day = some (86400 * 10 ^ 18) ∧
    (3600 * 10 ^ 18 : Int) < 86400 * 10 ^ 18 := ⟨rfl, rfl, by norm_num⟩

/-- **C98**, find_index: when the unit of the dates is at least as long as the unit of the axis, no warning is issued,
and the index is that of a nearest date of the axis *in time*, whatever the two units are, or -1 for the dates before
the first or after the last date of the axis. The missing part (dates of a shorter unit) is false: `C98_truncation_false`;
for the axes that are regular and descending see `C05_descending_wrong`. -/
theorem C98_find_index_partial (astype : DType → DType → Int → Int) (hcast : FloorCast astype) (points q : NArray)
    (t : TAxis) (h : TAxis.make points = .ok t) (d : DType)
    (hq : q.ndim = 1 ∧ q.contiguous = true ∧ q.dtype = d.name)
    (hs : d.datetype = t.dtype.datetype) (u w : Int) (hu : duration d.resolution = some u)
    (hw : duration t.dtype.resolution = some w) (hle : w ≤ u)
    (hasc : t.axis.isRegular = true → t.axis.cont.isAscending = true) (bounded strict : Bool) :
    ∃ rs, t.findIndex astype strict q bounded = .ok (false, rs) ∧
      List.Forall₂ (fun v i =>
        (i = -1 ∧ bounded = false ∧ Outside (points.values.map (· * w)) (v * u)) ∨
          Nearest (points.values.map (· * w)) (v * u) i) q.values rs := by
  obtain ⟨ha, hc, hang, -⟩ := make_axis h
  obtain ⟨c, hc1, hc2⟩ := safeCast_ok (strict := strict) hcast hq hs hu hw (fun _ => hle)
  have hwp := duration_pos hw
  have hr : ReachI t.axis := .values points.values 0 false t.axis (le_refl _) ha hasc
  obtain ⟨rs, h1, h2⟩ := each_ok' (c := c) (f := fun v => t.axis.findNearestIndex v bounded)
    (P := fun v i =>
        (i = -1 ∧ bounded = false ∧ Outside (points.values.map (· * w)) (v * u)) ∨
          Nearest (points.values.map (· * w)) (v * u) i) (by
      intro v
      obtain ⟨i, e, hi⟩ := C05_find_index_int_partial t.axis points.values hr hc hang (c v) bounded
      refine ⟨i, e, ?_⟩
      rw [← coarse_exact hu hw hle (hc1 v).1 (hc1 v).2]
      rcases hi with ⟨x, y, z⟩ | hi
      · exact Or.inl ⟨x, y, outside_scale hwp z⟩
      · exact Or.inr (nearest_scale hwp hi)) q.values
  refine ⟨rs, ?_, h2⟩
  unfold TAxis.findIndex
  rw [hc2]
  simp only [bind, Except.bind, h1, show decide (u < w) = false from decide_eq_false (by omega)]
  rfl

/-- **C98**, find_indexes: same conditions; the two dates frame, in time, the date searched; (-1, -1) outside. -/
theorem C98_find_indexes_partial (astype : DType → DType → Int → Int) (hcast : FloorCast astype) (points q : NArray)
    (t : TAxis) (h : TAxis.make points = .ok t) (h2 : 2 ≤ points.values.length) (d : DType)
    (hq : q.ndim = 1 ∧ q.contiguous = true ∧ q.dtype = d.name)
    (hs : d.datetype = t.dtype.datetype) (u w : Int) (hu : duration d.resolution = some u)
    (hw : duration t.dtype.resolution = some w) (hle : w ≤ u)
    (hasc : t.axis.isRegular = true → t.axis.cont.isAscending = true) (strict : Bool) :
    ∃ rs, t.findIndexes astype strict q = .ok (false, rs) ∧
      List.Forall₂ (fun v p =>
        (p = (-1, -1) ∧ Outside (points.values.map (· * w)) (v * u)) ∨
          (Frames (points.values.map (· * w)) false (v * u) p.1 p.2)) q.values rs := by
  obtain ⟨ha, hc, hang, hcirc⟩ := make_axis h
  obtain ⟨c, hc1, hc2⟩ := safeCast_ok (strict := strict) hcast hq hs hu hw (fun _ => hle)
  have hwp := duration_pos hw
  have hr : ReachI t.axis := .values points.values 0 false t.axis (le_refl _) ha hasc
  obtain ⟨rs, h1, h3⟩ := each_ok' (c := c) (f := fun v => do
    let o ← t.axis.findIndexes v
    pure (pairOf o))
    (P := fun v p =>
        (p = (-1, -1) ∧ Outside (points.values.map (· * w)) (v * u)) ∨
          (Frames (points.values.map (· * w)) false (v * u) p.1 p.2)) (by
      intro v
      obtain ⟨x, hx, hi⟩ := C06_find_indexes_int_partial t.axis points.values hr hc h2 (c v)
      have hx' := hx.1 hang
      subst hx'
      rw [← coarse_exact hu hw hle (hc1 v).1 (hc1 v).2]
      rcases hi with ⟨i, j, e, hf, -⟩ | ⟨e, -, ho⟩
      · refine ⟨(i, j), by rw [e]; rfl, Or.inr ?_⟩
        rw [hcirc] at hf
        exact frames_scale hwp hf
      · exact ⟨(-1, -1), by rw [e]; rfl, Or.inl ⟨rfl, outside_scale hwp ho⟩⟩) q.values
  refine ⟨rs, ?_, h3⟩
  unfold TAxis.findIndexes
  rw [hc2]
  simp only [bind, Except.bind] at h1 ⊢
  simp only [h1, show decide (u < w) = false from decide_eq_false (by omega)]
  rfl

/-- The hypotheses of the two searches hold for days searched on an axis of hours. -/
example : ∃ t, TAxis.make ⟨"datetime64[h]", 1, true, [0, 10, 30, 31]⟩ = .ok t ∧ t.dtype = ⟨.datetime64, .hour⟩ ∧
    (t.axis.isRegular = true → t.axis.cont.isAscending = true) ∧
    duration t.dtype.resolution = some (3600 * 10 ^ 18) ∧
    t.findIndex (fun _ _ v => 24 * v) true ⟨"datetime64[D]", 1, true, [1, 0, 2]⟩ false = .ok (false, [2, 0, -1]) :=
  ⟨_, rfl, by decide +kernel, by decide +kernel, rfl, by decide +kernel⟩

/-- A conversion that satisfies the hypothesis made about numpy. -/
def floorCast (a b : DType) (v : Int) : Int :=
  match duration a.resolution, duration b.resolution with
  | some u, some w => v * u / w
  | _, _ => v

example : FloorCast floorCast := by
  intro a b u w v _ hu hw
  have hwp := duration_pos hw
  simp only [floorCast, hu, hw]
  refine ⟨Int.ediv_mul_le _ (by omega), ?_⟩
  exact Int.lt_ediv_add_one_mul_self _ hwp

/-- **C98** fails for dates of a shorter unit: on the axis of the days 0, 1 and 2, the date 71 h is after the last date,
and is found (it is truncated to the day 2) with a warning. -/
theorem C98_truncation_false :
    ∃ t, TAxis.make ⟨"datetime64[D]", 1, true, [0, 1, 2]⟩ = .ok t ∧
      t.findIndex floorCast false ⟨"datetime64[h]", 1, true, [71]⟩ false = .ok (true, [2]) ∧
      Outside ([0, 1, 2].map (· * 24)) (71 : Int) ∧
      t.findIndexes floorCast false ⟨"datetime64[h]", 1, true, [71]⟩ = .ok (true, [(1, 2)]) ∧
      ¬ Frames ([0, 1, 2].map (· * 24)) false (71 : Int) 1 2 := by
  refine ⟨_, rfl, by decide +kernel, Or.inr (by decide), by decide +kernel, ?_⟩
  rintro ⟨_, _, _, _, h | h⟩
  · simp [Between] at h
  · cases h.1

/-! ## Pickling, copies, equality -/

theorem pickle_ok {points : NArray} {t : TAxis} (h : TAxis.make points = .ok t) (h2 : 2 ≤ points.values.length) :
    ∃ s, t.getstate = .ok s ∧ TAxis.setstate s = .ok t := by
  obtain ⟨ha, hc, -, -⟩ := make_axis h
  have hp := GridPy.time_pickle ha (by rw [hc.1]; exact_mod_cast h2)
  unfold GridPy.axisPickle at hp
  obtain ⟨s, hs, hb⟩ := bind_inv hp
  refine ⟨(s, t.dtype.name), ?_, ?_⟩
  · unfold TAxis.getstate
    rw [hs]; rfl
  · unfold TAxis.setstate
    simp only [hb, parse_name]
    rfl

/-- **C98**: an axis of two dates or more is given back, with its unit, by pickling; `flip()` on the axis or on a copy
gives the same axis. -/
theorem C98_pickle (points : NArray) (t : TAxis) (h : TAxis.make points = .ok t) (h2 : 2 ≤ points.values.length) :
    (∃ s, t.getstate = .ok s ∧ TAxis.setstate s = .ok t) ∧
    t.flip false = t.flip true ∧
    ∃ f, t.flip false = .ok f ∧ f.dtype = t.dtype ∧ Coordinates f.axis points.values.reverse := by
  obtain ⟨s, h3, h4⟩ := pickle_ok h h2
  have e : t.flip false = .ok { t with axis := t.axis.flip } := by
    unfold TAxis.flip
    simp only [Bool.false_eq_true, if_false, h3, h4, bind, Except.bind]
    rfl
  refine ⟨⟨s, h3, h4⟩, ?_, _, e, rfl, ?_⟩
  · rw [e]; rfl
  · obtain ⟨ha, hc, -, -⟩ := make_axis h
    have inv : AxisInv AuxW t.axis := mkAxis_inv (fun _ _ _ _ k h1 h2 hk => mkRegular_int (le_refl 0) h1 h2 hk) ha
    have e : contList t.axis.flip.cont = points.values.reverse := by
      rw [coordinates_unique hc inv.1.stores.coordinates]
      exact contList_flip inv.1
    have hf := (ContInv.flip (P := fun _ => True) (GridPy.ContInv.mono (fun _ _ => trivial) inv.1)
      (fun _ _ _ => trivial)).stores.coordinates (a := t.axis.flip)
    rw [← e]
    exact hf

/-- **C98** is false for the equality: the axis of the days 0, 1, 2 is equal to the axis of the seconds 0, 1, 2. -/
theorem C98_eq_false : ∃ t u, TAxis.make ⟨"datetime64[D]", 1, true, [0, 1, 2]⟩ = .ok t ∧
    TAxis.make ⟨"datetime64[s]", 1, true, [0, 1, 2]⟩ = .ok u ∧ t.beq u = true ∧ t.item 1 ≠ u.item 1 :=
  ⟨_, _, rfl, rfl, by decide +kernel, by decide +kernel⟩

/-- **C98** is false for the pickling of a grid: the state of the temporal axis of a grid does not contain its unit; the
grids on the days 0, 1, 2 and on the seconds 0, 1, 2 have the same state. -/
theorem C98_grid_pickle_false : ∃ t u, TAxis.make ⟨"datetime64[D]", 1, true, [0, 1, 2]⟩ = .ok t ∧
    TAxis.make ⟨"datetime64[s]", 1, true, [0, 1, 2]⟩ = .ok u ∧ t.gridState = u.gridState ∧ t ≠ u :=
  ⟨_, _, rfl, rfl, rfl, by decide +kernel⟩

end Pyinterp.Temporal
