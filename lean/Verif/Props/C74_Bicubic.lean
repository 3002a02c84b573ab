import Verif.Lemmas.History2D
import Verif.Lemmas.SplineUnique
import Verif.Lemmas.Cell
import Verif.Spec.Spline2D
import Verif.Spec.Cell
import Mathlib.Tactic.FieldSimp

/-
C74: the interpolation of a window by `bilinear`, `bicubic` and the splines.
-/
namespace Pyinterp.Interp
open Spec Polynomial
set_option linter.unusedSectionVars false
set_option linter.unusedVariables false
set_option linter.unusedSimpArgs false

section
variable {K : Type} [Field K] [LinearOrder K] [IsStrictOrderedRing K]

/-! ### the value of a spline -/

theorem pieces_agree {xs ys : List K} (hs : xs.Pairwise (· < ·)) (hl : xs.length = ys.length)
    {P : Nat → K[X]} (hP : CubicPieces xs ys P) {i j : Nat} (hi : i + 1 < xs.length)
    (hj : j + 1 < xs.length) {x : K} (h0 : xs[i] ≤ x) (h1 : x ≤ xs[i + 1]) (g0 : xs[j] ≤ x)
    (g1 : x ≤ xs[j + 1]) : (P i).eval x = (P j).eval x := by
  have key : ∀ i j (hi : i + 1 < xs.length) (hj : j + 1 < xs.length), x ≤ xs[i + 1] → xs[j] ≤ x →
      i < j → (P i).eval x = (P j).eval x := by
    intro i j hi hj h1 g0 hij
    have e1 := pairwise_le hs hi (by omega : j < xs.length) hij
    have e2 : x = xs[j] := le_antisymm (h1.trans e1) g0
    have e3 : xs[i + 1] = xs[j] := le_antisymm e1 (by rw [← e2]; exact h1)
    have : j = i + 1 := by
      by_contra hne
      have := pairwise_lt hs hi (by omega : j < xs.length) (by omega)
      exact absurd e3 this.ne
    subst this
    rw [e2, hP.right i hi (by omega), hP.left (i + 1) hj (by omega)]
  rcases lt_trichotomy i j with h | h | h
  · exact key i j hi hj h1 g0 h
  · rw [h]
  · exact (key j i hj hi g1 h0 h).symm

/-- **C43/C74** The value of the natural spline is determined by the data. -/
theorem C74_spline_unique {xs vs : List K} (hs : xs.Pairwise (· < ·)) (hl : xs.length = vs.length)
    {x v w : K} (hv : SplineAt xs vs x v) (hw : SplineAt xs vs x w) : v = w := by
  obtain ⟨P, i, hi, hP, a, b, rfl⟩ := hv
  obtain ⟨Q, j, hj, hQ, c, d, rfl⟩ := hw
  rw [pieces_agree hs hl hP.toCubicPieces hi hj a b c d, natural_unique hs hl hP hQ j hj]

/-- **C65/C74** The value of the periodic spline is determined by the data. -/
theorem C74_periodic_unique {xs vs : List K} (hs : xs.Pairwise (· < ·)) (hl : xs.length = vs.length)
    {x v w : K} (hv : PeriodicAt xs vs x v) (hw : PeriodicAt xs vs x w) : v = w := by
  obtain ⟨P, i, hi, hP, a, b, rfl⟩ := hv
  obtain ⟨Q, j, hj, hQ, c, d, rfl⟩ := hw
  rw [pieces_agree hs hl hP.toCubicPieces hi hj a b c d, periodic_unique hs (by omega) hl hP hQ j hj]

theorem within_search {xs : List K} (hs : xs.Pairwise (· < ·)) (h2 : 2 ≤ xs.length) {x : K}
    (h : Within xs x) : ∃ i, ∃ h : i + 1 < xs.length, search xs x = some (i, i + 1) ∧ xs[i] ≤ x ∧
      x ≤ xs[i + 1] := by
  rcases search_spec hs h2 x with ⟨i, hi, e, a, b, -⟩ | ⟨-, h' | h'⟩
  · exact ⟨i, hi, e, a, b⟩
  · obtain ⟨-, v, hv, hx⟩ := h
    exact absurd (h' v hv) (not_lt.2 hx)
  · obtain ⟨⟨v, hv, hx⟩, -⟩ := h
    exact absurd (h' v hv) (not_lt.2 hx)

theorem splineVal_at {xs vs : List K} (hs : xs.Pairwise (· < ·)) (hl : xs.length = vs.length)
    (h4 : 4 ≤ xs.length) {i : Nat} (hi : i + 1 < xs.length) {x : K} (h0 : xs[i] ≤ x)
    (h1 : x ≤ xs[i + 1]) : SplineAt xs vs x (splineVal xs vs i x) :=
  ⟨_, i, hi, csplineC_natural xs vs hs hl h4, h0, h1, rfl⟩

/-- **C43** `CSpline` returns the value of the natural cubic spline, whatever the previous calls. -/
theorem C43_value (xa ya : List K) (hs : xa.Pairwise (· < ·)) (hl : xa.length = ya.length)
    (h4 : 4 ≤ xa.length) (b : Buf K) (hb : CSplineReach b) (x v : K) (hv : SplineAt xa ya x v) :
    (cspline b xa ya x).map (·.1) = .ok (some v) := by
  obtain ⟨P, hP, hall⟩ := C43_natural xa ya hs hl h4
  have hv' := hv
  obtain ⟨Q, i, hi, hQ, a, c, -⟩ := hv'
  obtain ⟨b', e, -⟩ := hall b hb i hi x a c
  rw [e, C74_spline_unique hs hl hv ⟨P, i, hi, hP, a, c, rfl⟩]
  rfl

/-- **C65** `CSplinePeriodic` returns the value of the periodic cubic spline, when the object has
not seen a longer series before. -/
theorem C65_value (xa ya : List K) (hs : xa.Pairwise (· < ·)) (hl : xa.length = ya.length)
    (h4 : 4 ≤ xa.length) (st : PeriodicState K) (hst : PeriodicReach st)
    (hle : st.x.size ≤ xa.length) (junk : Nat → K) (x v : K) (hv : PeriodicAt xa ya x v) :
    (csplinePeriodic junk st xa ya x).map (·.1) = .ok (some v) := by
  obtain ⟨P, hP, hall⟩ := C65_periodic xa ya hs hl h4 st hst hle junk
  have hv' := hv
  obtain ⟨Q, i, hi, hQ, a, c, -⟩ := hv'
  obtain ⟨b', e, -⟩ := hall i hi x a c
  rw [e, C74_periodic_unique hs hl hv ⟨P, i, hi, hP, a, c, rfl⟩]
  rfl

/-! ### splines in two dimensions -/

/-- The states of a 2D interpolator of the class `k` that was used on windows of `nx` by `ny`
points. -/
inductive Reach2D (same : Nat → Nat → Bool) (k : Kind2D) (nx ny : Nat) : Obj2D K → Prop
  | new (junk : Nat → K) : Reach2D same k nx ny (Obj2D.new junk k)
  | call {o o' : Obj2D K} (junk : Nat → K) (xa ya : List K) (za : Mat K) (x y : K) (r : Option K) :
      Reach2D same k nx ny o → xa.length = nx → ya.length = ny →
      o.call same junk xa ya za x y = .ok (r, o') → Reach2D same k nx ny o'

theorem Reach2D.used {same : Nat → Nat → Bool} {k : Kind2D} {nx ny : Nat} {o : Obj2D K}
    (h : Reach2D same k nx ny o) : o.Used same nx ny k := by
  induction h with
  | new junk => exact Obj2D.new_used _ _ _ _ _
  | call junk xa ya za x y r _ hx hy e ih =>
    subst hx hy
    exact Obj2D.call_used ih e

theorem ok_map_fst {α β : Type} {m : Out (α × β)} {a : α} (h : m.map (·.1) = .ok a) :
    ∃ b, m = .ok (a, b) := by
  cases m with
  | error e => cases h
  | ok p =>
    obtain ⟨a', b⟩ := p
    exact ⟨b, by rw [← Except.ok.inj h]⟩

/-- **C74** The result of a 2D interpolator does not depend on the windows it was used on before,
when they all have the size of this one, nor on the contents of the memory that it allocates. -/
theorem C74_no_history (same : Nat → Nat → Bool) (k : Kind2D) (xa ya : List K) (za : Mat K) (x y : K)
    (o o' : Obj2D K) (ho : Reach2D same k xa.length ya.length o)
    (ho' : Reach2D same k xa.length ya.length o') (junk junk' : Nat → K) :
    (o.call same junk xa ya za x y).map (·.1) = (o'.call same junk' xa ya za x y).map (·.1) :=
  Obj2D.call_const junk junk' za x y ho.used ho'.used

/-- **C74** On a window with at least four increasing abscissas and ordinates, for a point in the
window, `bicubic` and the tensor product of `c_spline` both return the value of the natural
cubic splines of the columns at `x` interpolated by the natural cubic spline at `y`, and this is
also the value obtained in the other order. -/
theorem C74_splines (same : Nat → Nat → Bool) (k : Kind2D) (hk : k = .bicubic ∨ k = .spline .cspline)
    (xa ya : List K) (z : Nat → Nat → K) (hx : xa.Pairwise (· < ·)) (hy : ya.Pairwise (· < ·))
    (h4 : 4 ≤ xa.length) (h4' : 4 ≤ ya.length) (x y : K) (wx : Within xa x) (wy : Within ya y)
    (o : Obj2D K) (ho : Reach2D same k xa.length ya.length o) (junk : Nat → K) :
    ∃ v, (o.call same junk xa ya ⟨xa.length, ya.length, z⟩ x y).map (·.1) = .ok (some v) ∧
      ColumnsFirst SplineAt xa ya z x y v ∧ RowsFirst SplineAt xa ya z x y v := by
  obtain ⟨i, hi, sx, i0, i1⟩ := within_search hx (by omega) wx
  obtain ⟨j, hj, sy, j0, j1⟩ := within_search hy (by omega) wy
  set za : Mat K := ⟨xa.length, ya.length, z⟩ with hza
  have eq2 : splineVal ya (colVals xa ya za i x) j y = splineVal xa (rowVals xa ya za j y) i x :=
    (bicubic_at (b := ⟨0, fun _ => 0⟩) (.new _) hx hy rfl rfl h4 h4' hi hj sx sy same (fun _ => 0)).1
  refine ⟨splineVal ya (colVals xa ya za i x) j y, ?_, ?_, ?_⟩
  · rcases hk with rfl | rfl
    · have hu := ho.used
      cases o <;> simp only [Obj2D.Used] at hu
      obtain ⟨-, b', -, e⟩ := bicubic_at hu (za := za) hx hy rfl rfl h4 h4' hi hj sx sy same junk
      rw [e]
      rfl
    · rw [Obj2D.call_const junk (fun _ => 0) za x y ho.used
        (Obj2D.new_used same xa.length ya.length (fun _ => (0 : K)) (.spline .cspline))]
      obtain ⟨b', c', -, -, e⟩ := spline2D_at (b := ⟨0, fun _ => 0⟩) (c := ⟨0, fun _ => 0⟩) (.new _)
        (.new _) (za := za) rfl rfl h4 h4' hi hj sx sy same (fun _ => (0 : K))
      exact congrArg (·.map (·.1)) e
  · refine ⟨colVals xa ya za i x, by simp [colVals], ?_, splineVal_at hy (by simp [colVals]) h4' hj j0 j1⟩
    intro l hl
    simp only [colVals, List.getElem_map, List.getElem_range]
    exact splineVal_at hx (by simp [tableColumn]) h4 hi i0 i1
  · rw [eq2]
    refine ⟨rowVals xa ya za j y, by simp [rowVals], ?_, splineVal_at hx (by simp [rowVals]) h4 hi i0 i1⟩
    intro l hl
    simp only [rowVals, List.getElem_map, List.getElem_range]
    exact splineVal_at hy (by simp [tableRow]) h4' hj j0 j1

/-- **C74** The values described by `ColumnsFirst` and `RowsFirst` are unique: with
`C74_splines`, the two orders give the same value, and it is the value returned. -/
theorem C74_value (same : Nat → Nat → Bool) (k : Kind2D) (hk : k = .bicubic ∨ k = .spline .cspline)
    (xa ya : List K) (z : Nat → Nat → K) (hx : xa.Pairwise (· < ·)) (hy : ya.Pairwise (· < ·))
    (h4 : 4 ≤ xa.length) (h4' : 4 ≤ ya.length) (x y v : K) (wx : Within xa x) (wy : Within ya y)
    (o : Obj2D K) (ho : Reach2D same k xa.length ya.length o) (junk : Nat → K) :
    (o.call same junk xa ya ⟨xa.length, ya.length, z⟩ x y).map (·.1) = .ok (some v) ↔
      ColumnsFirst SplineAt xa ya z x y v := by
  obtain ⟨w, e, hc, -⟩ := C74_splines same k hk xa ya z hx hy h4 h4' x y wx wy o ho junk
  constructor
  · intro h
    rw [e] at h
    rw [← Option.some.inj (Except.ok.inj h)]
    exact hc
  · rintro ⟨us, hus, hu, huv⟩
    obtain ⟨ws, hws, hw, hwv⟩ := hc
    have : us = ws := by
      apply List.ext_getElem (by omega)
      intro l h1 h2
      exact C74_spline_unique hx (by simp [tableColumn]) (hu l h1) (hw l h2)
    subst this
    rw [e, C74_spline_unique hy hws.symm hwv huv]


/-! ### other splines -/

/-- The interpolation at `x` by a new 1D interpolator of the class `k` (`none` is NaN). -/
def newInterp1D (same : Nat → Nat → Bool) (k : Kind) (xs vs : List K) (x : K) : Out (Option K) :=
  ((Obj.new (fun _ => (0 : K)) k).call same (fun _ => 0) xs vs x).map (·.1)

theorem columnLoop_tensor {same : Nat → Nat → Bool} {junk : Nat → K} {k : Kind} {xa : List K} {x : K}
    (cs : List (List K)) (ws : List K) (hl : ws.length = cs.length)
    (h : ∀ l (h1 : l < cs.length) (h2 : l < ws.length),
      newInterp1D same k xa cs[l] x = .ok (some ws[l]))
    {o : Obj K} (ho : o.Used same) (hk : o.kind = k) (hs : o.Sized xa.length) :
    ∃ o', columnLoop same junk xa x o cs = .ok (ws, o') := by
  induction cs generalizing ws o with
  | nil =>
    rw [List.length_nil, List.length_eq_zero_iff] at hl
    subst hl
    exact ⟨o, rfl⟩
  | cons c cs ih =>
    cases ws with
    | nil => simp at hl
    | cons w ws =>
      have h0 := h 0 (by simp) (by simp)
      simp only [List.getElem_cons_zero] at h0
      obtain ⟨o1, e1⟩ := ok_map_fst ((Obj.call_const same junk (fun _ => 0) o _ xa c x ho
        (Obj.new_used same (fun _ => 0) k).1 (hk.trans (Obj.new_used same (fun _ => (0 : K)) k).2.symm)
        hs (Obj.new_sized _ _ _)).trans h0)
      obtain ⟨u1, u2⟩ := Obj.call_used ho e1
      obtain ⟨o2, e2⟩ := ih ws (by simpa using hl) (fun l h1 h2 => by
        have := h (l + 1) (by simpa using h1) (by simpa using h2)
        simpa using this) u1 (u2.trans hk) (Obj.call_sized ho hs e1)
      exact ⟨o2, by simp only [columnLoop, e1, e2, bind, Except.bind, noNan]⟩

/-- **C74** For every class of 1D interpolators, the 2D interpolation is the 1D interpolation of
the columns at `x`, followed by the 1D interpolation at `y` of the values obtained. -/
theorem C74_tensor (same : Nat → Nat → Bool) (k : Kind) (xa ya : List K) (z : Nat → Nat → K) (x y : K)
    (o : Obj2D K) (ho : Reach2D same (.spline k) xa.length ya.length o) (junk : Nat → K)
    (ws : List K) (hws : ws.length = ya.length)
    (h : ∀ l (hl : l < ws.length),
      newInterp1D same k xa (tableColumn z xa.length l) x = .ok (some ws[l])) :
    (o.call same junk xa ya ⟨xa.length, ya.length, z⟩ x y).map (·.1) = newInterp1D same k ya ws y := by
  have hu := ho.used
  cases o with
  | bilinear => simp only [Obj2D.Used] at hu
  | bicubic => simp only [Obj2D.Used] at hu
  | spline ox oy =>
    obtain ⟨u1, u2, u3, v1, v2, v3⟩ := hu
    obtain ⟨ox', e⟩ := columnLoop_tensor (junk := junk) (x := x) ((List.range ya.length).map
      (Mat.col ⟨xa.length, ya.length, z⟩)) ws (by simpa using hws) (by
        intro l h1 h2
        simp only [List.getElem_map, List.getElem_range]
        exact h l h2) u1 u2 u3
    have hy := Obj.call_const same junk (fun _ => 0) oy _ ya ws y v1 (Obj.new_used same (fun _ => 0) k).1
      (v2.trans (Obj.new_used same (fun _ => (0 : K)) k).2.symm) v3 (Obj.new_sized _ _ _)
    simp only [Obj2D.call, e, bind, Except.bind]
    unfold newInterp1D
    rw [← hy]
    cases oy.call same junk ya ws y <;> rfl

theorem newInterp1D_node (same : Nat → Nat → Bool) (k : Kind) (m : Nat)
    (hk : (k, m) ∈ [(Kind.linear, 2), (.steffen, 3), (.cspline, 4), (.csplinePeriodic, 4)])
    (xs vs : List K) (hs : xs.Pairwise (· < ·)) (hl : xs.length = vs.length) (hm : m ≤ xs.length)
    (i : Nat) (hi : i < xs.length) : newInterp1D same k xs vs xs[i] = .ok (some (vs[i]'(by omega))) := by
  simp only [List.mem_cons, Prod.mk.injEq, List.not_mem_nil, or_false] at hk
  unfold newInterp1D
  rcases hk with ⟨rfl, rfl⟩ | ⟨rfl, rfl⟩ | ⟨rfl, rfl⟩ | ⟨rfl, rfl⟩
  · simp only [Obj.new, Obj.call, C41_nodes xs vs hs hl hm i hi, bind, Except.bind, Except.map]
  · obtain ⟨b, e⟩ := C42_nodes xs vs hs hl hm ⟨0, fun _ => 0⟩ (fun _ => 0) (.new _) i hi
    simp only [Obj.new, Obj.call, e, bind, Except.bind, Except.map]
  · obtain ⟨b, e⟩ := C43_nodes xs vs hs hl hm ⟨0, fun _ => 0⟩ (.new _) i hi
    simp only [Obj.new, Obj.call, e, bind, Except.bind, Except.map]
  · obtain ⟨P, hP, h⟩ := C65_periodic xs vs hs hl hm ⟨0, fun _ _ => 0, fun _ => 0, ⟨0, fun _ => 0⟩⟩ (.new _ _ _)
      (by simp) (fun _ => 0)
    cases i with
    | zero =>
      obtain ⟨b', e, _⟩ := h 0 (by omega) xs[0] (le_refl _) (pairwise_le hs _ _ (by omega))
      rw [hP.left 0 (by omega) (by omega)] at e
      simp only [Obj.new, Obj.call, e, bind, Except.bind, Except.map]
    | succ k =>
      obtain ⟨b', e, _⟩ := h k hi xs[k + 1] (pairwise_le hs _ _ (by omega)) (le_refl _)
      rw [hP.right k hi (by omega)] at e
      simp only [Obj.new, Obj.call, e, bind, Except.bind, Except.map]

/-! ### the bilinear interpolation -/

theorem bilinear_at {xa ya : List K} {z : Nat → Nat → K} {i j : Nat} (hi : i + 1 < xa.length)
    (hj : j + 1 < ya.length) {x y : K} (sx : search xa x = some (i, i + 1))
    (sy : search ya y = some (j, j + 1)) (same : Nat → Nat → Bool) (junk : Nat → K) :
    let t := (x - xa[i]) / (xa[i + 1] - xa[i])
    let u := (y - ya[j]) / (ya[j + 1] - ya[j])
    (Obj2D.bilinear.call same junk xa ya ⟨xa.length, ya.length, z⟩ x y).map (·.1) =
      .ok (some ((1 - t) * (1 - u) * z i j + t * (1 - u) * z (i + 1) j + (1 - t) * u * z i (j + 1) +
        t * u * z (i + 1) (j + 1))) := by
  intro t u
  simp only [Obj2D.call, bilinearEval, checkSizes2D_ok (za := ⟨xa.length, ya.length, z⟩) rfl rfl
    (by omega : 2 ≤ xa.length) (by omega : 2 ≤ ya.length), sx, sy, bind, Except.bind]
  rw [rd_eq (by omega : i < xa.length), rd_eq hi, rd_eq (by omega : j < ya.length), rd_eq hj,
    Mat.rd_ok _ (by simp only; omega) (by simp only; omega),
    Mat.rd_ok _ (by simp only; omega) (by simp only; omega),
    Mat.rd_ok _ (by simp only; omega) (by simp only; omega),
    Mat.rd_ok _ (by simp only; omega) (by simp only; omega)]
  rfl

/-- **C74** `bilinear` on a window with at least two increasing abscissas and ordinates, for a
point of the cell `(i, j)`: the bilinear function of the four corners of the cell, within their
range. -/
theorem C74_bilinear (same : Nat → Nat → Bool) (xa ya : List K) (z : Nat → Nat → K)
    (hx : xa.Pairwise (· < ·)) (hy : ya.Pairwise (· < ·)) (x y : K) (i j : Nat)
    (hi : i + 1 < xa.length) (hj : j + 1 < ya.length) (i0 : xa[i] ≤ x) (i1 : x ≤ xa[i + 1])
    (j0 : ya[j] ≤ y) (j1 : y ≤ ya[j + 1]) (junk : Nat → K) :
    ∃ v, (Obj2D.bilinear.call same junk xa ya ⟨xa.length, ya.length, z⟩ x y).map (·.1) = .ok (some v) ∧
      OnBilinear xa[i] xa[i + 1] ya[j] ya[j + 1] (z i j) (z i (j + 1)) (z (i + 1) j)
        (z (i + 1) (j + 1)) x y v ∧
      InRange [z i j, z i (j + 1), z (i + 1) j, z (i + 1) (j + 1)] v := by
  have cell : ∀ {l : List K} (hs : l.Pairwise (· < ·)) {i : Nat} (hi : i + 1 < l.length) {x : K},
      l[i] ≤ x → x ≤ l[i + 1] → search l x = some (i, i + 1) ∨
        (x = l[i] ∧ ∃ k, i = k + 1 ∧ search l x = some (k, k + 1)) := by
    intro l hs i hi x h0 h1
    rcases h0.lt_or_eq with h | h
    · exact Or.inl (search_between hs hi h h1)
    · subst h
      cases i with
      | zero => exact Or.inl (search_first hs (by omega))
      | succ k => exact Or.inr ⟨rfl, k, rfl, search_node hs (by omega) (by omega : k + 1 < l.length)⟩
  have wx : xa[i] ≠ xa[i + 1] := (pairwise_lt hx _ hi (by omega)).ne
  have wy : ya[j] ≠ ya[j + 1] := (pairwise_lt hy _ hj (by omega)).ne
  have dx : xa[i + 1] - xa[i] ≠ 0 := sub_ne_zero.2 wx.symm
  have dy : ya[j + 1] - ya[j] ≠ 0 := sub_ne_zero.2 wy.symm
  suffices hh : ∃ v, (Obj2D.bilinear.call same junk xa ya ⟨xa.length, ya.length, z⟩ x y).map (·.1) =
      .ok (some v) ∧ OnBilinear xa[i] xa[i + 1] ya[j] ya[j + 1] (z i j) (z i (j + 1)) (z (i + 1) j)
        (z (i + 1) (j + 1)) x y v by
    obtain ⟨v, e, hv⟩ := hh
    exact ⟨v, e, hv, (hv.isMean wx wy (Or.inl ⟨i0, i1⟩) (Or.inl ⟨j0, j1⟩)).inRange⟩
  simp only [onBilinear_iff wx wy]
  rcases cell hx hi i0 i1 with sx | ⟨ex, k, rfl, sx⟩
  · rcases cell hy hj j0 j1 with sy | ⟨ey, l, rfl, sy⟩
    · refine ⟨_, bilinear_at hi hj sx sy same junk, ?_⟩
      field_simp
      ring
    · refine ⟨_, bilinear_at hi (by omega) sx sy same junk, ?_⟩
      have dy' : ya[l + 1] - ya[l] ≠ 0 := sub_ne_zero.2 (pairwise_lt hy _ _ (by omega)).ne'
      subst ey
      rw [div_self dy']
      field_simp
      ring
  · have dx' : xa[k + 1] - xa[k] ≠ 0 := sub_ne_zero.2 (pairwise_lt hx _ _ (by omega)).ne'
    subst ex
    rcases cell hy hj j0 j1 with sy | ⟨ey, l, rfl, sy⟩
    · refine ⟨_, bilinear_at (by omega) hj sx sy same junk, ?_⟩
      rw [div_self dx']
      field_simp
      ring
    · refine ⟨_, bilinear_at (by omega) (by omega) sx sy same junk, ?_⟩
      have dy' : ya[l + 1] - ya[l] ≠ 0 := sub_ne_zero.2 (pairwise_lt hy _ _ (by omega)).ne'
      subst ey
      rw [div_self dx', div_self dy']
      ring

/-- **C74** The values of the table are reproduced at the nodes, for `bilinear`, `bicubic` and the
splines `linear`, `steffen`, `c_spline` and `c_spline_periodic`, with enough points. -/
theorem C74_nodes (same : Nat → Nat → Bool) (k : Kind2D) (m : Nat)
    (hk : (k, m) ∈ [(Kind2D.bilinear, 2), (.bicubic, 4), (.spline .linear, 2), (.spline .steffen, 3),
      (.spline .cspline, 4), (.spline .csplinePeriodic, 4)])
    (xa ya : List K) (z : Nat → Nat → K) (hx : xa.Pairwise (· < ·)) (hy : ya.Pairwise (· < ·))
    (hm : m ≤ xa.length) (hm' : m ≤ ya.length) (i j : Nat) (hi : i < xa.length) (hj : j < ya.length)
    (o : Obj2D K) (ho : Reach2D same k xa.length ya.length o) (junk : Nat → K) :
    (o.call same junk xa ya ⟨xa.length, ya.length, z⟩ xa[i] ya[j]).map (·.1) = .ok (some (z i j)) := by
  have spl : ∀ (k : Kind) (m : Nat), (k, m) ∈ [(Kind.linear, 2), (.steffen, 3), (.cspline, 4),
      (.csplinePeriodic, 4)] → m ≤ xa.length → m ≤ ya.length →
      ∀ o : Obj2D K, Reach2D same (.spline k) xa.length ya.length o →
      (o.call same junk xa ya ⟨xa.length, ya.length, z⟩ xa[i] ya[j]).map (·.1) = .ok (some (z i j)) := by
    intro k m hk hm hm' o ho
    have := C74_tensor same k xa ya z xa[i] ya[j] o ho junk (tableRow z ya.length i)
      (by simp [tableRow]) (by
        intro l hl
        rw [newInterp1D_node same k m hk xa _ hx (by simp [tableColumn]) hm i hi]
        simp [tableColumn, tableRow])
    rw [this, newInterp1D_node same k m hk ya _ hy (by simp [tableRow]) hm' j hj]
    simp [tableRow]
  simp only [List.mem_cons, Prod.mk.injEq, List.not_mem_nil, or_false] at hk
  rcases hk with ⟨rfl, rfl⟩ | ⟨rfl, rfl⟩ | ⟨rfl, rfl⟩ | ⟨rfl, rfl⟩ | ⟨rfl, rfl⟩ | ⟨rfl, rfl⟩
  · have hu := ho.used
    cases o <;> simp only [Obj2D.Used] at hu
    have sx := search_node hx hm hi
    have sy := search_node hy hm' hj
    rw [bilinear_at (by omega) (by omega) sx sy]
    have ends : ∀ {l : List K} (hs : l.Pairwise (· < ·)) (h2 : 2 ≤ l.length) {i : Nat} (hi : i < l.length)
        (h1 : i - 1 + 1 < l.length), ((l[i] - l[i - 1]) / (l[i - 1 + 1] - l[i - 1]) = 0 ∧ i - 1 = i) ∨
          ((l[i] - l[i - 1]) / (l[i - 1 + 1] - l[i - 1]) = 1 ∧ i - 1 + 1 = i) := by
      intro l hs h2 i hi h1
      cases i with
      | zero => left; simp
      | succ k =>
        right
        have : l[k + 1] - l[k] ≠ 0 := sub_ne_zero.2 (pairwise_lt hs _ _ (by omega)).ne'
        exact ⟨div_self this, rfl⟩
    rcases ends hx hm hi (by omega) with ⟨ex, e1⟩ | ⟨ex, e1⟩ <;>
      rcases ends hy hm' hj (by omega) with ⟨ey, e2⟩ | ⟨ey, e2⟩ <;>
      rw [ex, ey, e1, e2] <;> congr 2 <;> ring
  · rw [← spl .cspline 4 (by simp) hm hm' _ (.new (fun _ => 0))]
    have wx : Within xa xa[i] := ⟨⟨_, List.getElem_mem hi, le_refl _⟩, _, List.getElem_mem hi, le_refl _⟩
    have wy : Within ya ya[j] := ⟨⟨_, List.getElem_mem hj, le_refl _⟩, _, List.getElem_mem hj, le_refl _⟩
    obtain ⟨v, e, hv, -⟩ := C74_splines same .bicubic (Or.inl rfl) xa ya z hx hy hm hm' xa[i] ya[j] wx wy o ho junk
    rw [e]
    exact ((C74_value same (.spline .cspline) (Or.inr rfl) xa ya z hx hy hm hm' xa[i] ya[j] v wx wy _
      (.new (fun _ => 0)) junk).2 hv).symm
  · exact spl _ 2 (by simp) hm hm' o ho
  · exact spl _ 3 (by simp) hm hm' o ho
  · exact spl _ 4 (by simp) hm hm' o ho
  · exact spl _ 4 (by simp) hm hm' o ho

/-! ### what is refused -/

/-- **C74** `bilinear` and `bicubic` refuse the windows whose sizes do not match, or with fewer than
2 (`bicubic`: 4) abscissas or ordinates, and the points outside of the window. -/
theorem C74_refused (same : Nat → Nat → Bool) (k : Kind2D) (m : Nat)
    (hk : (k, m) = (.bilinear, 2) ∨ (k, m) = (.bicubic, 4)) (xa ya : List K) (za : Mat K)
    (x y : K) (nx ny : Nat) (o : Obj2D K) (ho : Reach2D same k nx ny o) (junk : Nat → K)
    (h : xa.length ≠ za.rows ∨ ya.length ≠ za.cols ∨ xa.length < m ∨
      (xa.Pairwise (· < ·) ∧ ya.length < m) ∨ (xa.Pairwise (· < ·) ∧ ya.Pairwise (· < ·) ∧ (¬ Within xa x ∨ ¬ Within ya y))) :
    o.call same junk xa ya za x y = .error .exn := by
  have chk : (xa.length ≠ za.rows ∨ ya.length ≠ za.cols ∨ xa.length < 2 ∨ ya.length < 2) →
      checkSizes2D xa ya za = .error .exn := by
    intro h
    unfold checkSizes2D
    by_cases h1 : xa.length ≠ za.rows
    · rw [if_pos h1]
    rw [if_neg h1]
    by_cases h2 : ya.length ≠ za.cols
    · rw [if_pos h2]
    rw [if_neg h2]
    by_cases h3 : xa.length < 2
    · rw [if_pos h3]
    rw [if_neg h3, if_pos (by omega)]
  have nowhere : ∀ {l : List K} {x : K}, l.Pairwise (· < ·) → 2 ≤ l.length → ¬ Within l x →
      search l x = none := by
    intro l x hs h2 hw
    rcases search_spec hs h2 x with ⟨i, hi, -, a, b, -⟩ | ⟨e, -⟩
    · exact absurd ⟨⟨_, List.getElem_mem _, a⟩, _, List.getElem_mem _, b⟩ hw
    · exact e
  have hu := ho.used
  by_cases hc : xa.length ≠ za.rows ∨ ya.length ≠ za.cols ∨ xa.length < 2 ∨ ya.length < 2
  · rcases hk with hk | hk <;> obtain ⟨rfl, rfl⟩ := Prod.mk.inj hk <;> cases o <;>
      simp only [Obj2D.Used] at hu
    · simp only [Obj2D.call, chk hc, bind, Except.bind]
    · simp only [Obj2D.call, bicubicCompute, chk hc, bind, Except.bind]
  · rw [not_or, not_or, not_or, not_not, not_not, not_lt, not_lt] at hc
    obtain ⟨h1, h2, h3, h4⟩ := hc
    have h' : (xa.length < m ∨ (xa.Pairwise (· < ·) ∧ ya.length < m)) ∨ (xa.Pairwise (· < ·) ∧ ya.Pairwise (· < ·) ∧
        (¬ Within xa x ∨ ¬ Within ya y)) := by
      rcases h with h | h | h | h | h
      · exact absurd h1 h
      · exact absurd h2 h
      · exact Or.inl (Or.inl h)
      · exact Or.inl (Or.inr h)
      · exact Or.inr h
    rcases hk with hk | hk <;> obtain ⟨rfl, rfl⟩ := Prod.mk.inj hk <;> cases o <;>
      simp only [Obj2D.Used] at hu
    · rcases h' with h' | ⟨hx, hy, h'⟩
      · omega
      · have : bilinearEval xa ya za x y = .error .exn := by
          unfold bilinearEval
          rcases h' with h' | h'
          · rw [nowhere hx h3 h']
          · rw [nowhere hy h4 h']
            cases search xa x <;> rfl
        simp only [Obj2D.call, checkSizes2D_ok h1 h2 h3 h4, this, bind, Except.bind]
    · rename_i b
      -- fewer than four points
      have short : ∀ (xs c : List K) (b : Buf K), xs.length < 4 → nodeDerivatives b xs c = .error .exn := by
        intro xs c b h
        unfold nodeDerivatives csplineCompute
        rcases checkSizes_cases 4 xs c with ⟨-, -, h'⟩ | hc
        · omega
        · rw [hc]; rfl
      have loop : ∀ (xs : List K) (cs : List (List K)) (b : Buf K), xs.length < 4 → cs ≠ [] →
          derivativeLoop xs b cs = .error .exn := by
        intro xs cs b h hne
        cases cs with
        | nil => exact absurd rfl hne
        | cons c cs => simp only [derivativeLoop, short xs c b h, bind, Except.bind]
      by_cases h4x : xa.length < 4
      · simp only [Obj2D.call, bicubicCompute, checkSizes2D_ok h1 h2 h3 h4, bind, Except.bind]
        rw [loop xa _ _ h4x (by
          intro e
          have := congrArg List.length e
          simp only [List.length_map, List.length_range, List.length_nil] at this
          omega)]
      have hxs : xa.Pairwise (· < ·) := by
        rcases h' with (h' | h') | h'
        · omega
        · exact h'.1
        · exact h'.1
      · obtain ⟨b1, -, e1⟩ := derivativeLoop_eq hxs (by omega) ((List.range ya.length).map za.col) (by
          intro c hcc
          obtain ⟨j, _, rfl⟩ := List.mem_map.1 hcc
          rw [za.col_length, h1]) b hu
        by_cases h4y : ya.length < 4
        · simp only [Obj2D.call, bicubicCompute, checkSizes2D_ok h1 h2 h3 h4, e1, bind, Except.bind]
          rw [loop ya _ _ h4y (by
            intro e
            have := congrArg List.length e
            simp only [List.length_map, List.length_range, List.length_nil] at this
            omega)]
        · rcases h' with h' | ⟨hx, hy, h'⟩
          · omega
          · obtain ⟨d, b', -, e, -⟩ := bicubicCompute_eq hu hx hy h1 h2 (by omega) (by omega)
            have : bicubicEval d xa ya za x y = .error .exn := by
              unfold bicubicEval
              rcases h' with h' | h'
              · rw [nowhere hx h3 h']
              · rw [nowhere hy h4 h']
                cases search xa x <;> rfl
            simp only [Obj2D.call, e, this, bind, Except.bind]

/-- **C74** The names of the classes of windows interpolators, for the functions `bicubic_*` and
`spline_*` of the core; any other name is refused. -/
theorem C74_names (s : String) (k : Kind2D) :
    (kind2DOf s = .ok k ↔ (s, k) ∈ [("bilinear", Kind2D.bilinear), ("bicubic", .bicubic)]) ∧
    (kindSplineOf s = .ok k ↔ (s, k) ∈ [("linear", Kind2D.spline .linear),
      ("polynomial", .spline .polynomial), ("c_spline", .spline .cspline),
      ("c_spline_periodic", .spline .csplinePeriodic), ("akima", .spline .akima),
      ("akima_periodic", .spline .akimaPeriodic), ("steffen", .spline .steffen)]) ∧
    ((∀ k', kind2DOf s ≠ .ok k') → kind2DOf s = .error .exn) ∧
    ((∀ k', kindSplineOf s ≠ .ok k') → kindSplineOf s = .error .exn) := by
  refine ⟨?_, ?_, ?_, ?_⟩
  · unfold kind2DOf
    split
    · subst_vars; simp [eq_comm]
    split
    · subst_vars; simp [eq_comm]
    · simp_all
  · unfold kindSplineOf kindOf
    simp only [bind, Except.bind]
    split_ifs with h1 h2 h3 h4 h5 h6 h7 <;>
      first | (subst_vars; simp [eq_comm]; done) | simp [*]
  · unfold kind2DOf
    split_ifs <;> simp
  · unfold kindSplineOf kindOf
    simp only [bind, Except.bind]
    split_ifs <;> simp

end

/-- a table for the examples -/
def exampleTable : Nat → Nat → ℚ := fun i j => (i * i : ℚ) + 3 * j - i * j * j

example : interpolate2D (fun _ _ => false) .bicubic [0, 1, 2, 4] [0, 1, 3, 4, 5] ⟨4, 5, exampleTable⟩
      (3 / 2 : ℚ) (7 / 2) =
    interpolate2D (fun _ _ => false) (.spline .cspline) [0, 1, 2, 4] [0, 1, 3, 4, 5]
      ⟨4, 5, exampleTable⟩ (3 / 2) (7 / 2) := by decide +kernel

example : [(0 : ℚ), 1, 2, 4].Pairwise (· < ·) ∧ [(0 : ℚ), 1, 3, 4, 5].Pairwise (· < ·) ∧
    Within [(0 : ℚ), 1, 2, 4] (3 / 2) ∧
    Reach2D (fun _ _ => false) .bicubic 4 5 (Obj2D.bicubic ⟨0, fun _ => (5 : ℚ)⟩) :=
  ⟨by decide +kernel, by decide +kernel, ⟨⟨0, by simp, by norm_num⟩, 4, by simp, by norm_num⟩,
    .new (fun _ => 5)⟩

example : interpolate2D (fun _ _ => false) .bilinear [0, 1, 2, 4] [0, 1, 3, 4, 5] ⟨4, 5, exampleTable⟩
      (3 / 2 : ℚ) (7 / 2) = .ok (some (1 / 4)) ∧
    interpolate2D (fun _ _ => false) (.spline .linear) [0, 1, 2, 4] [0, 1, 3, 4, 5]
      ⟨4, 5, exampleTable⟩ (3 / 2 : ℚ) (7 / 2) = .ok (some (1 / 4)) ∧
    interpolate2D (fun _ _ => false) .bicubic [0, 1, 2] [0, 1, 3, 4, 5] ⟨3, 5, exampleTable⟩
      (3 / 2 : ℚ) (7 / 2) = .error .exn ∧
    interpolate2D (fun _ _ => false) .bicubic [0, 1, 2, 4] [0, 1, 3, 4, 5] ⟨4, 5, exampleTable⟩
      (9 / 2 : ℚ) (7 / 2) = .error .exn := by decide +kernel

end Pyinterp.Interp
