import Mathlib.Algebra.BigOperators.Group.Finset.Basic
import Mathlib.Algebra.BigOperators.Ring.Finset
import Verif.Model.Bicubic
import Verif.Lemmas.Interpolate1D

namespace Pyinterp.Interp
open Spec Polynomial
set_option linter.unusedSectionVars false
set_option linter.unusedVariables false
set_option linter.unusedSimpArgs false

section
variable {K : Type} [Field K] [LinearOrder K] [IsStrictOrderedRing K]

theorem at'_map_range (n : Nat) (f : Nat → K) {i : Nat} (hi : i < n) :
    at' ((List.range n).map f) i = f i := by
  rw [at'_eq (by simpa using hi)]
  simp

theorem getElem_map_range {α : Type} (n : Nat) (f : Nat → α) {i : Nat} (hi : i < n)
    (h : i < ((List.range n).map f).length) : ((List.range n).map f)[i] = f i := by
  simp

/-! ### the slopes of the natural spline -/

/-- The slope of the natural spline at the node `i`. -/
def nodeSlope (xa ya : List K) : Nat → K
  | 0 => (at' ya 1 - at' ya 0) / width xa 0 -
      width xa 0 * (csplineC xa ya 1 + 2 * csplineC xa ya 0) * (1 / 3)
  | i + 1 => (at' ya (i + 1) - at' ya i) / width xa i +
      width xa i * (2 * csplineC xa ya (i + 1) + csplineC xa ya i) * (1 / 3)

theorem csplineC_rows {xa ya : List K} (hs : xa.Pairwise (· < ·)) (i : Nat) (hi : i + 2 < xa.length) :
    width xa i * csplineC xa ya i +
      2 * (width xa i + width xa (i + 1)) * csplineC xa ya (i + 1) +
      width xa (i + 1) * csplineC xa ya (i + 2) = csplineRhs xa ya i := by
  have := thomas_solves (ya := ya) hs (xa.length - 2) (by omega) i (by omega)
  rw [← this]
  cases i with
  | zero => simp [csplineC]
  | succ k => simp [csplineC]

theorem nodeSlope_eval {xa ya : List K} (hs : xa.Pairwise (· < ·)) (hl : xa.length = ya.length)
    (i : Nat) (hi : i + 1 < xa.length) :
    (derivative (splinePiece xa ya (csplineC xa ya) i)).eval (at' xa i) = nodeSlope xa ya i ∧
    (derivative (splinePiece xa ya (csplineC xa ya) i)).eval (at' xa (i + 1)) =
      nodeSlope xa ya (i + 1) := by
  obtain ⟨p1, _, _, _, p5, p6⟩ := splinePiece_pieces hs hl (c := csplineC xa ya)
    (fun i hi => csplineC_rows hs i hi)
  refine ⟨?_, ?_⟩
  · cases i with
    | zero => rw [p5 0 hi]; rfl
    | succ k =>
      have := p1.c1 k (by omega)
      rw [← at'_eq (by omega : k + 1 < xa.length)] at this
      rw [← this, p6 k (by omega)]
      rfl
  · rw [p6 i hi]
    rfl

/-- The cubic with the values `a`, `b` and the slopes `p`, `q` at 0 and 1. -/
def herm (t a b p q : K) : K :=
  a + t * p + t * t * (3 * (b - a) - 2 * p - q) + t * (t * t) * (2 * (a - b) + p + q)

/-- The pieces of the natural spline are the cubics of Hermite with its slopes. -/
theorem splinePiece_herm {xa ya : List K} (hs : xa.Pairwise (· < ·)) (hl : xa.length = ya.length)
    (i : Nat) (hi : i + 1 < xa.length) (x : K) :
    (splinePiece xa ya (csplineC xa ya) i).eval x =
      herm ((x - at' xa i) / width xa i) (at' ya i) (at' ya (i + 1))
        (nodeSlope xa ya i * width xa i) (nodeSlope xa ya (i + 1) * width xa i) := by
  obtain ⟨p1, _, _, _, p5, p6⟩ := splinePiece_pieces hs hl (c := csplineC xa ya)
    (fun i hi => csplineC_rows hs i hi)
  obtain ⟨n1, n2⟩ := nodeSlope_eval (ya := ya) hs hl i hi
  rw [← n1, ← n2, p5 i hi, p6 i hi]
  have hw := (width_pos hs hi).ne'
  simp only [splinePiece, csplineCoefficients, eval_add, eval_mul, eval_sub, eval_X, eval_C, herm]
  field_simp
  ring

/-! ### linearity -/

/-- `L` is a linear function of the `m` elements of a list. -/
def Rep (m : Nat) (L : List K → K) : Prop :=
  ∃ c : Nat → K, ∀ ya, ya.length = m → L ya = ∑ k ∈ Finset.range m, c k * at' ya k

theorem Rep.at (m i : Nat) : Rep m (fun ya : List K => at' ya i) := by
  refine ⟨fun k => if k = i then 1 else 0, ?_⟩
  intro ya h
  simp only [ite_mul, one_mul, zero_mul]
  rw [Finset.sum_ite_eq']
  by_cases hi : i < m
  · rw [if_pos (Finset.mem_range.2 hi)]
  · rw [if_neg (by simpa using hi)]
    simp [at', List.getD, List.getElem?_eq_none (by omega : ya.length ≤ i)]

theorem Rep.add {m : Nat} {L M : List K → K} (h : Rep m L) (h' : Rep m M) :
    Rep m (fun ya => L ya + M ya) := by
  obtain ⟨c, hc⟩ := h
  obtain ⟨d, hd⟩ := h'
  refine ⟨fun k => c k + d k, fun ya hy => ?_⟩
  simp only [hc ya hy, hd ya hy, ← Finset.sum_add_distrib]
  exact Finset.sum_congr rfl fun k _ => by ring

theorem Rep.mul {m : Nat} {L : List K → K} (h : Rep m L) (a : K) : Rep m (fun ya => a * L ya) := by
  obtain ⟨c, hc⟩ := h
  refine ⟨fun k => a * c k, fun ya hy => ?_⟩
  simp only [hc ya hy, Finset.mul_sum]
  exact Finset.sum_congr rfl fun k _ => by ring

theorem Rep.congr {m : Nat} {L M : List K → K} (h : Rep m L) (e : ∀ ya, M ya = L ya) : Rep m M := by
  obtain ⟨c, hc⟩ := h
  exact ⟨c, fun ya hy => by rw [e, hc ya hy]⟩

theorem Rep.zero (m : Nat) : Rep m (fun _ : List K => (0 : K)) :=
  ((Rep.at m 0).mul 0).congr fun ya => by ring

theorem Rep.sub {m : Nat} {L M : List K → K} (h : Rep m L) (h' : Rep m M) :
    Rep m (fun ya => L ya - M ya) :=
  (h.add (h'.mul (-1))).congr fun ya => by ring

theorem rep_rhs (m : Nat) (xa : List K) (i : Nat) : Rep m (fun ya => csplineRhs xa ya i) := by
  have h1 := ((Rep.at (K := K) m (i + 2)).sub (Rep.at m (i + 1))).mul
    (if width xa (i + 1) ≠ 0 then 1 / width xa (i + 1) else 0)
  have h2 := ((Rep.at (K := K) m (i + 1)).sub (Rep.at m i)).mul
    (if width xa i ≠ 0 then 1 / width xa i else 0)
  refine ((h1.sub h2).mul 3).congr fun ya => ?_
  simp only [csplineRhs]
  ring

theorem rep_thomasD (m : Nat) (xa : List K) (i : Nat) : Rep m (fun ya => thomasD xa ya i) := by
  induction i with
  | zero =>
    refine ((rep_rhs m xa 0).mul (1 / (2 * (width xa 0 + width xa 1)))).congr fun ya => ?_
    simp only [thomasD]
    ring
  | succ i ih =>
    refine (((rep_rhs m xa (i + 1)).sub (ih.mul (width xa (i + 1)))).mul
      (1 / (2 * (width xa (i + 1) + width xa (i + 2)) - width xa (i + 1) * thomasC xa i))).congr
      fun ya => ?_
    simp only [thomasD]
    ring

theorem rep_thomasX (m : Nat) (xa : List K) (n j : Nat) : Rep m (fun ya => thomasX xa ya n j) := by
  induction j with
  | zero => exact (rep_thomasD m xa (n - 1)).congr fun ya => rfl
  | succ j ih =>
    exact ((rep_thomasD m xa (n - 2 - j)).sub (ih.mul (thomasC xa (n - 2 - j)))).congr fun ya => rfl

theorem rep_csplineC (m : Nat) (xa : List K) (i : Nat) : Rep m (fun ya => csplineC xa ya i) := by
  cases i with
  | zero => exact (Rep.zero m).congr fun ya => rfl
  | succ k =>
    by_cases h : k < xa.length - 2
    · refine (rep_thomasX m xa (xa.length - 2) (xa.length - 2 - 1 - k)).congr fun ya => ?_
      simp only [csplineC, thomasSol, if_pos h]
    · refine (Rep.zero m).congr fun ya => ?_
      simp only [csplineC, thomasSol, if_neg h]

/-- The slope of the natural spline is a linear function of the data. -/
theorem rep_nodeSlope (m : Nat) (xa : List K) (i : Nat) : Rep m (fun ya => nodeSlope xa ya i) := by
  cases i with
  | zero =>
    refine ((((Rep.at m 1).sub (Rep.at m 0)).mul (1 / width xa 0)).sub
      (((rep_csplineC m xa 1).add ((rep_csplineC m xa 0).mul 2)).mul
        (width xa 0 * (1 / 3)))).congr fun ya => ?_
    simp only [nodeSlope]
    ring
  | succ k =>
    refine ((((Rep.at m (k + 1)).sub (Rep.at m k)).mul (1 / width xa k)).add
      ((((rep_csplineC m xa (k + 1)).mul 2).add (rep_csplineC m xa k)).mul
        (width xa k * (1 / 3)))).congr fun ya => ?_
    simp only [nodeSlope]
    ring

/-- Two linear functions, one of the rows and one of the columns, can be exchanged. -/
theorem Rep.comm {m n : Nat} {L M : List K → K} (hL : Rep m L) (hM : Rep n M) (z : Nat → Nat → K) :
    L ((List.range m).map fun (i : Nat) => M ((List.range n).map fun (j : Nat) => z i j)) =
    M ((List.range n).map fun (j : Nat) => L ((List.range m).map fun (i : Nat) => z i j)) := by
  obtain ⟨c, hc⟩ := hL
  obtain ⟨d, hd⟩ := hM
  rw [hc _ (by simp), hd _ (by simp)]
  have e1 : ∀ k ∈ Finset.range m, c k * at' ((List.range m).map fun (i : Nat) =>
      M ((List.range n).map fun (j : Nat) => z i j)) k =
      ∑ l ∈ Finset.range n, c k * (d l * z k l) := by
    intro k hk
    rw [at'_map_range m _ (Finset.mem_range.1 hk), hd _ (by simp), Finset.mul_sum]
    refine Finset.sum_congr rfl fun l hl => ?_
    rw [at'_map_range n _ (Finset.mem_range.1 hl)]
  have e2 : ∀ l ∈ Finset.range n, d l * at' ((List.range n).map fun (j : Nat) =>
      L ((List.range m).map fun (i : Nat) => z i j)) l =
      ∑ k ∈ Finset.range m, c k * (d l * z k l) := by
    intro l hl
    rw [at'_map_range n _ (Finset.mem_range.1 hl), hc _ (by simp), Finset.mul_sum]
    refine Finset.sum_congr rfl fun k hk => ?_
    rw [at'_map_range m _ (Finset.mem_range.1 hk)]
    ring
  rw [Finset.sum_congr rfl e1, Finset.sum_congr rfl e2, Finset.sum_comm]

/-- A linear function of a combination of four series. -/
theorem Rep.herm {m : Nat} {L : List K → K} (h : Rep m L) (t w : K) (a b p q : Nat → K) :
    L ((List.range m).map fun (k : Nat) => herm t (a k) (b k) (p k * w) (q k * w)) =
    Interp.herm t (L ((List.range m).map a)) (L ((List.range m).map b))
      (L ((List.range m).map p) * w) (L ((List.range m).map q) * w) := by
  obtain ⟨c, hc⟩ := h
  have e : ∀ f : Nat → K, L ((List.range m).map f) = ∑ k ∈ Finset.range m, c k * f k := by
    intro f
    rw [hc _ (by simp)]
    refine Finset.sum_congr rfl fun k hk => ?_
    rw [at'_map_range m _ (Finset.mem_range.1 hk)]
  rw [e, e a, e b, e p, e q]
  unfold Interp.herm
  simp only [Finset.mul_sum, Finset.sum_mul, ← Finset.sum_add_distrib, ← Finset.sum_sub_distrib]
  refine Finset.sum_congr rfl fun k _ => ?_
  ring

/-! ### the formula of Bicubic -/

theorem bicubicForm_xy (t u z00 z01 z10 z11 zx00 zx01 zx10 zx11 zy00 zy01 zy10 zy11
    zxy00 zxy01 zxy10 zxy11 : K) :
    bicubicForm t u z00 z01 z10 z11 zx00 zx01 zx10 zx11 zy00 zy01 zy10 zy11
      zxy00 zxy01 zxy10 zxy11 =
    herm u (herm t z00 z10 zx00 zx10) (herm t z01 z11 zx01 zx11)
      (herm t zy00 zy10 zxy00 zxy10) (herm t zy01 zy11 zxy01 zxy11) := by
  unfold bicubicForm herm
  ring

theorem bicubicForm_yx (t u z00 z01 z10 z11 zx00 zx01 zx10 zx11 zy00 zy01 zy10 zy11
    zxy00 zxy01 zxy10 zxy11 : K) :
    bicubicForm t u z00 z01 z10 z11 zx00 zx01 zx10 zx11 zy00 zy01 zy10 zy11
      zxy00 zxy01 zxy10 zxy11 =
    herm t (herm u z00 z01 zy00 zy01) (herm u z10 z11 zy10 zy11)
      (herm u zx00 zx01 zxy00 zxy01) (herm u zx10 zx11 zxy10 zxy11) := by
  unfold bicubicForm herm
  ring

/-! ### the coefficients of Bicubic -/

theorem nodeDerivatives_eq {b : Buf K} (hb : CSplineReach b) {xa ya : List K}
    (hs : xa.Pairwise (· < ·)) (hl : xa.length = ya.length) (h4 : 4 ≤ xa.length) :
    ∃ b', CSplineReach b' ∧
      nodeDerivatives b xa ya = .ok ((List.range xa.length).map (nodeSlope xa ya), b') := by
  obtain ⟨b', e, hb'⟩ := csplineCompute_eq b xa ya hb hl h4
  refine ⟨b', .call xa ya hb e, ?_⟩
  unfold nodeDerivatives
  have key : xa.mapM (fun x => csplineDerivEval b' xa ya x >>= noNan) =
      (.ok ((List.range xa.length).map (nodeSlope xa ya)) : Out (List K)) := by
    have hx : ∀ (f : K → Out K), xa.mapM f = (List.range xa.length).mapM (fun (i : Nat) => f (at' xa i)) := by
      intro f
      have : xa = (List.range xa.length).map (fun (i : Nat) => at' xa i) := by
        apply List.ext_getElem
        · simp
        · intro i h1 h2
          rw [getElem_map_range _ _ h1, at'_eq h1]
      conv_lhs => rw [this, List.mapM_map]
      rfl
    rw [hx]
    refine mapM_ok _ (nodeSlope xa ya) (List.range xa.length) ?_
    intro i hi
    rw [List.mem_range] at hi
    have hsr := search_node hs (by omega) hi
    rw [← at'_eq hi] at hsr
    obtain ⟨_, a2⟩ := spline_at hl hb' (by omega : i - 1 + 1 < xa.length) hsr
    rw [a2]
    obtain ⟨n1, n2⟩ := nodeSlope_eval (ya := ya) hs hl (i - 1) (by omega)
    cases i with
    | zero => rw [← n1]; rfl
    | succ k => rw [Nat.add_sub_cancel] at n2 ⊢; rw [n2]; rfl
  rw [e]
  simp only [Except.bind, bind] at key ⊢
  rw [key]

theorem derivativeLoop_eq {xs : List K} (hs : xs.Pairwise (· < ·)) (h4 : 4 ≤ xs.length)
    (cs : List (List K)) (hc : ∀ c ∈ cs, xs.length = c.length) (b : Buf K) (hb : CSplineReach b) :
    ∃ b', CSplineReach b' ∧ derivativeLoop xs b cs =
      .ok (cs.map fun c => (List.range xs.length).map (nodeSlope xs c), b') := by
  induction cs generalizing b with
  | nil => exact ⟨b, hb, rfl⟩
  | cons c cs ih =>
    obtain ⟨b1, h1, e1⟩ := nodeDerivatives_eq hb hs (hc c (by simp)) h4
    obtain ⟨b2, h2, e2⟩ := ih (fun d hd => hc d (by simp [hd])) b1 h1
    refine ⟨b2, h2, ?_⟩
    simp only [derivativeLoop, e1, e2, bind, Except.bind, List.map_cons]

theorem at2_map (m n : Nat) (f : Nat → Nat → K) {i j : Nat} (hi : i < m) (hj : j < n) :
    at2 ((List.range m).map fun (a : Nat) => (List.range n).map fun (b : Nat) => f a b) i j = f i j := by
  unfold at2
  rw [List.getD_eq_getElem?_getD, List.getElem?_map, List.getElem?_range hi]
  simp only [Option.map_some, Option.getD_some]
  exact at'_map_range n _ hj

theorem checkSizes2D_ok {xa ya : List K} {za : Mat K} (hr : xa.length = za.rows)
    (hc : ya.length = za.cols) (h2 : 2 ≤ xa.length) (h2' : 2 ≤ ya.length) :
    checkSizes2D xa ya za = .ok () := by
  unfold checkSizes2D
  rw [if_neg (by simpa using hr), if_neg (by simpa using hc), if_neg (by omega), if_neg (by omega)]

/-- The derivatives that `Bicubic` uses at the nodes. -/
theorem bicubicCompute_eq {b : Buf K} (hb : CSplineReach b) {xa ya : List K} {za : Mat K}
    (hx : xa.Pairwise (· < ·)) (hy : ya.Pairwise (· < ·)) (hr : xa.length = za.rows)
    (hc : ya.length = za.cols) (h4 : 4 ≤ xa.length) (h4' : 4 ≤ ya.length) :
    ∃ d b', CSplineReach b' ∧ bicubicCompute b xa ya za = .ok (d, b') ∧
      ∀ i j, i < xa.length → j < ya.length →
        d.zx i j = nodeSlope xa (za.col j) i ∧ d.zy i j = nodeSlope ya (za.row i) j ∧
        d.zxy i j = nodeSlope xa ((List.range xa.length).map fun (k : Nat) =>
          nodeSlope ya (za.row k) j) i := by
  obtain ⟨b1, h1, e1⟩ := derivativeLoop_eq hx h4 ((List.range ya.length).map za.col) (by
    intro c hcc
    obtain ⟨j, _, rfl⟩ := List.mem_map.1 hcc
    simp [Mat.col, hr]) b hb
  obtain ⟨b2, h2, e2⟩ := derivativeLoop_eq hy h4' ((List.range xa.length).map za.row) (by
    intro c hcc
    obtain ⟨j, _, rfl⟩ := List.mem_map.1 hcc
    simp [Mat.row, hc]) b1 h1
  rw [List.map_map] at e1 e2
  have hzy : ∀ i j, i < xa.length → j < ya.length →
      at2 ((List.range xa.length).map ((fun c => (List.range ya.length).map (nodeSlope ya c)) ∘ za.row)) i j =
        nodeSlope ya (za.row i) j := fun i j hi hj => by
    exact at2_map xa.length ya.length (fun a b => nodeSlope ya (za.row a) b) hi hj
  obtain ⟨b3, h3, e3⟩ := derivativeLoop_eq hx h4 ((List.range ya.length).map fun (j : Nat) =>
    (List.range xa.length).map fun (i : Nat) =>
      at2 ((List.range xa.length).map ((fun c => (List.range ya.length).map (nodeSlope ya c)) ∘ za.row)) i j) (by
    intro c hcc
    obtain ⟨j, _, rfl⟩ := List.mem_map.1 hcc
    simp) b2 h2
  rw [List.map_map] at e3
  have hcomp := bicubicCompute.eq_1 b xa ya za
  simp only [checkSizes2D_ok hr hc (by omega) (by omega), e1, e2, e3, bind, Except.bind] at hcomp
  refine ⟨_, b3, h3, hcomp, ?_⟩
  · intro i j hi hj
    refine ⟨?_, hzy i j hi hj, ?_⟩
    · exact at2_map ya.length xa.length (fun a b => nodeSlope xa (za.col a) b) hj hi
    · have := at2_map ya.length xa.length (fun a b => nodeSlope xa ((List.range xa.length).map fun (i : Nat) =>
        at2 ((List.range xa.length).map ((fun c => (List.range ya.length).map (nodeSlope ya c)) ∘ za.row)) i a) b) hj hi
      refine this.trans ?_
      congr 1
      apply List.map_congr_left
      intro k hk
      exact hzy k j (List.mem_range.1 hk) hj

/-! ### the tensor product of splines -/

/-- The value at `x` of the natural spline of the data, on the interval `i`. -/
noncomputable def splineVal (xa ya : List K) (i : Nat) (x : K) : K :=
  (splinePiece xa ya (csplineC xa ya) i).eval x

/-- The natural splines of the columns at `x`. -/
noncomputable def colVals (xa ya : List K) (za : Mat K) (i : Nat) (x : K) : List K :=
  (List.range ya.length).map fun (k : Nat) => splineVal xa (za.col k) i x

/-- The natural splines of the rows at `y`. -/
noncomputable def rowVals (xa ya : List K) (za : Mat K) (j : Nat) (y : K) : List K :=
  (List.range xa.length).map fun (k : Nat) => splineVal ya (za.row k) j y

theorem Mat.col_length (za : Mat K) (j : Nat) : (za.col j).length = za.rows := by simp [Mat.col]
theorem Mat.row_length (za : Mat K) (i : Nat) : (za.row i).length = za.cols := by simp [Mat.row]

theorem Mat.at_col (za : Mat K) {i : Nat} (j : Nat) (hi : i < za.rows) : at' (za.col j) i = za.val i j :=
  at'_map_range _ _ hi

theorem Mat.at_row (za : Mat K) (i : Nat) {j : Nat} (hj : j < za.cols) : at' (za.row i) j = za.val i j :=
  at'_map_range _ _ hj

/-- The bicubic polynomial of the cell `(i, j)`. -/
theorem bicubicForm_splines {xa ya : List K} {za : Mat K} (hx : xa.Pairwise (· < ·))
    (hy : ya.Pairwise (· < ·)) (hr : xa.length = za.rows) (hc : ya.length = za.cols)
    {d : Derivatives K} (hd : ∀ i j, i < xa.length → j < ya.length →
        d.zx i j = nodeSlope xa (za.col j) i ∧ d.zy i j = nodeSlope ya (za.row i) j ∧
        d.zxy i j = nodeSlope xa ((List.range xa.length).map fun (k : Nat) =>
          nodeSlope ya (za.row k) j) i)
    {i j : Nat} (hi : i + 1 < xa.length) (hj : j + 1 < ya.length) (x y : K) :
    let dx := width xa i
    let dy := width ya j
    let r := bicubicForm ((x - at' xa i) / dx) ((y - at' ya j) / dy)
      (za.val i j) (za.val i (j + 1)) (za.val (i + 1) j) (za.val (i + 1) (j + 1))
      (d.zx i j * dx) (d.zx i (j + 1) * dx) (d.zx (i + 1) j * dx) (d.zx (i + 1) (j + 1) * dx)
      (d.zy i j * dy) (d.zy i (j + 1) * dy) (d.zy (i + 1) j * dy) (d.zy (i + 1) (j + 1) * dy)
      (d.zxy i j * (dx * dy)) (d.zxy i (j + 1) * (dx * dy)) (d.zxy (i + 1) j * (dx * dy))
      (d.zxy (i + 1) (j + 1) * (dx * dy))
    r = splineVal ya (colVals xa ya za i x) j y ∧ r = splineVal xa (rowVals xa ya za j y) i x := by
  intro dx dy r
  -- the slopes of the combinations
  have colAt : ∀ k, k < ya.length → splineVal xa (za.col k) i x =
      herm ((x - at' xa i) / dx) (za.val i k) (za.val (i + 1) k)
        (nodeSlope xa (za.col k) i * dx) (nodeSlope xa (za.col k) (i + 1) * dx) := by
    intro k hk
    unfold splineVal
    rw [splinePiece_herm hx (by rw [Mat.col_length, hr]) i hi, za.at_col k (by omega),
      za.at_col k (by omega)]
  have rowAt : ∀ k, k < xa.length → splineVal ya (za.row k) j y =
      herm ((y - at' ya j) / dy) (za.val k j) (za.val k (j + 1))
        (nodeSlope ya (za.row k) j * dy) (nodeSlope ya (za.row k) (j + 1) * dy) := by
    intro k hk
    unfold splineVal
    rw [splinePiece_herm hy (by rw [Mat.row_length, hc]) j hj, za.at_row k (by omega),
      za.at_row k (by omega)]
  have colSlope : ∀ l, l < ya.length → nodeSlope ya (colVals xa ya za i x) l =
      herm ((x - at' xa i) / dx) (nodeSlope ya (za.row i) l) (nodeSlope ya (za.row (i + 1)) l)
        (d.zxy i l * dx) (d.zxy (i + 1) l * dx) := by
    intro l hl
    have e : colVals xa ya za i x = (List.range ya.length).map fun (k : Nat) =>
        herm ((x - at' xa i) / dx) (za.val i k) (za.val (i + 1) k)
        (nodeSlope xa (za.col k) i * dx) (nodeSlope xa (za.col k) (i + 1) * dx) :=
      List.map_congr_left fun k hk => colAt k (List.mem_range.1 hk)
    rw [e, (rep_nodeSlope ya.length ya l).herm _ _ (fun (k : Nat) => za.val i k) (fun (k : Nat) => za.val (i + 1) k)
      (fun (k : Nat) => nodeSlope xa (za.col k) i) (fun (k : Nat) => nodeSlope xa (za.col k) (i + 1))]
    have c1 : ∀ a, a < xa.length → nodeSlope ya ((List.range ya.length).map fun (k : Nat) =>
        nodeSlope xa (za.col k) a) l = d.zxy a l := by
      intro a ha
      rw [(hd a l ha hl).2.2]
      have := (rep_nodeSlope xa.length xa a).comm (rep_nodeSlope ya.length ya l) za.val
      have h1 : ∀ k, za.col k = (List.range xa.length).map fun (i : Nat) => za.val i k := by
        intro k; rw [hr]; rfl
      have h2 : ∀ k, za.row k = (List.range ya.length).map fun (j : Nat) => za.val k j := by
        intro k; rw [hc]; rfl
      simp only [h1, h2]
      exact this.symm
    have h2 : ∀ k, (List.range ya.length).map (fun (j : Nat) => za.val k j) = za.row k := by
      intro k; rw [hc]; rfl
    rw [c1 i (by omega), c1 (i + 1) hi, h2, h2]
  have rowSlope : ∀ l, l < xa.length → nodeSlope xa (rowVals xa ya za j y) l =
      herm ((y - at' ya j) / dy) (nodeSlope xa (za.col j) l) (nodeSlope xa (za.col (j + 1)) l)
        (d.zxy l j * dy) (d.zxy l (j + 1) * dy) := by
    intro l hl
    have e : rowVals xa ya za j y = (List.range xa.length).map fun (k : Nat) =>
        herm ((y - at' ya j) / dy) (za.val k j) (za.val k (j + 1))
        (nodeSlope ya (za.row k) j * dy) (nodeSlope ya (za.row k) (j + 1) * dy) :=
      List.map_congr_left fun k hk => rowAt k (List.mem_range.1 hk)
    rw [e, (rep_nodeSlope xa.length xa l).herm _ _ (fun (k : Nat) => za.val k j) (fun (k : Nat) => za.val k (j + 1))
      (fun (k : Nat) => nodeSlope ya (za.row k) j) (fun (k : Nat) => nodeSlope ya (za.row k) (j + 1))]
    have h1 : ∀ k, (List.range xa.length).map (fun (i : Nat) => za.val i k) = za.col k := by
      intro k; rw [hr]; rfl
    rw [h1, h1, (hd l j hl (by omega)).2.2, (hd l (j + 1) hl hj).2.2]
  have colsAt : ∀ k, k < ya.length → at' (colVals xa ya za i x) k = splineVal xa (za.col k) i x :=
    fun k hk => at'_map_range _ _ hk
  have rowsAt : ∀ k, k < xa.length → at' (rowVals xa ya za j y) k = splineVal ya (za.row k) j y :=
    fun k hk => at'_map_range _ _ hk
  constructor
  · show r = (splinePiece ya (colVals xa ya za i x) _ j).eval y
    rw [splinePiece_herm hy (by simp [colVals]) j hj, colSlope j (by omega), colSlope (j + 1) hj,
      colsAt j (by omega), colsAt (j + 1) hj, colAt j (by omega), colAt (j + 1) hj]
    show bicubicForm _ _ _ _ _ _ _ _ _ _ _ _ _ _ _ _ _ _ = _
    rw [bicubicForm_xy, (hd i j (by omega) (by omega)).1, (hd i (j + 1) (by omega) hj).1,
      (hd (i + 1) j hi (by omega)).1, (hd (i + 1) (j + 1) hi hj).1,
      (hd i j (by omega) (by omega)).2.1, (hd i (j + 1) (by omega) hj).2.1,
      (hd (i + 1) j hi (by omega)).2.1, (hd (i + 1) (j + 1) hi hj).2.1]
    have hh : ∀ t a b p q w : K, herm t (a * w) (b * w) (p * w) (q * w) = herm t a b p q * w := by
      intro t a b p q w
      unfold herm
      ring
    have hm : ∀ a, a * (dx * dy) = a * dx * dy := fun a => by ring
    simp only [hm, hh]
    rfl
  · show r = (splinePiece xa (rowVals xa ya za j y) _ i).eval x
    rw [splinePiece_herm hx (by simp [rowVals]) i hi, rowSlope i (by omega), rowSlope (i + 1) hi,
      rowsAt i (by omega), rowsAt (i + 1) hi, rowAt i (by omega), rowAt (i + 1) hi]
    show bicubicForm _ _ _ _ _ _ _ _ _ _ _ _ _ _ _ _ _ _ = _
    rw [bicubicForm_yx, (hd i j (by omega) (by omega)).1, (hd i (j + 1) (by omega) hj).1,
      (hd (i + 1) j hi (by omega)).1, (hd (i + 1) (j + 1) hi hj).1,
      (hd i j (by omega) (by omega)).2.1, (hd i (j + 1) (by omega) hj).2.1,
      (hd (i + 1) j hi (by omega)).2.1, (hd (i + 1) (j + 1) hi hj).2.1]
    have hh : ∀ t a b p q w : K, herm t (a * w) (b * w) (p * w) (q * w) = herm t a b p q * w := by
      intro t a b p q w
      unfold herm
      ring
    have hm : ∀ a, a * (dx * dy) = a * dy * dx := fun a => by ring
    simp only [hm, hh]
    rfl

theorem Mat.rd_ok (za : Mat K) {i j : Nat} (hi : i < za.rows) (hj : j < za.cols) :
    za.rd i j = .ok (za.val i j) := if_pos ⟨hi, hj⟩

/-- `Bicubic` on the cell found by the two searches. -/
theorem bicubic_at {b : Buf K} (hb : CSplineReach b) {xa ya : List K} {za : Mat K}
    (hx : xa.Pairwise (· < ·)) (hy : ya.Pairwise (· < ·)) (hr : xa.length = za.rows)
    (hc : ya.length = za.cols) (h4 : 4 ≤ xa.length) (h4' : 4 ≤ ya.length) {i j : Nat}
    (hi : i + 1 < xa.length) (hj : j + 1 < ya.length) {x y : K}
    (hsx : search xa x = some (i, i + 1)) (hsy : search ya y = some (j, j + 1))
    (same : Nat → Nat → Bool) (junk : Nat → K) :
    splineVal ya (colVals xa ya za i x) j y = splineVal xa (rowVals xa ya za j y) i x ∧
    ∃ b', CSplineReach b' ∧ (Obj2D.bicubic b).call same junk xa ya za x y =
      .ok (some (splineVal ya (colVals xa ya za i x) j y), .bicubic b') := by
  obtain ⟨d, b', hb', e, hd⟩ := bicubicCompute_eq hb hx hy hr hc h4 h4'
  obtain ⟨f1, f2⟩ := bicubicForm_splines hx hy hr hc hd hi hj x y
  refine ⟨f1.symm.trans f2, b', hb', ?_⟩
  simp only [Obj2D.call, e, bind, Except.bind, bicubicEval, hsx, hsy]
  rw [rd_eq (by omega : i < xa.length), rd_eq hi, rd_eq (by omega : j < ya.length), rd_eq hj,
    za.rd_ok (by omega) (by omega), za.rd_ok (by omega) (by omega), za.rd_ok (by omega) (by omega),
    za.rd_ok (by omega) (by omega)]
  simp only
  rw [← f1]
  simp only [width, at'_eq hi, at'_eq hj, at'_eq (by omega : i < xa.length),
    at'_eq (by omega : j < ya.length)]

theorem cspline_call {b : Buf K} (hb : CSplineReach b) {xa ya : List K} (hl : xa.length = ya.length)
    (h4 : 4 ≤ xa.length) {i : Nat} (hi : i + 1 < xa.length) {x : K}
    (hsx : search xa x = some (i, i + 1)) (same : Nat → Nat → Bool) (junk : Nat → K) :
    ∃ b', CSplineReach b' ∧ (Obj.cspline b).call same junk xa ya x =
      .ok (some (splineVal xa ya i x), .cspline b') := by
  obtain ⟨b', e, hb'⟩ := csplineCompute_eq b xa ya hb hl h4
  refine ⟨b', .call xa ya hb e, ?_⟩
  obtain ⟨a1, _⟩ := spline_at hl hb' hi hsx
  simp only [Obj.call, cspline, e, bind, Except.bind, a1]
  rfl

theorem cspline_columns {xa : List K} (h4 : 4 ≤ xa.length) {i : Nat} (hi : i + 1 < xa.length) {x : K}
    (hsx : search xa x = some (i, i + 1)) (same : Nat → Nat → Bool) (junk : Nat → K)
    (cs : List (List K)) (hc : ∀ c ∈ cs, xa.length = c.length) (b : Buf K) (hb : CSplineReach b) :
    ∃ b', CSplineReach b' ∧ columnLoop same junk xa x (.cspline b) cs =
      .ok (cs.map fun c => splineVal xa c i x, .cspline b') := by
  induction cs generalizing b with
  | nil => exact ⟨b, hb, rfl⟩
  | cons c cs ih =>
    obtain ⟨b1, h1, e1⟩ := cspline_call hb (hc c (by simp)) h4 hi hsx same junk
    obtain ⟨b2, h2, e2⟩ := ih (fun d hd => hc d (by simp [hd])) b1 h1
    refine ⟨b2, h2, ?_⟩
    simp only [columnLoop, e1, e2, bind, Except.bind, List.map_cons, noNan]

/-- `Spline2D` with cubic splines on the cell found by the two searches. -/
theorem spline2D_at {b c : Buf K} (hb : CSplineReach b) (hcr : CSplineReach c) {xa ya : List K} {za : Mat K}
    (hr : xa.length = za.rows)
    (hc : ya.length = za.cols) (h4 : 4 ≤ xa.length) (h4' : 4 ≤ ya.length) {i j : Nat}
    (hi : i + 1 < xa.length) (hj : j + 1 < ya.length) {x y : K}
    (hsx : search xa x = some (i, i + 1)) (hsy : search ya y = some (j, j + 1))
    (same : Nat → Nat → Bool) (junk : Nat → K) :
    ∃ b' c', CSplineReach b' ∧ CSplineReach c' ∧
      (Obj2D.spline (.cspline b) (.cspline c)).call same junk xa ya za x y =
      .ok (some (splineVal ya (colVals xa ya za i x) j y), .spline (.cspline b') (.cspline c')) := by
  obtain ⟨b', hb', e1⟩ := cspline_columns h4 hi hsx same junk ((List.range ya.length).map za.col) (by
    intro c hcc
    obtain ⟨j, _, rfl⟩ := List.mem_map.1 hcc
    rw [za.col_length, hr]) b hb
  rw [List.map_map] at e1
  obtain ⟨c', hc', e2⟩ := cspline_call (ya := colVals xa ya za i x) hcr (by simp [colVals]) h4' hj hsy same junk
  refine ⟨b', c', hb', hc', ?_⟩
  simp only [Obj2D.call, e1, bind, Except.bind]
  have : (List.range ya.length).map ((fun c => splineVal xa c i x) ∘ za.col) = colVals xa ya za i x := rfl
  rw [this, e2]

end
end Pyinterp.Interp
