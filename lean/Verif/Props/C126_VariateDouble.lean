import Verif.Model.DoubleVariate
import Verif.Spec.Multilinear
import Verif.Props.C125_CircleDouble

/-
C126: interpolation of grids of three and four dimensions with the rounding of every operation.
-/
namespace Pyinterp.Double

open Spec Pyinterp Variate

theorem arr_value {a : Arr ℚ} {idx : List ℤ} {shape : List ℕ} (hs : a.shape = shape) (hl : idx.length = shape.length)
    (h : ∀ p ∈ idx.zip shape, 0 ≤ p.1 ∧ p.1 < (p.2 : ℤ)) : a.value idx = .ok (a.at' (idx.map Int.toNat)) := by
  unfold Arr.value
  rw [hs, if_pos ⟨hl, h⟩]

theorem abs_lerp {t a b M : ℚ} (h0 : 0 ≤ t) (h1 : t ≤ 1) (ha : |a| ≤ M) (hb : |b| ≤ M) : |lerp t a b| ≤ M := by
  unfold lerp
  calc _ ≤ |(1 - t) * a| + |t * b| := abs_add_le _ _
    _ = (1 - t) * |a| + t * |b| := by rw [abs_mul, abs_mul, abs_of_nonneg h0, abs_of_nonneg (by linarith : 0 ≤ 1 - t)]
    _ ≤ (1 - t) * M + t * M := add_le_add (mul_le_mul_of_nonneg_left ha (by linarith)) (mul_le_mul_of_nonneg_left hb h0)
    _ = M := by ring

theorem lerp_sub (t a b c d : ℚ) : lerp t a b - lerp t c d = lerp t (a - c) (b - d) := by unfold lerp; ring

theorem frac_unit {c a b : ℚ} (hne : a ≠ b) (h : (a ≤ c ∧ c ≤ b) ∨ (b ≤ c ∧ c ≤ a)) : 0 ≤ frac c a b ∧ frac c a b ≤ 1 := by
  unfold frac
  rcases lt_or_gt_of_ne hne with hl | hl
  · have : 0 < b - a := by linarith
    rw [le_div_iff₀ this, div_le_iff₀ this]
    rcases h with ⟨h1, h2⟩ | ⟨h1, h2⟩ <;> constructor <;> linarith
  · have : 0 < a - b := by linarith
    have e : (c - a) / (b - a) = (a - c) / (a - b) := by rw [← neg_sub a c, ← neg_sub a b, neg_div_neg_eq]
    rw [e, le_div_iff₀ this, div_le_iff₀ this]
    rcases h with ⟨h1, h2⟩ | ⟨h1, h2⟩ <;> constructor <;> linarith

theorem Framed.unit {a : Ax} {c p q : ℚ} {i j : ℤ} (f : Framed a c i j p q) : 0 ≤ frac c p q ∧ frac c p q ≤ 1 :=
  frac_unit f.ne f.holds

/-- Neighbouring coordinates of the axis are at least `2^-1010` apart. -/
def Apart (a : Ax) : Prop :=
  ∀ i p q, a.cont.coord i = .ok p → a.cont.coord (i + 1) = .ok q → 2 ^ (-1010 : ℤ) ≤ |q - p|

theorem Framed.gap {a : Ax} (h : Apart a) {c p q : ℚ} {i j : ℤ} (f : Framed a c i j p q) : 2 ^ (-1010 : ℤ) ≤ |q - p| := by
  rcases f.next with rfl | rfl
  · exact h _ _ _ f.coord.1 f.coord.2
  · rw [abs_sub_comm]; exact h _ _ _ f.coord.2 f.coord.1

theorem bil_eq (t u : ℚ) (V : ℕ → ℕ → ℚ) (i0 i1 j0 j1 : ℕ) :
    bil t u V i0 i1 j0 j1 =
      (1 - t) * (1 - u) * V i0 j0 + t * (1 - u) * V i1 j0 + (1 - t) * u * V i0 j1 + t * u * V i1 j1 := by
  unfold bil lerp; ring

theorem abs_bil {t u M : ℚ} {V : ℕ → ℕ → ℚ} {i0 i1 j0 j1 : ℕ} (ht : 0 ≤ t ∧ t ≤ 1) (hu : 0 ≤ u ∧ u ≤ 1)
    (h : ∀ i j, (i = i0 ∨ i = i1) → (j = j0 ∨ j = j1) → |V i j| ≤ M) : |bil t u V i0 i1 j0 j1| ≤ M := by
  unfold bil
  exact abs_lerp hu.1 hu.2 (abs_lerp ht.1 ht.2 (h _ _ (by simp) (by simp)) (h _ _ (by simp) (by simp)))
    (abs_lerp ht.1 ht.2 (h _ _ (by simp) (by simp)) (h _ _ (by simp) (by simp)))

/-- The linear interpolation of two values that are known up to `E`. -/
theorem linear_err {x x0 x1 a b A B M E : ℚ} (hx0 : IsDouble x0) (hx1 : IsDouble x1) (hne : x0 ≠ x1)
    (hb : (x0 ≤ x ∧ x ≤ x1) ∨ (x1 ≤ x ∧ x ≤ x0)) (hg : 2 ^ (-1010 : ℤ) ≤ |x1 - x0|) (ha : IsDouble a) (hb' : IsDouble b)
    (hM : 2 ^ (-1000 : ℤ) ≤ M) (hA : |A| ≤ M) (hB : |B| ≤ M) (eA : |a - A| ≤ E) (eB : |b - B| ≤ E) (hE : E ≤ M) :
    ∃ r, oLinear x x0 x1 (some a) (some b) = some r ∧ IsDouble r ∧
      |r - lerp (frac x x0 x1) A B| ≤ E + M * 2 ^ (-47 : ℤ) := by
  have hM0 : 0 < M := lt_of_lt_of_le (two_zpow_pos _) hM
  have dx : sub x1 x0 ≠ 0 := fun h => hne ((sub_zero_iff hx1 hx0).1 h).symm
  have ba : |a| ≤ 2 * M := by
    calc |a| = |(a - A) + A| := by ring_nf
      _ ≤ _ := abs_add_le _ _
      _ ≤ _ := by linarith
  have bb : |b| ≤ 2 * M := by
    calc |b| = |(b - B) + B| := by ring_nf
      _ ≤ _ := abs_add_le _ _
      _ ≤ _ := by linarith
  obtain ⟨r, hr, er⟩ := (C123_linear hx0 hx1 ha hb' hne).2.2 x (2 * M) hb hg ba bb (by linarith)
  have ho : oLinear x x0 x1 (some a) (some b) = some r := by
    unfold oLinear
    rw [if_neg dx]
    exact hr
  refine ⟨r, ho, ?_, ?_⟩
  · unfold linear at hr
    simp only [if_neg dx, Option.some.injEq] at hr
    rw [← hr]
    exact isDouble_fl _
  · obtain ⟨t0, t1⟩ := frac_unit hne hb
    have e1 : a + (x - x0) / (x1 - x0) * (b - a) = lerp (frac x x0 x1) a b := by unfold lerp frac; ring
    rw [e1] at er
    have e2 : |lerp (frac x x0 x1) a b - lerp (frac x x0 x1) A B| ≤ E := by
      rw [lerp_sub]; exact abs_lerp t0 t1 eA eB
    calc _ = |(r - lerp (frac x x0 x1) a b) + (lerp (frac x x0 x1) a b - lerp (frac x x0 x1) A B)| := by ring_nf
      _ ≤ _ := abs_add_le _ _
      _ ≤ 2 * M * 2 ^ (-48 : ℤ) + E := add_le_add er e2
      _ = _ := by norm_num; ring

/-- A grid of three dimensions: axes built by the constructors, an array of their sizes, the values of which are the doubles
`V i j k`. -/
structure OnAxes3 (g : AxGrid3) (V : ℕ → ℕ → ℕ → ℚ) : Prop where
  x : Built g.x
  y : Built g.y
  z : Built g.z
  shape : g.arr.shape = [g.x.cont.size.toNat, g.y.cont.size.toNat, g.z.cont.size.toNat]
  values : ∀ i j k : ℕ, (i : ℤ) < g.x.cont.size → (j : ℤ) < g.y.cont.size → (k : ℤ) < g.z.cont.size →
    g.arr.at' [i, j, k] = some (V i j k) ∧ IsDouble (V i j k)

/-- The two planes of a cell. -/
theorem cell_planes {arr : Arr ℚ} {rest : List ℤ} {shape : List ℕ} {nx ny nz : ℤ} {V : ℕ → ℕ → ℕ → ℚ}
    (hs : arr.shape = [nx.toNat, ny.toNat, nz.toNat] ++ shape) (hl : rest.length = shape.length)
    (hr : ∀ p ∈ rest.zip shape, 0 ≤ p.1 ∧ p.1 < (p.2 : ℤ))
    (hv : ∀ i j k : ℕ, (i : ℤ) < nx → (j : ℤ) < ny → (k : ℤ) < nz →
      arr.at' ([i, j, k] ++ rest.map Int.toNat) = some (V i j k)) {i0 i1 j0 j1 k0 k1 : ℤ}
    (bi0 : 0 ≤ i0 ∧ i0 < nx) (bi1 : 0 ≤ i1 ∧ i1 < nx) (bj0 : 0 ≤ j0 ∧ j0 < ny) (bj1 : 0 ≤ j1 ∧ j1 < ny)
    (bk0 : 0 ≤ k0 ∧ k0 < nz) (bk1 : 0 ≤ k1 ∧ k1 < nz) (zm : ZMethod) (p p0 p1 : ℚ × ℚ) (z z0 z1 : ℚ) :
    cell3 zm arr rest p p0 p1 z z0 z1 i0 i1 j0 j1 k0 k1 =
      .ok (oMethod zm z z0 z1
        (some (bilinear p p0 p1 (V i0.toNat j0.toNat k0.toNat) (V i0.toNat j1.toNat k0.toNat) (V i1.toNat j0.toNat k0.toNat)
          (V i1.toNat j1.toNat k0.toNat)))
        (some (bilinear p p0 p1 (V i0.toNat j0.toNat k1.toNat) (V i0.toNat j1.toNat k1.toNat) (V i1.toNat j0.toNat k1.toNat)
          (V i1.toNat j1.toNat k1.toNat)))) := by
  have val : ∀ {i j k : ℤ}, 0 ≤ i ∧ i < nx → 0 ≤ j ∧ j < ny → 0 ≤ k ∧ k < nz →
      arr.value ([i, j, k] ++ rest) = .ok (some (V i.toNat j.toNat k.toNat)) := by
    intro i j k bi bj bk
    rw [arr_value hs (by simp [hl])]
    · rw [List.map_append]
      have := hv i.toNat j.toNat k.toNat (by omega) (by omega) (by omega)
      rw [← this]; rfl
    · intro p hp
      simp only [List.cons_append, List.nil_append, List.zip_cons_cons, List.mem_cons] at hp
      rcases hp with rfl | rfl | rfl | hp
      · simp only; omega
      · simp only; omega
      · simp only; omega
      · exact hr p hp
  unfold cell3
  simp only [val bi0 bj0 bk0, val bi0 bj1 bk0, val bi1 bj0 bk0, val bi1 bj1 bk0, val bi0 bj0 bk1, val bi0 bj1 bk1,
    val bi1 bj0 bk1, val bi1 bj1 bk1, bind, Except.bind]
  rfl

theorem bilinear_double (p p0 p1 : ℚ × ℚ) (a b c d : ℚ) : IsDouble (bilinear p p0 p1 a b c d) := isDouble_fl _

/-- The bilinear interpolation in a plane of a cell. -/
theorem plane_err {ax ay : Ax} {x y x0 x1 y0 y1 M : ℚ} {i0 i1 j0 j1 : ℤ} (fx : Framed ax x i0 i1 x0 x1)
    (fy : Framed ay y j0 j1 y0 y1) (gx : Apart ax) (gy : Apart ay) (hM : 2 ^ (-1022 : ℤ) ≤ M) {V : ℕ → ℕ → ℚ}
    (hV : ∀ i j : ℕ, (i : ℤ) < ax.cont.size → (j : ℤ) < ay.cont.size → |V i j| ≤ M) :
    |bilinear (x, y) (x0, y0) (x1, y1) (V i0.toNat j0.toNat) (V i0.toNat j1.toNat) (V i1.toNat j0.toNat) (V i1.toNat j1.toNat)
      - bil (frac x x0 x1) (frac y y0 y1) V i0.toNat i1.toNat j0.toNat j1.toNat| ≤ M * 2 ^ (-47 : ℤ) ∧
    |bil (frac x x0 x1) (frac y y0 y1) V i0.toNat i1.toNat j0.toNat j1.toNat| ≤ M := by
  have bi0 := fx.left
  have bi1 := fx.right
  have bj0 := fy.left
  have bj1 := fy.right
  constructor
  · rw [bil_eq]
    exact C123_bilinear_error fx.holds fy.holds (fx.gap gx) (fy.gap gy) (hV _ _ (by omega) (by omega))
      (hV _ _ (by omega) (by omega)) (hV _ _ (by omega) (by omega)) (hV _ _ (by omega) (by omega)) hM
  · apply abs_bil fx.unit fy.unit
    rintro i j (rfl | rfl) (rfl | rfl) <;> exact hV _ _ (by omega) (by omega)

/-- The linear interpolation between the two planes of a cell. -/
theorem cell_err {ax ay az : Ax} (bz : Built az) {x y z x0 x1 y0 y1 z0 z1 M : ℚ} {i0 i1 j0 j1 k0 k1 : ℤ}
    (fx : Framed ax x i0 i1 x0 x1) (fy : Framed ay y j0 j1 y0 y1) (fz : Framed az z k0 k1 z0 z1) (gx : Apart ax) (gy : Apart ay)
    (gz : Apart az) (hM : 2 ^ (-1000 : ℤ) ≤ M) {V : ℕ → ℕ → ℕ → ℚ}
    (hV : ∀ i j k : ℕ, (i : ℤ) < ax.cont.size → (j : ℤ) < ay.cont.size → (k : ℤ) < az.cont.size → |V i j k| ≤ M) :
    ∃ r, oMethod .linear z z0 z1
        (some (bilinear (x, y) (x0, y0) (x1, y1) (V i0.toNat j0.toNat k0.toNat) (V i0.toNat j1.toNat k0.toNat)
          (V i1.toNat j0.toNat k0.toNat) (V i1.toNat j1.toNat k0.toNat)))
        (some (bilinear (x, y) (x0, y0) (x1, y1) (V i0.toNat j0.toNat k1.toNat) (V i0.toNat j1.toNat k1.toNat)
          (V i1.toNat j0.toNat k1.toNat) (V i1.toNat j1.toNat k1.toNat))) = some r ∧ IsDouble r ∧
      |r - tri (frac x x0 x1) (frac y y0 y1) (frac z z0 z1) V i0.toNat i1.toNat j0.toNat j1.toNat k0.toNat k1.toNat|
        ≤ M * 2 ^ (-46 : ℤ) ∧
      |tri (frac x x0 x1) (frac y y0 y1) (frac z z0 z1) V i0.toNat i1.toNat j0.toNat j1.toNat k0.toNat k1.toNat| ≤ M := by
  have hM' : (2 : ℚ) ^ (-1022 : ℤ) ≤ M := (zpow_le_zpow_right₀ (by norm_num) (by norm_num)).trans hM
  have hM0 : 0 < M := lt_of_lt_of_le (two_zpow_pos _) hM
  have bk0 := fz.left
  have bk1 := fz.right
  obtain ⟨e0, m0⟩ := plane_err fx fy gx gy hM' (V := fun i j => V i j k0.toNat) (fun i j hi hj => hV i j _ hi hj (by omega))
  obtain ⟨e1, m1⟩ := plane_err fx fy gx gy hM' (V := fun i j => V i j k1.toNat) (fun i j hi hj => hV i j _ hi hj (by omega))
  obtain ⟨d0, d1⟩ := fz.doubles bz
  obtain ⟨r, hr, dr, er⟩ := linear_err d0 d1 fz.ne fz.holds (fz.gap gz) (bilinear_double _ _ _ _ _ _ _)
    (bilinear_double _ _ _ _ _ _ _) hM m0 m1 e0 e1 (by norm_num; linarith)
  refine ⟨r, hr, dr, ?_, abs_lerp fz.unit.1 fz.unit.2 m0 m1⟩
  refine le_trans er (le_of_eq ?_)
  norm_num; ring

/-- **C126**: at a point between the bounds of the axes, the interpolation of a grid of three dimensions (bilinear in x and y,
linear in z) is the exact trilinear interpolation of the eight values of the cell that holds the point, up to 2^-46 times the
greatest value. -/
theorem C126_grid3_value {g : AxGrid3} {V : ℕ → ℕ → ℕ → ℚ} (h : OnAxes3 g V) {M : ℚ} (hM : 2 ^ (-1000 : ℤ) ≤ M)
    (hV : ∀ i j k : ℕ, (i : ℤ) < g.x.cont.size → (j : ℤ) < g.y.cont.size → (k : ℤ) < g.z.cont.size → |V i j k| ≤ M)
    (gx : Apart g.x) (gy : Apart g.y) (gz : Apart g.z) {x y z : ℚ} (px : Plain g.x x) (py : Plain g.y y) (pz : Plain g.z z)
    (be : Bool) :
    ∃ (i0 i1 j0 j1 k0 k1 : ℕ) (x0 x1 y0 y1 z0 z1 r : ℚ), Framed g.x x i0 i1 x0 x1 ∧ Framed g.y y j0 j1 y0 y1 ∧
      Framed g.z z k0 k1 z0 z1 ∧ trivariateAx .linear g x y z be = .ok (some r) ∧
      |r - tri (frac x x0 x1) (frac y y0 y1) (frac z z0 z1) V i0 i1 j0 j1 k0 k1| ≤ M * 2 ^ (-46 : ℤ) := by
  obtain ⟨i0, i1, x0, x1, ex, fx, nx⟩ := px.frame h.x
  obtain ⟨j0, j1, y0, y1, ey, fy, -⟩ := py.frame h.y
  obtain ⟨k0, k1, z0, z1, ez, fz, -⟩ := pz.frame h.z
  obtain ⟨r, hr, -, er, -⟩ := cell_err h.z fx fy fz gx gy gz hM hV
  have ti0 : ((i0.toNat : ℕ) : ℤ) = i0 := Int.toNat_of_nonneg fx.left.1
  have ti1 : ((i1.toNat : ℕ) : ℤ) = i1 := Int.toNat_of_nonneg fx.right.1
  have tj0 : ((j0.toNat : ℕ) : ℤ) = j0 := Int.toNat_of_nonneg fy.left.1
  have tj1 : ((j1.toNat : ℕ) : ℤ) = j1 := Int.toNat_of_nonneg fy.right.1
  have tk0 : ((k0.toNat : ℕ) : ℤ) = k0 := Int.toNat_of_nonneg fz.left.1
  have tk1 : ((k1.toNat : ℕ) : ℤ) = k1 := Int.toNat_of_nonneg fz.right.1
  refine ⟨i0.toNat, i1.toNat, j0.toNat, j1.toNat, k0.toNat, k1.toNat, x0, x1, y0, y1, z0, z1, r, by rw [ti0, ti1]; exact fx,
    by rw [tj0, tj1]; exact fy, by rw [tk0, tk1]; exact fz, ?_, er⟩
  unfold trivariateAx
  rw [ex, ey, ez]
  simp only [bind, Except.bind, fx.coord.1, fx.coord.2, fy.coord.1, fy.coord.2, fz.coord.1, fz.coord.2, nx]
  rw [cell_planes (shape := []) (by simpa using h.shape) rfl (by simp)
    (fun i j k hi hj hk => by simpa using (h.values i j k hi hj hk).1) fx.left fx.right fy.left fy.right fz.left fz.right, hr]

/-- The bilinear interpolation at a corner of the cell. -/
theorem plane_node {ax ay : Ax} (bx : Built ax) (by' : Built ay) {x y x0 x1 y0 y1 : ℚ} {i0 i1 j0 j1 : ℤ}
    (fx : Framed ax x i0 i1 x0 x1) (fy : Framed ay y j0 j1 y0 y1) {V : ℕ → ℕ → ℚ}
    (hV : ∀ i j : ℕ, (i : ℤ) < ax.cont.size → (j : ℤ) < ay.cont.size → IsDouble (V i j)) {i j : ℕ}
    (hi : (i : ℤ) < ax.cont.size) (hj : (j : ℤ) < ay.cont.size) (cx : ax.cont.coord i = .ok x) (cy : ay.cont.coord j = .ok y) :
    bilinear (x, y) (x0, y0) (x1, y1) (V i0.toNat j0.toNat) (V i0.toNat j1.toNat) (V i1.toNat j0.toNat) (V i1.toNat j1.toNat)
      = V i j := by
  have bi0 := fx.left
  have bi1 := fx.right
  have bj0 := fy.left
  have bj1 := fy.right
  obtain ⟨dx0, dx1⟩ := fx.doubles bx
  obtain ⟨dy0, dy1⟩ := fy.doubles by'
  obtain ⟨c00, c01, c10, c11⟩ := C123_bilinear_corners dx0 dx1 dy0 dy1 fx.ne fy.ne
    (hV i0.toNat j0.toNat (by omega) (by omega)) (hV i0.toNat j1.toNat (by omega) (by omega))
    (hV i1.toNat j0.toNat (by omega) (by omega)) (hV i1.toNat j1.toNat (by omega) (by omega))
  rcases fx.node bx (by omega) hi cx with ⟨w, rfl⟩ | ⟨w, rfl⟩ <;> rcases fy.node by' (by omega) hj cy with ⟨w', rfl⟩ | ⟨w', rfl⟩
  · rw [c00, w, w']; rfl
  · rw [c01, w, w']; rfl
  · rw [c10, w, w']; rfl
  · rw [c11, w, w']; rfl

/-- The linear interpolation at a coordinate of the axis. -/
theorem line_node {az : Ax} (bz : Built az) {z z0 z1 : ℚ} {k0 k1 : ℤ} (fz : Framed az z k0 k1 z0 z1) {W : ℕ → ℚ}
    (hW : ∀ k : ℕ, (k : ℤ) < az.cont.size → IsDouble (W k)) {k : ℕ} (hk : (k : ℤ) < az.cont.size)
    (cz : az.cont.coord k = .ok z) : oMethod .linear z z0 z1 (some (W k0.toNat)) (some (W k1.toNat)) = some (W k) := by
  have bk0 := fz.left
  have bk1 := fz.right
  obtain ⟨d0, d1⟩ := fz.doubles bz
  have dx : sub z1 z0 ≠ 0 := fun h => fz.ne ((sub_zero_iff d1 d0).1 h).symm
  have hl : oMethod .linear z z0 z1 (some (W k0.toNat)) (some (W k1.toNat)) = linear z z0 z1 (W k0.toNat) (W k1.toNat) := by
    show oLinear _ _ _ _ _ = _
    unfold oLinear
    rw [if_neg dx]; rfl
  obtain ⟨l0, l1, -⟩ := C123_linear d0 d1 (hW k0.toNat (by omega)) (hW k1.toNat (by omega)) fz.ne
  rw [hl]
  rcases fz.node bz (by omega) hk cz with ⟨w, rfl⟩ | ⟨w, rfl⟩
  · rw [l0, w]; rfl
  · rw [l1, w]; rfl

/-- **C126**: the interpolation at a point of a grid of three dimensions is exactly the value of the array. -/
theorem C126_grid3_node {g : AxGrid3} {V : ℕ → ℕ → ℕ → ℚ} (h : OnAxes3 g V) {i j k : ℕ} (hi : (i : ℤ) < g.x.cont.size)
    (hj : (j : ℤ) < g.y.cont.size) (hk : (k : ℤ) < g.z.cont.size) {x y z : ℚ} (cx : g.x.cont.coord i = .ok x)
    (cy : g.y.cont.coord j = .ok y) (cz : g.z.cont.coord k = .ok z) (px : Plain g.x x) (py : Plain g.y y) (pz : Plain g.z z)
    (be : Bool) : trivariateAx .linear g x y z be = .ok (some (V i j k)) := by
  obtain ⟨i0, i1, x0, x1, ex, fx, nx⟩ := px.frame h.x
  obtain ⟨j0, j1, y0, y1, ey, fy, -⟩ := py.frame h.y
  obtain ⟨k0, k1, z0, z1, ez, fz, -⟩ := pz.frame h.z
  have bk0 := fz.left
  have bk1 := fz.right
  unfold trivariateAx
  rw [ex, ey, ez]
  simp only [bind, Except.bind, fx.coord.1, fx.coord.2, fy.coord.1, fy.coord.2, fz.coord.1, fz.coord.2, nx]
  rw [cell_planes (shape := []) (by simpa using h.shape) rfl (by simp)
    (fun i j k hi hj hk => by simpa using (h.values i j k hi hj hk).1) fx.left fx.right fy.left fy.right fz.left fz.right]
  rw [plane_node h.x h.y fx fy (V := fun i j => V i j k0.toNat) (fun i j hi hj => (h.values i j _ hi hj (by omega)).2) hi hj cx cy,
    plane_node h.x h.y fx fy (V := fun i j => V i j k1.toNat) (fun i j hi hj => (h.values i j _ hi hj (by omega)).2) hi hj cx cy,
    line_node h.z fz (W := fun k => V i j k) (fun k hk => (h.values i j k hi hj hk).2) hk cz]

/-- A grid of four dimensions. -/
structure OnAxes4 (g : AxGrid4) (V : ℕ → ℕ → ℕ → ℕ → ℚ) : Prop where
  x : Built g.x
  y : Built g.y
  z : Built g.z
  u : Built g.u
  shape : g.arr.shape = [g.x.cont.size.toNat, g.y.cont.size.toNat, g.z.cont.size.toNat, g.u.cont.size.toNat]
  values : ∀ i j k l : ℕ, (i : ℤ) < g.x.cont.size → (j : ℤ) < g.y.cont.size → (k : ℤ) < g.z.cont.size →
    (l : ℤ) < g.u.cont.size → g.arr.at' [i, j, k, l] = some (V i j k l) ∧ IsDouble (V i j k l)

theorem OnAxes4.planes {g : AxGrid4} {V : ℕ → ℕ → ℕ → ℕ → ℚ} (h : OnAxes4 g V) {x y z x0 x1 y0 y1 z0 z1 : ℚ}
    {i0 i1 j0 j1 k0 k1 l : ℤ} (fx : Framed g.x x i0 i1 x0 x1) (fy : Framed g.y y j0 j1 y0 y1) (fz : Framed g.z z k0 k1 z0 z1)
    (hl : 0 ≤ l ∧ l < g.u.cont.size) (zm : ZMethod) (p p0 p1 : ℚ × ℚ) :
    cell3 zm g.arr [l] p p0 p1 z z0 z1 i0 i1 j0 j1 k0 k1 =
      .ok (oMethod zm z z0 z1
        (some (bilinear p p0 p1 (V i0.toNat j0.toNat k0.toNat l.toNat) (V i0.toNat j1.toNat k0.toNat l.toNat)
          (V i1.toNat j0.toNat k0.toNat l.toNat) (V i1.toNat j1.toNat k0.toNat l.toNat)))
        (some (bilinear p p0 p1 (V i0.toNat j0.toNat k1.toNat l.toNat) (V i0.toNat j1.toNat k1.toNat l.toNat)
          (V i1.toNat j0.toNat k1.toNat l.toNat) (V i1.toNat j1.toNat k1.toNat l.toNat)))) := by
  refine cell_planes (shape := [g.u.cont.size.toNat]) (V := fun i j k => V i j k l.toNat) (by simpa using h.shape) rfl ?_ ?_
    fx.left fx.right fy.left fy.right fz.left fz.right zm p p0 p1 z z0 z1
  · intro p hp
    simp only [List.zip_cons_cons, List.zip_nil_right, List.mem_cons, List.not_mem_nil, or_false] at hp
    subst hp
    simp only; omega
  · intro i j k hi hj hk
    exact (h.values i j k l.toNat hi hj hk (by omega)).1

/-- **C126**: the same in four dimensions, up to 2^-45 times the greatest value. -/
theorem C126_grid4_value {g : AxGrid4} {V : ℕ → ℕ → ℕ → ℕ → ℚ} (h : OnAxes4 g V) {M : ℚ} (hM : 2 ^ (-1000 : ℤ) ≤ M)
    (hV : ∀ i j k l : ℕ, (i : ℤ) < g.x.cont.size → (j : ℤ) < g.y.cont.size → (k : ℤ) < g.z.cont.size →
      (l : ℤ) < g.u.cont.size → |V i j k l| ≤ M)
    (gx : Apart g.x) (gy : Apart g.y) (gz : Apart g.z) (gu : Apart g.u) {x y z u : ℚ} (px : Plain g.x x) (py : Plain g.y y)
    (pz : Plain g.z z) (pu : Plain g.u u) (be : Bool) :
    ∃ (i0 i1 j0 j1 k0 k1 l0 l1 : ℕ) (x0 x1 y0 y1 z0 z1 u0 u1 r : ℚ), Framed g.x x i0 i1 x0 x1 ∧ Framed g.y y j0 j1 y0 y1 ∧
      Framed g.z z k0 k1 z0 z1 ∧ Framed g.u u l0 l1 u0 u1 ∧ quadrivariateAx .linear .linear g x y z u be = .ok (some r) ∧
      |r - quad (frac x x0 x1) (frac y y0 y1) (frac z z0 z1) (frac u u0 u1) V i0 i1 j0 j1 k0 k1 l0 l1| ≤ M * 2 ^ (-45 : ℤ) := by
  obtain ⟨i0, i1, x0, x1, ex, fx, nx⟩ := px.frame h.x
  obtain ⟨j0, j1, y0, y1, ey, fy, -⟩ := py.frame h.y
  obtain ⟨k0, k1, z0, z1, ez, fz, -⟩ := pz.frame h.z
  obtain ⟨l0, l1, u0, u1, eu, fu, -⟩ := pu.frame h.u
  have bl0 := fu.left
  have bl1 := fu.right
  have hM0 : 0 < M := lt_of_lt_of_le (two_zpow_pos _) hM
  obtain ⟨r0, hr0, dr0, er0, m0⟩ := cell_err h.z fx fy fz gx gy gz hM (V := fun i j k => V i j k l0.toNat)
    (fun i j k hi hj hk => hV i j k _ hi hj hk (by omega))
  obtain ⟨r1, hr1, dr1, er1, m1⟩ := cell_err h.z fx fy fz gx gy gz hM (V := fun i j k => V i j k l1.toNat)
    (fun i j k hi hj hk => hV i j k _ hi hj hk (by omega))
  obtain ⟨d0, d1⟩ := fu.doubles h.u
  obtain ⟨r, hr, -, er⟩ := linear_err d0 d1 fu.ne fu.holds (fu.gap gu) dr0 dr1 hM m0 m1 er0 er1 (by norm_num; linarith)
  have ti0 : ((i0.toNat : ℕ) : ℤ) = i0 := Int.toNat_of_nonneg fx.left.1
  have ti1 : ((i1.toNat : ℕ) : ℤ) = i1 := Int.toNat_of_nonneg fx.right.1
  have tj0 : ((j0.toNat : ℕ) : ℤ) = j0 := Int.toNat_of_nonneg fy.left.1
  have tj1 : ((j1.toNat : ℕ) : ℤ) = j1 := Int.toNat_of_nonneg fy.right.1
  have tk0 : ((k0.toNat : ℕ) : ℤ) = k0 := Int.toNat_of_nonneg fz.left.1
  have tk1 : ((k1.toNat : ℕ) : ℤ) = k1 := Int.toNat_of_nonneg fz.right.1
  have tl0 : ((l0.toNat : ℕ) : ℤ) = l0 := Int.toNat_of_nonneg fu.left.1
  have tl1 : ((l1.toNat : ℕ) : ℤ) = l1 := Int.toNat_of_nonneg fu.right.1
  refine ⟨i0.toNat, i1.toNat, j0.toNat, j1.toNat, k0.toNat, k1.toNat, l0.toNat, l1.toNat, x0, x1, y0, y1, z0, z1, u0, u1, r,
    by rw [ti0, ti1]; exact fx, by rw [tj0, tj1]; exact fy, by rw [tk0, tk1]; exact fz, by rw [tl0, tl1]; exact fu, ?_, ?_⟩
  · unfold quadrivariateAx
    rw [ex, ey, ez, eu]
    simp only [bind, Except.bind, fx.coord.1, fx.coord.2, fy.coord.1, fy.coord.2, fz.coord.1, fz.coord.2, fu.coord.1, fu.coord.2,
      nx]
    rw [h.planes fx fy fz fu.left, h.planes fx fy fz fu.right, hr0, hr1]
    simp only [pure, Except.pure]
    congr 1
  · refine le_trans er ?_
    norm_num
    linarith

/-- **C126**: the interpolation at a point of a grid of four dimensions is exactly the value of the array. -/
theorem C126_grid4_node {g : AxGrid4} {V : ℕ → ℕ → ℕ → ℕ → ℚ} (h : OnAxes4 g V) {i j k l : ℕ} (hi : (i : ℤ) < g.x.cont.size)
    (hj : (j : ℤ) < g.y.cont.size) (hk : (k : ℤ) < g.z.cont.size) (hl : (l : ℤ) < g.u.cont.size) {x y z u : ℚ}
    (cx : g.x.cont.coord i = .ok x) (cy : g.y.cont.coord j = .ok y) (cz : g.z.cont.coord k = .ok z)
    (cu : g.u.cont.coord l = .ok u) (px : Plain g.x x) (py : Plain g.y y) (pz : Plain g.z z) (pu : Plain g.u u)
    (be : Bool) : quadrivariateAx .linear .linear g x y z u be = .ok (some (V i j k l)) := by
  obtain ⟨i0, i1, x0, x1, ex, fx, nx⟩ := px.frame h.x
  obtain ⟨j0, j1, y0, y1, ey, fy, -⟩ := py.frame h.y
  obtain ⟨k0, k1, z0, z1, ez, fz, -⟩ := pz.frame h.z
  obtain ⟨l0, l1, u0, u1, eu, fu, -⟩ := pu.frame h.u
  have bk0 := fz.left
  have bk1 := fz.right
  have bl0 := fu.left
  have bl1 := fu.right
  have pn : ∀ k l : ℕ, (k : ℤ) < g.z.cont.size → (l : ℤ) < g.u.cont.size → _ := fun k l hk hl =>
    plane_node h.x h.y fx fy (V := fun i j => V i j k l) (fun i j hi hj => (h.values i j k l hi hj hk hl).2) hi hj cx cy
  have ln : ∀ l : ℕ, (l : ℤ) < g.u.cont.size → _ := fun l hl =>
    line_node h.z fz (W := fun k => V i j k l) (fun k hk => (h.values i j k l hi hj hk hl).2) hk cz
  unfold quadrivariateAx
  rw [ex, ey, ez, eu]
  simp only [bind, Except.bind, fx.coord.1, fx.coord.2, fy.coord.1, fy.coord.2, fz.coord.1, fz.coord.2, fu.coord.1, fu.coord.2,
    nx]
  rw [h.planes fx fy fz fu.left, h.planes fx fy fz fu.right]
  rw [pn k0.toNat l0.toNat (by omega) (by omega), pn k1.toNat l0.toNat (by omega) (by omega),
    pn k0.toNat l1.toNat (by omega) (by omega), pn k1.toNat l1.toNat (by omega) (by omega),
    ln l0.toNat (by omega), ln l1.toNat (by omega)]
  simp only [pure, Except.pure]
  rw [line_node h.u fu (W := fun l => V i j k l) (fun l hl => (h.values i j k l hi hj hk hl).2) hl cu]

/-! ### the nearest value along an axis -/

theorem sq_sub (a b : ℚ) : mul (sub a b) (sub a b) = fl (|sub a b| ^ 2) := by
  unfold mul
  rw [sq_abs, sq]

/-- The rounded squares of two rounded distances are in the order of the distances, up to rounding. -/
theorem sq_dist_le {a b c : ℚ} (ha : IsDouble a) (hb : IsDouble b) (hc : IsDouble c) (hg : 2 ^ (-400 : ℤ) ≤ |b - a|)
    (h : mul (sub b c) (sub b c) ≤ mul (sub a c) (sub a c)) : |c - b| ≤ |c - a| * (1 + 2 ^ (-49 : ℤ)) := by
  set u : ℚ := 2 ^ (-53 : ℤ) with hu
  have rel : ∀ {y B : ℚ}, |y| ≤ B → 2 ^ (-1022 : ℤ) ≤ B → |fl y - y| ≤ B * u := fun h h' => fl_rel h h'
  have u0 : 0 < u := two_zpow_pos _
  have u1 : u ≤ 1 / 1024 := by rw [hu]; norm_num
  have tol : (1 : ℚ) + 2 ^ (-49 : ℤ) = 1 + 16 * u := by rw [hu]; norm_num
  rw [sq_sub, sq_sub] at h
  have eb := sub_rel hb hc
  have ea := sub_rel ha hc
  rw [← hu] at ea eb
  rw [abs_sub_comm c b, abs_sub_comm c a, tol]
  set A := |a - c| with hA
  set B := |b - c| with hB
  have A0 : 0 ≤ A := abs_nonneg _
  have B0 : 0 ≤ B := abs_nonneg _
  set p := |sub a c| with hp
  set q := |sub b c| with hq
  have bp := abs_le.1 ((abs_abs_sub_abs_le (sub a c) (a - c)).trans ea)
  have bq := abs_le.1 ((abs_abs_sub_abs_le (sub b c) (b - c)).trans eb)
  rw [← hp, ← hA] at bp
  rw [← hq, ← hB] at bq
  have p0 : 0 ≤ p := abs_nonneg _
  have q0 : 0 ≤ q := abs_nonneg _
  have uu : u * u ≤ u * (1 / 1024) := mul_le_mul_of_nonneg_left u1 u0.le
  have uuu : u * (u * u) ≤ u * (1 / 1024) := mul_le_mul_of_nonneg_left (uu.trans (by nlinarith)) u0.le
  have hAB : 2 ^ (-400 : ℤ) ≤ A + B := by
    refine hg.trans ?_
    have : b - a = (b - c) - (a - c) := by ring
    rw [this]
    have := abs_sub (b - c) (a - c)
    linarith
  clear ea eb hu
  clear_value u A B p q
  by_contra hcon
  push Not at hcon
  have hBA : A < B := by nlinarith
  have hB4 : 2 ^ (-401 : ℤ) ≤ B := by
    have : (2 : ℚ) ^ (-400 : ℤ) = 2 * 2 ^ (-401 : ℤ) := by rw [← zpow_one_add₀ (by norm_num)]; norm_num
    linarith
  have hq4 : 2 ^ (-402 : ℤ) ≤ q := by
    have : (2 : ℚ) ^ (-401 : ℤ) = 2 * 2 ^ (-402 : ℤ) := by rw [← zpow_one_add₀ (by norm_num)]; norm_num
    have h3 : B * u ≤ B * (1 / 1024) := mul_le_mul_of_nonneg_left u1 B0
    rw [this] at hB4
    have h5 := bq.1
    generalize (2 : ℚ) ^ (-402 : ℤ) = w at *
    linarith
  have hqp : p ≤ q := by
    have h1 : A * (1 + 16 * u) * (1 - u) ≤ B * (1 - u) := mul_le_mul_of_nonneg_right hcon.le (by linarith)
    have h2 : A * (1 + u) ≤ A * ((1 + 16 * u) * (1 - u)) := mul_le_mul_of_nonneg_left (by nlinarith) A0
    linarith [bq.1, bp.2]
  have hq2 : (2 : ℚ) ^ (-1022 : ℤ) ≤ q ^ 2 := by
    calc (2 : ℚ) ^ (-1022 : ℤ) ≤ 2 ^ (-804 : ℤ) := zpow_le_zpow_right₀ (by norm_num) (by norm_num)
      _ = (2 ^ (-402 : ℤ)) ^ 2 := by rw [← zpow_natCast, ← zpow_mul]; norm_num
      _ ≤ q ^ 2 := pow_le_pow_left₀ (two_zpow_pos _).le hq4 2
  have fq := abs_le.1 (rel (y := q ^ 2) (B := q ^ 2) (by rw [abs_of_nonneg (sq_nonneg _)]) hq2)
  have fp := abs_le.1 (rel (y := p ^ 2) (B := q ^ 2)
    (by rw [abs_of_nonneg (sq_nonneg _)]; exact pow_le_pow_left₀ p0 hqp 2) hq2)
  have k1 : q ^ 2 * (1 - 2 * u) ≤ p ^ 2 := by linarith [fq.1, fp.2]
  -- q <= p (1 + 4 u)
  have k2 : q ≤ p * (1 + 4 * u) := by
    by_contra hc'
    push Not at hc'
    have hq0 : 0 < q := lt_of_lt_of_le (two_zpow_pos _) hq4
    have k3 : (p * (1 + 4 * u)) ^ 2 < q ^ 2 := by
      have : 0 ≤ p * (1 + 4 * u) := by positivity
      nlinarith
    have k4 : p ^ 2 * (1 + 4 * u) ^ 2 < q ^ 2 := by rw [← mul_pow]; exact k3
    have k5 : q ^ 2 * (1 - 2 * u) * (1 + 4 * u) ^ 2 ≤ p ^ 2 * (1 + 4 * u) ^ 2 :=
      mul_le_mul_of_nonneg_right k1 (sq_nonneg _)
    have k6 : 1 ≤ (1 - 2 * u) * (1 + 4 * u) ^ 2 := by nlinarith [uuu]
    have k7 : q ^ 2 * 1 ≤ q ^ 2 * ((1 - 2 * u) * (1 + 4 * u) ^ 2) := mul_le_mul_of_nonneg_left k6 (sq_nonneg _)
    nlinarith
  have k8 : B * (1 - u) ≤ A * (1 + u) * (1 + 4 * u) := by
    calc B * (1 - u) ≤ q := by linarith [bq.1]
      _ ≤ _ := k2
      _ ≤ _ := mul_le_mul_of_nonneg_right (by linarith [bp.2]) (by linarith)
  have k9 : A * ((1 + u) * (1 + 4 * u)) ≤ A * ((1 + 16 * u) * (1 - u)) :=
    mul_le_mul_of_nonneg_left (by nlinarith) A0
  have k10 : A * (1 + 16 * u) * (1 - u) < B * (1 - u) := mul_lt_mul_of_pos_right hcon (by linarith)
  linarith

/-- Neighbouring coordinates of the axis are at least `2^-400` apart. -/
def WellApart (a : Ax) : Prop :=
  ∀ i p q, a.cont.coord i = .ok p → a.cont.coord (i + 1) = .ok q → 2 ^ (-400 : ℤ) ≤ |q - p|

theorem WellApart.apart {a : Ax} (h : WellApart a) : Apart a := fun i p q hp hq =>
  (zpow_le_zpow_right₀ (by norm_num) (by norm_num)).trans (h i p q hp hq)

theorem Framed.gap' {a : Ax} (h : WellApart a) {c p q : ℚ} {i j : ℤ} (f : Framed a c i j p q) : 2 ^ (-400 : ℤ) ≤ |q - p| := by
  rcases f.next with rfl | rfl
  · exact h _ _ _ f.coord.1 f.coord.2
  · rw [abs_sub_comm]; exact h _ _ _ f.coord.2 f.coord.1

/-- The method is `nearest`. -/
def isNearest : ZMethod → Bool
  | .linear => false
  | .nearest => true

/-- One step of the interpolation along an axis, from values that are known up to `E`. -/
theorem along_err {az : Ax} (bz : Built az) {z z0 z1 : ℚ} {k0 k1 : ℤ} (hz : IsDouble z) (fz : Framed az z k0 k1 z0 z1)
    (gz : WellApart az) {a b A B M E : ℚ} (ha : IsDouble a) (hb : IsDouble b) (hM : 2 ^ (-1000 : ℤ) ≤ M) (hA : |A| ≤ M)
    (hB : |B| ≤ M) (eA : |a - A| ≤ E) (eB : |b - B| ≤ E) (hE : E ≤ M) (m : ZMethod) :
    ∃ r T, oMethod m z z0 z1 (some a) (some b) = some r ∧ IsDouble r ∧ |T| ≤ M ∧
      Along (isNearest m) (2 ^ (-49 : ℤ)) z z0 z1 A B T ∧ |r - T| ≤ E + M * 2 ^ (-47 : ℤ) := by
  have hM0 : 0 < M := lt_of_lt_of_le (two_zpow_pos _) hM
  obtain ⟨d0, d1⟩ := fz.doubles bz
  cases m with
  | linear =>
    obtain ⟨r, hr, dr, er⟩ := linear_err d0 d1 fz.ne fz.holds (fz.gap gz.apart) ha hb hM hA hB eA eB hE
    exact ⟨r, _, hr, dr, abs_lerp fz.unit.1 fz.unit.2 hA hB, rfl, er⟩
  | nearest =>
    have hg := fz.gap' gz
    have pos : 0 ≤ M * 2 ^ (-47 : ℤ) := by positivity
    show ∃ r T, oNearest z z0 z1 (some a) (some b) = some r ∧ _
    unfold oNearest
    by_cases hlt : mul (sub z0 z) (sub z0 z) < mul (sub z1 z) (sub z1 z)
    · refine ⟨a, A, by simp only [if_pos hlt], ha, hA, ?_, by linarith⟩
      exact Or.inl ⟨rfl, sq_dist_le d1 d0 hz (by rw [abs_sub_comm]; exact hg) hlt.le⟩
    · refine ⟨b, B, by simp only [if_neg hlt], hb, hB, ?_, by linarith⟩
      exact Or.inr ⟨rfl, sq_dist_le d0 d1 hz hg (not_lt.1 hlt)⟩

/-- **C126**: at a point between the bounds of the axes of a grid of three dimensions, for both methods along z: the result is
obtained from the exact bilinear interpolations in the two planes of the cell, by linear interpolation or by the choice of the
nearest plane (up to 2^-49 of the distance), up to 2^-46 times the greatest value. -/
theorem C126_grid3_methods {g : AxGrid3} {V : ℕ → ℕ → ℕ → ℚ} (h : OnAxes3 g V) {M : ℚ} (hM : 2 ^ (-1000 : ℤ) ≤ M)
    (hV : ∀ i j k : ℕ, (i : ℤ) < g.x.cont.size → (j : ℤ) < g.y.cont.size → (k : ℤ) < g.z.cont.size → |V i j k| ≤ M)
    (gx : Apart g.x) (gy : Apart g.y) (gz : WellApart g.z) {x y z : ℚ} (px : Plain g.x x) (py : Plain g.y y)
    (pz : Plain g.z z) (zm : ZMethod) (be : Bool) :
    ∃ (i0 i1 j0 j1 k0 k1 : ℕ) (x0 x1 y0 y1 z0 z1 r T : ℚ), Framed g.x x i0 i1 x0 x1 ∧ Framed g.y y j0 j1 y0 y1 ∧
      Framed g.z z k0 k1 z0 z1 ∧ trivariateAx zm g x y z be = .ok (some r) ∧
      Along (isNearest zm) (2 ^ (-49 : ℤ)) z z0 z1 (bil (frac x x0 x1) (frac y y0 y1) (fun i j => V i j k0) i0 i1 j0 j1)
        (bil (frac x x0 x1) (frac y y0 y1) (fun i j => V i j k1) i0 i1 j0 j1) T ∧ |r - T| ≤ M * 2 ^ (-46 : ℤ) := by
  have hM' : (2 : ℚ) ^ (-1022 : ℤ) ≤ M := (zpow_le_zpow_right₀ (by norm_num) (by norm_num)).trans hM
  have hM0 : 0 < M := lt_of_lt_of_le (two_zpow_pos _) hM
  obtain ⟨i0, i1, x0, x1, ex, fx, nx⟩ := px.frame h.x
  obtain ⟨j0, j1, y0, y1, ey, fy, -⟩ := py.frame h.y
  obtain ⟨k0, k1, z0, z1, ez, fz, -⟩ := pz.frame h.z
  have bk0 := fz.left
  have bk1 := fz.right
  obtain ⟨e0, m0⟩ := plane_err fx fy gx gy hM' (V := fun i j => V i j k0.toNat) (fun i j hi hj => hV i j _ hi hj (by omega))
  obtain ⟨e1, m1⟩ := plane_err fx fy gx gy hM' (V := fun i j => V i j k1.toNat) (fun i j hi hj => hV i j _ hi hj (by omega))
  obtain ⟨r, T, hr, -, -, hT, er⟩ := along_err h.z pz.double fz gz (bilinear_double _ _ _ _ _ _ _)
    (bilinear_double _ _ _ _ _ _ _) hM m0 m1 e0 e1 (by norm_num; linarith) zm
  have ti0 : ((i0.toNat : ℕ) : ℤ) = i0 := Int.toNat_of_nonneg fx.left.1
  have ti1 : ((i1.toNat : ℕ) : ℤ) = i1 := Int.toNat_of_nonneg fx.right.1
  have tj0 : ((j0.toNat : ℕ) : ℤ) = j0 := Int.toNat_of_nonneg fy.left.1
  have tj1 : ((j1.toNat : ℕ) : ℤ) = j1 := Int.toNat_of_nonneg fy.right.1
  have tk0 : ((k0.toNat : ℕ) : ℤ) = k0 := Int.toNat_of_nonneg fz.left.1
  have tk1 : ((k1.toNat : ℕ) : ℤ) = k1 := Int.toNat_of_nonneg fz.right.1
  refine ⟨i0.toNat, i1.toNat, j0.toNat, j1.toNat, k0.toNat, k1.toNat, x0, x1, y0, y1, z0, z1, r, T, by rw [ti0, ti1]; exact fx,
    by rw [tj0, tj1]; exact fy, by rw [tk0, tk1]; exact fz, ?_, hT, ?_⟩
  · unfold trivariateAx
    rw [ex, ey, ez]
    simp only [bind, Except.bind, fx.coord.1, fx.coord.2, fy.coord.1, fy.coord.2, fz.coord.1, fz.coord.2, nx]
    rw [cell_planes (shape := []) (by simpa using h.shape) rfl (by simp)
      (fun i j k hi hj hk => by simpa using (h.values i j k hi hj hk).1) fx.left fx.right fy.left fy.right fz.left fz.right, hr]
  · refine er.trans ?_
    norm_num
    linarith

/-- **C126**: the same in four dimensions, for the four combinations of methods along z and u. -/
theorem C126_grid4_methods {g : AxGrid4} {V : ℕ → ℕ → ℕ → ℕ → ℚ} (h : OnAxes4 g V) {M : ℚ} (hM : 2 ^ (-1000 : ℤ) ≤ M)
    (hV : ∀ i j k l : ℕ, (i : ℤ) < g.x.cont.size → (j : ℤ) < g.y.cont.size → (k : ℤ) < g.z.cont.size →
      (l : ℤ) < g.u.cont.size → |V i j k l| ≤ M)
    (gx : Apart g.x) (gy : Apart g.y) (gz : WellApart g.z) (gu : WellApart g.u) {x y z u : ℚ} (px : Plain g.x x)
    (py : Plain g.y y) (pz : Plain g.z z) (pu : Plain g.u u) (zm um : ZMethod) (be : Bool) :
    ∃ (i0 i1 j0 j1 k0 k1 l0 l1 : ℕ) (x0 x1 y0 y1 z0 z1 u0 u1 r T0 T1 T : ℚ), Framed g.x x i0 i1 x0 x1 ∧
      Framed g.y y j0 j1 y0 y1 ∧ Framed g.z z k0 k1 z0 z1 ∧ Framed g.u u l0 l1 u0 u1 ∧
      quadrivariateAx zm um g x y z u be = .ok (some r) ∧
      Along (isNearest zm) (2 ^ (-49 : ℤ)) z z0 z1 (bil (frac x x0 x1) (frac y y0 y1) (fun i j => V i j k0 l0) i0 i1 j0 j1)
        (bil (frac x x0 x1) (frac y y0 y1) (fun i j => V i j k1 l0) i0 i1 j0 j1) T0 ∧
      Along (isNearest zm) (2 ^ (-49 : ℤ)) z z0 z1 (bil (frac x x0 x1) (frac y y0 y1) (fun i j => V i j k0 l1) i0 i1 j0 j1)
        (bil (frac x x0 x1) (frac y y0 y1) (fun i j => V i j k1 l1) i0 i1 j0 j1) T1 ∧
      Along (isNearest um) (2 ^ (-49 : ℤ)) u u0 u1 T0 T1 T ∧ |r - T| ≤ M * 2 ^ (-45 : ℤ) := by
  have hM' : (2 : ℚ) ^ (-1022 : ℤ) ≤ M := (zpow_le_zpow_right₀ (by norm_num) (by norm_num)).trans hM
  have hM0 : 0 < M := lt_of_lt_of_le (two_zpow_pos _) hM
  obtain ⟨i0, i1, x0, x1, ex, fx, nx⟩ := px.frame h.x
  obtain ⟨j0, j1, y0, y1, ey, fy, -⟩ := py.frame h.y
  obtain ⟨k0, k1, z0, z1, ez, fz, -⟩ := pz.frame h.z
  obtain ⟨l0, l1, u0, u1, eu, fu, -⟩ := pu.frame h.u
  have bk0 := fz.left
  have bk1 := fz.right
  have bl0 := fu.left
  have bl1 := fu.right
  have level : ∀ l : ℕ, (l : ℤ) < g.u.cont.size → ∃ r T, oMethod zm z z0 z1
        (some (bilinear (x, y) (x0, y0) (x1, y1) (V i0.toNat j0.toNat k0.toNat l) (V i0.toNat j1.toNat k0.toNat l)
          (V i1.toNat j0.toNat k0.toNat l) (V i1.toNat j1.toNat k0.toNat l)))
        (some (bilinear (x, y) (x0, y0) (x1, y1) (V i0.toNat j0.toNat k1.toNat l) (V i0.toNat j1.toNat k1.toNat l)
          (V i1.toNat j0.toNat k1.toNat l) (V i1.toNat j1.toNat k1.toNat l))) = some r ∧ IsDouble r ∧ |T| ≤ M ∧
      Along (isNearest zm) (2 ^ (-49 : ℤ)) z z0 z1
        (bil (frac x x0 x1) (frac y y0 y1) (fun i j => V i j k0.toNat l) i0.toNat i1.toNat j0.toNat j1.toNat)
        (bil (frac x x0 x1) (frac y y0 y1) (fun i j => V i j k1.toNat l) i0.toNat i1.toNat j0.toNat j1.toNat) T ∧
      |r - T| ≤ M * 2 ^ (-47 : ℤ) + M * 2 ^ (-47 : ℤ) := by
    intro l hl
    obtain ⟨e0, m0⟩ := plane_err fx fy gx gy hM' (V := fun i j => V i j k0.toNat l)
      (fun i j hi hj => hV i j _ _ hi hj (by omega) hl)
    obtain ⟨e1, m1⟩ := plane_err fx fy gx gy hM' (V := fun i j => V i j k1.toNat l)
      (fun i j hi hj => hV i j _ _ hi hj (by omega) hl)
    exact along_err h.z pz.double fz gz (bilinear_double _ _ _ _ _ _ _)
      (bilinear_double _ _ _ _ _ _ _) hM m0 m1 e0 e1 (by norm_num; linarith) zm
  obtain ⟨r0, T0, hr0, dr0, m0, hT0, er0⟩ := level l0.toNat (by omega)
  obtain ⟨r1, T1, hr1, dr1, m1, hT1, er1⟩ := level l1.toNat (by omega)
  obtain ⟨r, T, hr, -, -, hT, er⟩ := along_err h.u pu.double fu gu dr0 dr1 hM m0 m1 er0 er1 (by norm_num; linarith) um
  have ti0 : ((i0.toNat : ℕ) : ℤ) = i0 := Int.toNat_of_nonneg fx.left.1
  have ti1 : ((i1.toNat : ℕ) : ℤ) = i1 := Int.toNat_of_nonneg fx.right.1
  have tj0 : ((j0.toNat : ℕ) : ℤ) = j0 := Int.toNat_of_nonneg fy.left.1
  have tj1 : ((j1.toNat : ℕ) : ℤ) = j1 := Int.toNat_of_nonneg fy.right.1
  have tk0 : ((k0.toNat : ℕ) : ℤ) = k0 := Int.toNat_of_nonneg fz.left.1
  have tk1 : ((k1.toNat : ℕ) : ℤ) = k1 := Int.toNat_of_nonneg fz.right.1
  have tl0 : ((l0.toNat : ℕ) : ℤ) = l0 := Int.toNat_of_nonneg fu.left.1
  have tl1 : ((l1.toNat : ℕ) : ℤ) = l1 := Int.toNat_of_nonneg fu.right.1
  refine ⟨i0.toNat, i1.toNat, j0.toNat, j1.toNat, k0.toNat, k1.toNat, l0.toNat, l1.toNat, x0, x1, y0, y1, z0, z1, u0, u1, r,
    T0, T1, T, by rw [ti0, ti1]; exact fx, by rw [tj0, tj1]; exact fy, by rw [tk0, tk1]; exact fz, by rw [tl0, tl1]; exact fu,
    ?_, hT0, hT1, hT, ?_⟩
  · unfold quadrivariateAx
    rw [ex, ey, ez, eu]
    simp only [bind, Except.bind, fx.coord.1, fx.coord.2, fy.coord.1, fy.coord.2, fz.coord.1, fz.coord.2, fu.coord.1, fu.coord.2,
      nx]
    rw [h.planes fx fy fz fu.left, h.planes fx fy fz fu.right, hr0, hr1]
    simp only [pure, Except.pure]
    congr 1
  · refine le_trans er ?_
    norm_num
    linarith

/-! ### points outside of the grid, and values that are NaN -/

/-- The coordinate is beyond the bounds of the axis, which is not a circle (and at most 2^60 steps away). -/
structure Beyond (a : Ax) (c : ℚ) : Prop where
  double : IsDouble c
  circle : a.isCircle = false
  angle : a.angle = false
  outside : ∃ v0 v1 v2, a.cont.coord 0 = .ok v0 ∧ a.cont.coord (a.cont.size - 1) = .ok v1 ∧ a.cont.coord 1 = .ok v2 ∧
    |c - v0| ≤ 2 ^ 60 * |v2 - v0| ∧ ¬ ((v0 ≤ c ∧ c ≤ v1) ∨ (v1 ≤ c ∧ c ≤ v0))

theorem Beyond.none {a : Ax} (h : Built a) {c : ℚ} (b : Beyond a c) : a.findIndexes c = .ok none := by
  obtain ⟨v0, v1, v2, h0, h1, h2, far, out⟩ := b.outside
  obtain ⟨⟨n, f, C⟩, -⟩ := built_coords h
  have na : ∀ P : Prop, a.angle = true → P := fun P h => by rw [b.angle] at h; cases h
  exact C125_outside h b.circle b.double (normalize_linear b.angle C.min_eq) C.min_eq (fun h => na _ h) (fun h => na _ h)
    h0 h1 h2 far out

theorem Plain.some {a : Ax} (h : Built a) {c : ℚ} (p : Plain a c) : ∃ i j, a.findIndexes c = .ok (some (i, j)) := by
  obtain ⟨i, j, -, -, e, -⟩ := p.frame h
  exact ⟨i, j, e⟩

/-- **C126**: if one of the coordinates is beyond the bounds of its axis, the result is NaN, or an exception if `bounds_error` is
set. -/
theorem C126_grid3_outside {g : AxGrid3} (hx : Built g.x) (hy : Built g.y) (hz : Built g.z) {x y z : ℚ}
    (px : Plain g.x x ∨ Beyond g.x x) (py : Plain g.y y ∨ Beyond g.y y) (pz : Plain g.z z ∨ Beyond g.z z)
    (hb : Beyond g.x x ∨ Beyond g.y y ∨ Beyond g.z z) (zm : ZMethod) :
    trivariateAx zm g x y z false = .ok none ∧ trivariateAx zm g x y z true = .error .exn := by
  have fx : g.x.findIndexes x = .ok none ∨ ∃ i j, g.x.findIndexes x = .ok (some (i, j)) :=
    px.elim (fun p => Or.inr (p.some hx)) (fun p => Or.inl (p.none hx))
  have fy : g.y.findIndexes y = .ok none ∨ ∃ i j, g.y.findIndexes y = .ok (some (i, j)) :=
    py.elim (fun p => Or.inr (p.some hy)) (fun p => Or.inl (p.none hy))
  have fz : g.z.findIndexes z = .ok none ∨ ∃ i j, g.z.findIndexes z = .ok (some (i, j)) :=
    pz.elim (fun p => Or.inr (p.some hz)) (fun p => Or.inl (p.none hz))
  unfold trivariateAx
  rcases hb with hb | hb | hb
  · rw [hb.none hx]
    rcases fy with fy | ⟨_, _, fy⟩ <;> rcases fz with fz | ⟨_, _, fz⟩ <;> rw [fy, fz] <;> exact ⟨rfl, rfl⟩
  · rw [hb.none hy]
    rcases fx with fx | ⟨_, _, fx⟩ <;> rcases fz with fz | ⟨_, _, fz⟩ <;> rw [fx, fz] <;> exact ⟨rfl, rfl⟩
  · rw [hb.none hz]
    rcases fx with fx | ⟨_, _, fx⟩ <;> rcases fy with fy | ⟨_, _, fy⟩ <;> rw [fx, fy] <;> exact ⟨rfl, rfl⟩

/-- **C126**: the same in four dimensions. -/
theorem C126_grid4_outside {g : AxGrid4} (hx : Built g.x) (hy : Built g.y) (hz : Built g.z) (hu : Built g.u) {x y z u : ℚ}
    (px : Plain g.x x ∨ Beyond g.x x) (py : Plain g.y y ∨ Beyond g.y y) (pz : Plain g.z z ∨ Beyond g.z z)
    (pu : Plain g.u u ∨ Beyond g.u u) (hb : Beyond g.x x ∨ Beyond g.y y ∨ Beyond g.z z ∨ Beyond g.u u) (zm um : ZMethod) :
    quadrivariateAx zm um g x y z u false = .ok none ∧ quadrivariateAx zm um g x y z u true = .error .exn := by
  have fx : g.x.findIndexes x = .ok none ∨ ∃ i j, g.x.findIndexes x = .ok (some (i, j)) :=
    px.elim (fun p => Or.inr (p.some hx)) (fun p => Or.inl (p.none hx))
  have fy : g.y.findIndexes y = .ok none ∨ ∃ i j, g.y.findIndexes y = .ok (some (i, j)) :=
    py.elim (fun p => Or.inr (p.some hy)) (fun p => Or.inl (p.none hy))
  have fz : g.z.findIndexes z = .ok none ∨ ∃ i j, g.z.findIndexes z = .ok (some (i, j)) :=
    pz.elim (fun p => Or.inr (p.some hz)) (fun p => Or.inl (p.none hz))
  have fu : g.u.findIndexes u = .ok none ∨ ∃ i j, g.u.findIndexes u = .ok (some (i, j)) :=
    pu.elim (fun p => Or.inr (p.some hu)) (fun p => Or.inl (p.none hu))
  unfold quadrivariateAx
  rcases hb with hb | hb | hb | hb
  · rw [hb.none hx]
    rcases fy with fy | ⟨_, _, fy⟩ <;> rcases fz with fz | ⟨_, _, fz⟩ <;> rcases fu with fu | ⟨_, _, fu⟩ <;> rw [fy, fz, fu] <;>
      exact ⟨rfl, rfl⟩
  · rw [hb.none hy]
    rcases fx with fx | ⟨_, _, fx⟩ <;> rcases fz with fz | ⟨_, _, fz⟩ <;> rcases fu with fu | ⟨_, _, fu⟩ <;> rw [fx, fz, fu] <;>
      exact ⟨rfl, rfl⟩
  · rw [hb.none hz]
    rcases fx with fx | ⟨_, _, fx⟩ <;> rcases fy with fy | ⟨_, _, fy⟩ <;> rcases fu with fu | ⟨_, _, fu⟩ <;> rw [fx, fy, fu] <;>
      exact ⟨rfl, rfl⟩
  · rw [hb.none hu]
    rcases fx with fx | ⟨_, _, fx⟩ <;> rcases fy with fy | ⟨_, _, fy⟩ <;> rcases fz with fz | ⟨_, _, fz⟩ <;> rw [fx, fy, fz] <;>
      exact ⟨rfl, rfl⟩

theorem oBilinear_none (p p0 p1 : ℚ × ℚ) (a b c d : Option ℚ) :
    oBilinear p p0 p1 a b c d = none ↔ a = none ∨ b = none ∨ c = none ∨ d = none := by
  cases a <;> cases b <;> cases c <;> cases d <;> simp [oBilinear]

theorem oLinear_none {z z0 z1 : ℚ} (h : sub z1 z0 ≠ 0) (a b : Option ℚ) :
    oLinear z z0 z1 a b = none ↔ a = none ∨ b = none := by
  unfold oLinear
  rw [if_neg h]
  cases a <;> cases b <;> simp [linear, h]

/-- **C126**: at a point between the bounds, with the linear method, the result is NaN exactly if one of the eight values of the
cell is NaN, even if its weight is zero. -/
theorem C126_grid3_nan {g : AxGrid3} (hx : Built g.x) (hy : Built g.y) (hz : Built g.z)
    (hs : g.arr.shape = [g.x.cont.size.toNat, g.y.cont.size.toNat, g.z.cont.size.toNat]) {x y z : ℚ} (px : Plain g.x x)
    (py : Plain g.y y) (pz : Plain g.z z) (be : Bool) :
    ∃ (i0 i1 j0 j1 k0 k1 : ℕ) (x0 x1 y0 y1 z0 z1 : ℚ) (r : Option ℚ), Framed g.x x i0 i1 x0 x1 ∧
      Framed g.y y j0 j1 y0 y1 ∧ Framed g.z z k0 k1 z0 z1 ∧ trivariateAx .linear g x y z be = .ok r ∧
      (r = none ↔ ∃ i j k, (i = i0 ∨ i = i1) ∧ (j = j0 ∨ j = j1) ∧ (k = k0 ∨ k = k1) ∧ g.arr.at' [i, j, k] = none) := by
  obtain ⟨i0, i1, x0, x1, ex, fx, nx⟩ := px.frame hx
  obtain ⟨j0, j1, y0, y1, ey, fy, -⟩ := py.frame hy
  obtain ⟨k0, k1, z0, z1, ez, fz, -⟩ := pz.frame hz
  have val : ∀ {i j k : ℤ}, 0 ≤ i ∧ i < g.x.cont.size → 0 ≤ j ∧ j < g.y.cont.size → 0 ≤ k ∧ k < g.z.cont.size →
      g.arr.value ([i, j, k] ++ []) = .ok (g.arr.at' [i.toNat, j.toNat, k.toNat]) := by
    intro i j k bi bj bk
    rw [arr_value hs rfl]
    · rfl
    · intro p hp
      simp only [List.append_nil, List.zip_cons_cons, List.zip_nil_right, List.mem_cons, List.not_mem_nil, or_false] at hp
      rcases hp with rfl | rfl | rfl <;> (simp only; omega)
  obtain ⟨d0, d1⟩ := fz.doubles hz
  have dz : sub z1 z0 ≠ 0 := fun h => fz.ne ((sub_zero_iff d1 d0).1 h).symm
  let pl : ℤ → Option ℚ := fun k => oBilinear (x, y) (x0, y0) (x1, y1) (g.arr.at' [i0.toNat, j0.toNat, k.toNat])
    (g.arr.at' [i0.toNat, j1.toNat, k.toNat]) (g.arr.at' [i1.toNat, j0.toNat, k.toNat]) (g.arr.at' [i1.toNat, j1.toNat, k.toNat])
  have ti0 : ((i0.toNat : ℕ) : ℤ) = i0 := Int.toNat_of_nonneg fx.left.1
  have ti1 : ((i1.toNat : ℕ) : ℤ) = i1 := Int.toNat_of_nonneg fx.right.1
  have tj0 : ((j0.toNat : ℕ) : ℤ) = j0 := Int.toNat_of_nonneg fy.left.1
  have tj1 : ((j1.toNat : ℕ) : ℤ) = j1 := Int.toNat_of_nonneg fy.right.1
  have tk0 : ((k0.toNat : ℕ) : ℤ) = k0 := Int.toNat_of_nonneg fz.left.1
  have tk1 : ((k1.toNat : ℕ) : ℤ) = k1 := Int.toNat_of_nonneg fz.right.1
  refine ⟨i0.toNat, i1.toNat, j0.toNat, j1.toNat, k0.toNat, k1.toNat, x0, x1, y0, y1, z0, z1,
    oMethod .linear z z0 z1 (pl k0) (pl k1), by rw [ti0, ti1]; exact fx,
    by rw [tj0, tj1]; exact fy, by rw [tk0, tk1]; exact fz, ?_, ?_⟩
  · unfold trivariateAx
    rw [ex, ey, ez]
    simp only [bind, Except.bind, fx.coord.1, fx.coord.2, fy.coord.1, fy.coord.2, fz.coord.1, fz.coord.2, nx]
    unfold cell3
    simp only [val fx.left fy.left fz.left, val fx.left fy.right fz.left, val fx.right fy.left fz.left,
      val fx.right fy.right fz.left, val fx.left fy.left fz.right, val fx.left fy.right fz.right, val fx.right fy.left fz.right,
      val fx.right fy.right fz.right, bind, Except.bind]
    rfl
  · show oLinear _ _ _ _ _ = none ↔ _
    simp only [pl]
    rw [oLinear_none dz, oBilinear_none, oBilinear_none]
    constructor
    · rintro ((h | h | h | h) | (h | h | h | h)) <;> exact ⟨_, _, _, by simp, by simp, by simp, h⟩
    · rintro ⟨i, j, k, rfl | rfl, rfl | rfl, rfl | rfl, h⟩ <;> simp [h]

/-! ### an example -/

/-- Longitudes, and twice the axis -1, 1, 4; the value is 1 at the third plane along z, 0 elsewhere. -/
def exGrid3 : AxGrid3 :=
  { x := exCircle, y := exIrregular, z := exIrregular,
    arr := { shape := [8, 3, 3], at' := fun idx => some (if idx.getD 2 0 = 2 then 1 else 0) } }

theorem exGrid3_ok : OnAxes3 exGrid3 (fun _ _ k => if k = 2 then 1 else 0) := by
  refine ⟨exCircle_built, exIrregular_built, exIrregular_built, rfl, ?_⟩
  intro i j k _ _ _
  refine ⟨rfl, ?_⟩
  split
  · exact isDouble_one
  · exact isDouble_zero

theorem exIrregular_apart : WellApart exIrregular := by
  intro i p q hp hq
  have small : (2 : ℚ) ^ (-400 : ℤ) ≤ 1 := zpow_le_one_of_nonpos₀ (by norm_num) (by norm_num)
  have h0 : 0 ≤ i := by
    by_contra hc
    have : exIrregular.cont.coord i = .error .ub := by
      show rd _ _ = _
      unfold rd
      rw [if_pos (by omega)]
    rw [this] at hp; cases hp
  have h1 : i < 2 := by
    by_contra hc
    have : exIrregular.cont.coord (i + 1) = .error .ub := by
      show rd _ _ = _
      unfold rd
      rw [if_neg (by omega)]
      have : [(-1 : ℚ), 1, 4][(i + 1).toNat]? = none := by
        rw [List.getElem?_eq_none_iff]
        show 3 ≤ _
        omega
      rw [this]
    rw [this] at hq; cases hq
  have e0 : exIrregular.cont.coord 0 = .ok (-1) := by decide +kernel
  have e1 : exIrregular.cont.coord 1 = .ok 1 := by decide +kernel
  have e2 : exIrregular.cont.coord 2 = .ok 4 := by decide +kernel
  interval_cases i
  · rw [e0] at hp; rw [show (0 : ℤ) + 1 = 1 from rfl, e1] at hq; cases hp; cases hq
    exact small.trans (by norm_num)
  · rw [e1] at hp; rw [show (1 : ℤ) + 1 = 2 from rfl, e2] at hq; cases hp; cases hq
    exact small.trans (by norm_num)

theorem exIrregular_plain : Plain exIrregular 2 :=
  ⟨isDouble_int (n := 2) (by norm_num), ⟨-1, 4, by decide +kernel, by decide +kernel, by norm_num, fun h => by cases h⟩,
    fun h => by cases h⟩

theorem exIrregular_beyond : Beyond exIrregular 5 :=
  ⟨isDouble_int (n := 5) (by norm_num), rfl, rfl, -1, 4, 1, by decide +kernel, by decide +kernel, by decide +kernel,
    by norm_num, by norm_num⟩

/- The values of `C126_grid3_value`, `C126_grid3_methods`, `C126_grid3_node` and `C126_grid3_outside` on this grid: 2 is at a
third of the way from 1 to 4, and nearer to 1. -/
example : trivariateAx .linear exGrid3 10 0 2 true = .ok (some (fl (1 / 3))) ∧
    trivariateAx .nearest exGrid3 10 0 2 true = .ok (some 0) ∧ trivariateAx .nearest exGrid3 10 0 3 true = .ok (some 1) ∧
    trivariateAx .linear exGrid3 45 1 4 true = .ok (some 1) ∧ trivariateAx .linear exGrid3 45 1 5 true = .error .exn ∧
    trivariateAx .linear exGrid3 45 1 5 false = .ok none := by
  refine ⟨?_, ?_, ?_, ?_, ?_, ?_⟩ <;> decide +kernel

/-- The same grid with NaN at one point. -/
def exGrid3' : AxGrid3 :=
  { exGrid3 with arr := { shape := [8, 3, 3], at' := fun idx => if idx = [1, 1, 1] then none else some 1 } }

/- `C126_grid3_nan`: the value at a point next to the NaN is NaN when the cell that is found holds the NaN. -/
example : trivariateAx .linear exGrid3' 10 2 2 true = .ok none ∧ trivariateAx .linear exGrid3' 0 1 1 true = .ok none ∧
    trivariateAx .linear exGrid3' 100 2 2 true = .ok (some 1) := by
  refine ⟨?_, ?_, ?_⟩ <;> decide +kernel

/-- The same axes in four dimensions; the value is the number of the plane along u. -/
def exGrid4 : AxGrid4 :=
  { x := exCircle, y := exIrregular, z := exIrregular, u := exIrregular,
    arr := { shape := [8, 3, 3, 3], at' := fun idx => some (idx.getD 3 0 : ℕ) } }

theorem exGrid4_ok : OnAxes4 exGrid4 (fun _ _ _ l => (l : ℕ)) := by
  refine ⟨exCircle_built, exIrregular_built, exIrregular_built, exIrregular_built, rfl, ?_⟩
  intro i j k l _ _ _ hl
  refine ⟨rfl, ?_⟩
  have : (l : ℤ) < 3 := hl
  have := isDouble_int (n := l) (by rw [abs_of_nonneg (by omega)]; omega)
  exact_mod_cast this

example : quadrivariateAx .linear .linear exGrid4 10 0 2 0 true = .ok (some (1 / 2)) ∧
    quadrivariateAx .nearest .nearest exGrid4 10 0 2 2 true = .ok (some 1) ∧
    quadrivariateAx .linear .nearest exGrid4 10 0 2 3 true = .ok (some 2) ∧
    quadrivariateAx .linear .linear exGrid4 10 0 2 5 false = .ok none := by
  refine ⟨?_, ?_, ?_, ?_⟩ <;> decide +kernel

end Pyinterp.Double
