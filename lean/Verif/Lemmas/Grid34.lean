import Verif.Props.C47_Grid2D

/-!
Layers of 3-D and 4-D grids.
-/
namespace Pyinterp.Variate
open Pyinterp Spec
set_option linter.unusedSectionVars false
set_option linter.unusedVariables false
set_option linter.unusedSimpArgs false

/-- The conversion of the Z coordinates to floating point numbers respects differences and
order. -/
class LawfulZNum (T K : Type) [CommRing T] [LinearOrder T] [Field K] [LinearOrder K] [ZNum T K] :
    Prop where
  toK_sub : ∀ a b : T, (ZNum.toK (a - b) : K) = ZNum.toK a - ZNum.toK b
  toK_lt : ∀ a b : T, a < b → (ZNum.toK a : K) < ZNum.toK b

section
variable {K : Type} [Field K] [LinearOrder K] [IsStrictOrderedRing K] [FloorRing K]

instance : LawfulZNum K K where
  toK_sub _ _ := rfl
  toK_lt _ _ h := h

instance : LawfulZNum Int K where
  toK_sub a b := by simp [ZNum.toK]
  toK_lt a b h := by simpa [ZNum.toK] using h

variable {T : Type} [CommRing T] [LinearOrder T] [IsStrictOrderedRing T] [AxisNum T]
  [LawfulAxisNum T] [ZNum T K] [LawfulZNum T K]

theorem toK_ne {a b : T} (h : a ≠ b) : (ZNum.toK a : K) ≠ ZNum.toK b := by
  rcases lt_or_gt_of_ne h with h | h
  · exact (LawfulZNum.toK_lt a b h).ne
  · exact (LawfulZNum.toK_lt b a h).ne'

theorem toK_le {a b : T} (h : a ≤ b) : (ZNum.toK a : K) ≤ ZNum.toK b := by
  rcases h.lt_or_eq with h | h
  · exact (LawfulZNum.toK_lt a b h).le
  · rw [h]

theorem toK_between {a b c : T} (h : Between a c b) :
    Between (ZNum.toK a : K) (ZNum.toK c) (ZNum.toK b) := by
  rcases h with h | h
  · exact Or.inl ⟨toK_le h.1, toK_le h.2⟩
  · exact Or.inr ⟨toK_le h.1, toK_le h.2⟩

/-- `linear` between two distinct coordinates. -/
theorem zLinear_some {z z0 z1 : T} (h : z0 ≠ z1) (r0 r1 : K) :
    ∃ r, zLinear z z0 z1 (some r0) (some r1) = some r ∧
      OnLine (ZNum.toK z0) (ZNum.toK z1) r0 r1 (ZNum.toK z) r := by
  have hne : (ZNum.toK z1 : K) - ZNum.toK z0 ≠ 0 := sub_ne_zero.mpr (toK_ne h).symm
  have h1 : (ZNum.toK (z1 - z0) : K) ≠ 0 := by rw [LawfulZNum.toK_sub]; exact hne
  unfold zLinear
  simp only [if_neg h1]
  refine ⟨_, rfl, ?_⟩
  unfold OnLine
  rw [LawfulZNum.toK_sub (T := T) (K := K), LawfulZNum.toK_sub (T := T) (K := K),
    LawfulZNum.toK_sub (T := T) (K := K)]
  have e : ((ZNum.toK z1 : K) - ZNum.toK z) / (ZNum.toK z1 - ZNum.toK z0) +
      (ZNum.toK z - ZNum.toK z0) / (ZNum.toK z1 - ZNum.toK z0) = 1 := by
    rw [← add_div, div_eq_one_iff_eq hne]; ring
  rw [e]
  simp only [div_one]
  field_simp

theorem zLinear_none {z z0 z1 : T} (h : z0 ≠ z1) (r0 r1 : Option K) (hn : r0 = none ∨ r1 = none) :
    zLinear z z0 z1 r0 r1 = none := by
  have hne : (ZNum.toK z1 : K) - ZNum.toK z0 ≠ 0 := sub_ne_zero.mpr (toK_ne h).symm
  have h1 : (ZNum.toK (z1 - z0) : K) ≠ 0 := by rw [LawfulZNum.toK_sub]; exact hne
  unfold zLinear
  simp only [if_neg h1]
  cases r0 <;> cases r1 <;> first | rfl | simp at hn

/-- A value of the array within its shape. -/
theorem value_ok {arr : Arr K} {idx : List Nat} (hl : idx.length = arr.shape.length)
    (h : ∀ p ∈ idx.zip arr.shape, p.1 < p.2) :
    arr.value (idx.map (fun n : Nat => (n : Int))) = .ok (arr.at' idx) := by
  unfold Arr.value
  rw [if_pos]
  · rw [List.map_map]
    congr 2
    conv_rhs => rw [← List.map_id idx]
    apply List.map_congr_left
    intro n _
    simp
  · refine ⟨by simpa using hl, ?_⟩
    intro p hp
    rw [List.zip_map_left] at hp
    obtain ⟨⟨a, b⟩, hab, rfl⟩ := List.mem_map.mp hp
    have := h _ hab
    simp at this ⊢
    exact this

theorem mkGrid3D_ok {ax ay : Axis K} {az : Axis T} {arr : Arr K} {g : Grid3D T K}
    (h : mkGrid3D ax ay az arr = .ok g) :
    g.x = ax ∧ g.y = ay ∧ g.z = az ∧ g.arr = arr ∧ ay.isCircle = false ∧ az.isCircle = false ∧
      ∃ nx ny nz : Nat, arr.shape = [nx, ny, nz] ∧ ax.size = nx ∧ ay.size = ny ∧ az.size = nz := by
  unfold mkGrid3D at h
  split at h
  · simp at h
  rename_i h0
  split at h
  · simp at h
  rename_i h1
  split at h
  · simp at h
  rename_i h2
  split at h
  · simp at h
  rename_i h3
  split at h
  · simp at h
  rename_i h4
  injection h with h
  subst h
  simp only [Bool.or_eq_true, Bool.not_eq_eq_eq_not, Bool.not_true, not_or, Bool.not_eq_false] at h1 h3
  have hlen : arr.shape.length = 3 := by omega
  obtain ⟨nx, ny, nz, hs⟩ := List.length_eq_three.mp hlen
  refine ⟨rfl, rfl, rfl, rfl, by simpa using h2, by simpa using h4, nx, ny, nz, hs, ?_, ?_, ?_⟩
  · simpa [checkShape, hs] using h1.1
  · simpa [checkShape, hs] using h1.2
  · simpa [checkShape, hs] using h3

theorem mkGrid4D_ok {ax ay : Axis K} {az : Axis T} {au : Axis K} {arr : Arr K} {g : Grid4D T K}
    (h : mkGrid4D ax ay az au arr = .ok g) :
    g.x = ax ∧ g.y = ay ∧ g.z = az ∧ g.u = au ∧ g.arr = arr ∧ ay.isCircle = false ∧
      az.isCircle = false ∧ au.isCircle = false ∧
      ∃ nx ny nz nu : Nat, arr.shape = [nx, ny, nz, nu] ∧ ax.size = nx ∧ ay.size = ny ∧
        az.size = nz ∧ au.size = nu := by
  unfold mkGrid4D at h
  split at h
  · simp at h
  rename_i h0
  split at h
  · simp at h
  rename_i h1
  split at h
  · simp at h
  rename_i h2
  split at h
  · simp at h
  rename_i h3
  split at h
  · simp at h
  rename_i h4
  split at h
  · simp at h
  rename_i h5
  split at h
  · simp at h
  rename_i h6
  injection h with h
  subst h
  simp only [Bool.or_eq_true, Bool.not_eq_eq_eq_not, Bool.not_true, not_or, Bool.not_eq_false] at h1 h3 h5
  have hlen : arr.shape.length = 4 := by omega
  obtain ⟨nx, ny, nz, nu, hs⟩ : ∃ a b c d, arr.shape = [a, b, c, d] := by
    match hh : arr.shape with
    | [a, b, c, d] => exact ⟨a, b, c, d, rfl⟩
    | [] => simp [hh] at hlen
    | [_] => simp [hh] at hlen
    | [_, _] => simp [hh] at hlen
    | [_, _, _] => simp [hh] at hlen
    | _ :: _ :: _ :: _ :: _ :: _ => simp [hh] at hlen
  refine ⟨rfl, rfl, rfl, rfl, rfl, by simpa using h2, by simpa using h4, by simpa using h6,
    nx, ny, nz, nu, hs, ?_, ?_, ?_, ?_⟩
  · simpa [checkShape, hs] using h1.1
  · simpa [checkShape, hs] using h1.2
  · simpa [checkShape, hs] using h3
  · simpa [checkShape, hs] using h5

/-- The evaluation in a cell whose nodes are in the array. -/
theorem cell3_eq {m : Method K} {zm : ZMethod} {arr : Arr K} {rest : List Nat} {nx ny nz : Nat}
    {nr : List Nat} (hs : arr.shape = [nx, ny, nz] ++ nr) (hr : rest.length = nr.length)
    (hrest : ∀ p ∈ rest.zip nr, p.1 < p.2) {i i' j j' k k' : Nat} (hi : i < nx) (hi' : i' < nx)
    (hj : j < ny) (hj' : j' < ny) (hk : k < nz) (hk' : k' < nz) (p p0 p1 : K × K) (z z0 z1 : T) :
    cell3 m zm arr (rest.map (fun n : Nat => (n : Int))) p p0 p1 z z0 z1 i i' j j' k k' =
      zm.evaluate z z0 z1
        (m.evaluate p p0 p1 (arr.at' ([i, j, k] ++ rest)) (arr.at' ([i, j', k] ++ rest))
          (arr.at' ([i', j, k] ++ rest)) (arr.at' ([i', j', k] ++ rest)))
        (m.evaluate p p0 p1 (arr.at' ([i, j, k'] ++ rest)) (arr.at' ([i, j', k'] ++ rest))
          (arr.at' ([i', j, k'] ++ rest)) (arr.at' ([i', j', k'] ++ rest))) := by
  have hv : ∀ a b c : Nat, a < nx → b < ny → c < nz →
      arr.value ([(a : Int), (b : Int), (c : Int)] ++ rest.map (fun n : Nat => (n : Int))) =
        .ok (arr.at' ([a, b, c] ++ rest)) := by
    intro a b c ha hb hc
    have := value_ok (arr := arr) (idx := [a, b, c] ++ rest) (by rw [hs]; simp [hr]) (by
      intro p hp
      rw [hs] at hp
      simp only [List.cons_append, List.nil_append, List.zip_cons_cons, List.mem_cons] at hp
      rcases hp with rfl | rfl | rfl | hp
      · exact ha
      · exact hb
      · exact hc
      · exact hrest p hp)
    simpa using this
  unfold cell3
  rw [hv i j k hi hj hk, hv i j' k hi hj' hk, hv i' j k hi' hj hk, hv i' j' k hi' hj' hk,
    hv i j k' hi hj hk', hv i j' k' hi hj' hk', hv i' j k' hi' hj hk', hv i' j' k' hi' hj' hk']
  rfl

/-- Kinds of Z axes: floating point axes and temporal axes (64-bit integers), with the axes a
program can hold. -/
class ZAxis (T : Type) [CommRing T] [LinearOrder T] [IsStrictOrderedRing T] [AxisNum T]
    [LawfulAxisNum T] where
  Reachable : Axis T → Prop
  ok : ∀ a l, Reachable a → Coordinates a l → AxisOk a l

instance : ZAxis K where
  Reachable := Reach false
  ok _ _ h hl := reach_axisOk h hl

instance : ZAxis Int where
  Reachable := ReachI
  ok _ _ h hl := reachI_axisOk h hl

/-- The layer number `k` of an array along its last dimension. -/
def Arr.layer (a : Arr K) (k : Nat) : Arr K :=
  { shape := a.shape.dropLast, at' := fun idx => a.at' (idx ++ [k]) }

theorem layer_grid2D {ax ay : Axis K} {az : Axis T} {arr : Arr K} {g : Grid3D T K}
    (h : mkGrid3D ax ay az arr = .ok g) (k : Nat) :
    mkGrid2D ax ay (arr.layer k) = .ok { x := ax, y := ay, arr := arr.layer k } := by
  obtain ⟨-, -, -, -, hc, -, nx, ny, nz, hs, h1, h2, -⟩ := mkGrid3D_ok h
  simp [mkGrid2D, Arr.layer, hs, checkShape, hc, h1, h2]

theorem layer_grid3D {ax ay : Axis K} {az : Axis T} {au : Axis K} {arr : Arr K} {g : Grid4D T K}
    (h : mkGrid4D ax ay az au arr = .ok g) (k : Nat) :
    mkGrid3D ax ay az (arr.layer k) = .ok { x := ax, y := ay, arr := arr.layer k, z := az } := by
  obtain ⟨-, -, -, -, -, hc, hc', -, nx, ny, nz, nu, hs, h1, h2, h3, -⟩ := mkGrid4D_ok h
  simp [mkGrid3D, Arr.layer, hs, checkShape, hc, h1, h2, h3, hc']

/-- `_trivariate` in terms of `_bivariate` on two layers. -/
theorem tri_layers {ax ay : Axis K} {az : Axis T} {arr : Arr K} {g : Grid3D T K} {lx ly : List K}
    {lz : List T} (okx : AxisOk ax lx) (oky : AxisOk ay ly) (okz : AxisOk az lz)
    (hg : mkGrid3D ax ay az arr = .ok g) (h2x : 2 ≤ lx.length) (h2y : 2 ≤ ly.length)
    (h2z : 2 ≤ lz.length) {z : T} (htz : OnTurn az lz z z) (hinz : ¬ Outside lz z) :
    ∃ (k k' : Nat) (hk : k < lz.length) (hk' : k' < lz.length), (k' = k + 1 ∨ k = k' + 1) ∧
      Between lz[k] z lz[k'] ∧
      ∀ (m : Method K) (zm : ZMethod) (x y : K) (b : Bool),
        let r0 := bivariate m { x := ax, y := ay, arr := arr.layer k } x y b
        let r1 := bivariate m { x := ax, y := ay, arr := arr.layer k' } x y b
        (∃ s0 s1, r0 = .ok s0 ∧ r1 = .ok s1 ∧
          trivariate m zm g x y z b = zm.evaluate z lz[k] lz[k'] s0 s1) ∨
        (r0 = r1 ∧ trivariate m zm g x y z b = r0 ∧
          (b = true ∧ r0 = .error .exn ∨ b = false ∧ r0 = .ok none)) := by
  obtain ⟨rfl, rfl, rfl, rfl, -, -, nx, ny, nz, hs, hnx, hny, hnz⟩ := mkGrid3D_ok hg
  have hnx' : nx = lx.length := by have := okx.stores.size_eq; unfold Axis.size at hnx; omega
  have hny' : ny = ly.length := by have := oky.stores.size_eq; unfold Axis.size at hny; omega
  have hnz' : nz = lz.length := by have := okz.stores.size_eq; unfold Axis.size at hnz; omega
  subst hnx' hny' hnz'
  obtain ⟨k, k', hk, hk', hadjk, fz, bz, cz0, cz1, -⟩ := locate okz h2z htz hinz
  refine ⟨k, k', hk, hk', hadjk, bz, ?_⟩
  intro m zm x y b
  rcases findIndexes_ok okx h2x x with fx | ⟨i, i', hi, hi', fx, cx0, cx1⟩
  · right
    cases b <;> rcases findIndexes_ok oky h2y y with fy | ⟨j, j', hj, hj', fy, cy0, cy1⟩ <;>
      simp [bivariate, trivariate, fx, fy, fz, bind, Except.bind, pure, Except.pure]
  rcases findIndexes_ok oky h2y y with fy | ⟨j, j', hj, hj', fy, cy0, cy1⟩
  · right
    cases b <;> simp [bivariate, trivariate, fx, fy, fz, bind, Except.bind, pure, Except.pure]
  left
  have hb := fun k => bivariate_eq (m := m) (g := { x := g.x, y := g.y, arr := g.arr.layer k }) (b := b)
    (nx := lx.length) (ny := ly.length) (by simp [Arr.layer, hs]) hi hi' hj hj' fx fy cx0 cx1 cy0 cy1
  refine ⟨_, _, hb k, hb k', ?_⟩
  have hcell := cell3_eq (m := m) (zm := zm) (arr := g.arr) (rest := []) (nr := []) hs rfl (by simp)
    hi hi' hj hj' hk hk' (g.x.normalizeCoordinate' x lx[i], y) (lx[i], ly[j]) (lx[i'], ly[j'])
    z lz[k] lz[k']
  unfold trivariate
  simp only [fx, fy, fz, bind, Except.bind, cx0, cx1, cy0, cy1, cz0, cz1]
  simpa [Arr.layer] using hcell

/-- `_quadrivariate` in terms of `_trivariate` on two layers. -/
theorem quad_layers {ax ay : Axis K} {az : Axis T} {au : Axis K} {arr : Arr K} {g : Grid4D T K}
    {lx ly lu : List K} {lz : List T} (okx : AxisOk ax lx) (oky : AxisOk ay ly) (okz : AxisOk az lz)
    (oku : AxisOk au lu) (hg : mkGrid4D ax ay az au arr = .ok g) (h2x : 2 ≤ lx.length)
    (h2y : 2 ≤ ly.length) (h2z : 2 ≤ lz.length) (h2u : 2 ≤ lu.length) {u : K}
    (htu : OnTurn au lu u u) (hinu : ¬ Outside lu u) :
    ∃ (n n' : Nat) (hn : n < lu.length) (hn' : n' < lu.length), (n' = n + 1 ∨ n = n' + 1) ∧
      Between lu[n] u lu[n'] ∧
      ∀ (m : Method K) (zm um : ZMethod) (x y : K) (z : T) (b : Bool),
        let r0 := trivariate m zm { x := ax, y := ay, arr := arr.layer n, z := az } x y z b
        let r1 := trivariate m zm { x := ax, y := ay, arr := arr.layer n', z := az } x y z b
        quadrivariate m zm um g x y z u b =
          (do let s0 ← r0
              let s1 ← r1
              um.evaluate u lu[n] lu[n'] s0 s1) ∨
        (r0 = r1 ∧ quadrivariate m zm um g x y z u b = r0 ∧
          (b = true ∧ r0 = .error .exn ∨ b = false ∧ r0 = .ok none)) := by
  obtain ⟨rfl, rfl, rfl, rfl, rfl, -, -, -, nx, ny, nz, nu, hs, hnx, hny, hnz, hnu⟩ := mkGrid4D_ok hg
  have hnx' : nx = lx.length := by have := okx.stores.size_eq; unfold Axis.size at hnx; omega
  have hny' : ny = ly.length := by have := oky.stores.size_eq; unfold Axis.size at hny; omega
  have hnz' : nz = lz.length := by have := okz.stores.size_eq; unfold Axis.size at hnz; omega
  have hnu' : nu = lu.length := by have := oku.stores.size_eq; unfold Axis.size at hnu; omega
  subst hnx' hny' hnz' hnu'
  obtain ⟨n, n', hn, hn', hadjn, fu, bu, cu0, cu1, -⟩ := locate oku h2u htu hinu
  refine ⟨n, n', hn, hn', hadjn, bu, ?_⟩
  intro m zm um x y z b
  rcases findIndexes_ok okx h2x x with fx | ⟨i, i', hi, hi', fx, cx0, cx1⟩
  · right
    cases b <;> rcases findIndexes_ok oky h2y y with fy | ⟨j, j', hj, hj', fy, cy0, cy1⟩ <;>
      rcases findIndexes_ok okz h2z z with fz | ⟨k, k', hk, hk', fz, cz0, cz1⟩ <;>
      simp [quadrivariate, trivariate, fx, fy, fz, fu, bind, Except.bind, pure, Except.pure]
  rcases findIndexes_ok oky h2y y with fy | ⟨j, j', hj, hj', fy, cy0, cy1⟩
  · right
    cases b <;> rcases findIndexes_ok okz h2z z with fz | ⟨k, k', hk, hk', fz, cz0, cz1⟩ <;>
      simp [quadrivariate, trivariate, fx, fy, fz, fu, bind, Except.bind, pure, Except.pure]
  rcases findIndexes_ok okz h2z z with fz | ⟨k, k', hk, hk', fz, cz0, cz1⟩
  · right
    cases b <;> simp [quadrivariate, trivariate, fx, fy, fz, fu, bind, Except.bind, pure, Except.pure]
  left
  have hcell := fun (c : Nat) (hc : c < lu.length) =>
    cell3_eq (m := m) (zm := zm) (arr := g.arr) (rest := [c]) (nr := [lu.length]) hs rfl
      (by simpa using hc) hi hi' hj hj' hk hk' (g.x.normalizeCoordinate' x lx[i], y) (lx[i], ly[j])
      (lx[i'], ly[j']) z lz[k] lz[k']
  have hlay := fun (c : Nat) =>
    cell3_eq (m := m) (zm := zm) (arr := g.arr.layer c) (rest := []) (nr := [])
      (nx := lx.length) (ny := ly.length) (nz := lz.length) (by simp [Arr.layer, hs]) rfl
      (by simp) hi hi' hj hj' hk hk' (g.x.normalizeCoordinate' x lx[i], y) (lx[i], ly[j])
      (lx[i'], ly[j']) z lz[k] lz[k']
  have h1 := hcell n hn
  have h2 := hcell n' hn'
  simp only [List.map_cons, List.map_nil] at h1 h2 hlay
  unfold quadrivariate trivariate
  simp only [fx, fy, fz, fu, bind, Except.bind, cx0, cx1, cy0, cy1, cz0, cz1, cu0, cu1, h1, h2, hlay]
  rfl

end
end Pyinterp.Variate
