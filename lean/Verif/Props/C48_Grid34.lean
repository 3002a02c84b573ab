import Verif.Lemmas.Grid34

/-!
C48 – interpolation of 3-D and 4-D grids.

The z axis is a floating point axis (`T = K`) or a temporal axis (`T = Int`), see `ZAxis`;
`ZNum.toK` is the conversion of its coordinates to floating point numbers.
-/
namespace Pyinterp.Variate
open Pyinterp Spec
set_option linter.unusedSectionVars false
set_option linter.unusedVariables false
set_option linter.unusedSimpArgs false

section
variable {K : Type} [Field K] [LinearOrder K] [IsStrictOrderedRing K] [FloorRing K]
variable {T : Type} [CommRing T] [LinearOrder T] [IsStrictOrderedRing T] [AxisNum T]
  [LawfulAxisNum T] [ZNum T K] [LawfulZNum T K] [ZAxis T]

theorem frames_of {l : List T} {c : T} {i j : Nat} (hi : i < l.length) (hj : j < l.length)
    (hadj : j = i + 1 ∨ i = j + 1) (hb : Between l[i] c l[j]) : Frames l false c i j :=
  ⟨by omega, by omega, by simpa using hi, by simpa using hj, Or.inl ⟨by omega, by simpa using hb⟩⟩

/-- Combination of two values along an axis. -/
theorem linear_combine {z z0 z1 : T} (hne : z0 ≠ z1) (hb : Between z0 z z1) (s0 s1 : K) :
    ∃ r, ZMethod.linear.evaluate z z0 z1 (some s0) (some s1) = .ok (some r) ∧
      OnLine (ZNum.toK z0) (ZNum.toK z1) s0 s1 (ZNum.toK z) r ∧ InRange [s0, s1] r := by
  obtain ⟨r, h1, h2⟩ := zLinear_some (z := z) hne s0 s1
  exact ⟨r, by simp [ZMethod.evaluate, h1], h2, (h2.isMean (toK_ne hne) (toK_between hb)).inRange⟩

/-- **C48** Interpolation of a 3-D grid, linear along z. For a coordinate `z` within the z axis
there are two neighbouring layers `k`, `k'` whose coordinates frame `z`; the result is the value
at `z` of the straight line between the results `s0` and `s1` of the 2-D interpolation (with the
same interpolator) of these two layers of the array, and lies between them; it is NaN if one of
them is NaN. The z coordinate of an angular axis must already be on the turn that starts at its
smallest coordinate. -/
theorem C48_linear (ax ay : Axis K) (az : Axis T) (arr : Arr K) (g : Grid3D T K) (lx ly : List K)
    (lz : List T) (hax : Reach false ax) (hay : Reach false ay) (haz : ZAxis.Reachable az)
    (hlx : Coordinates ax lx) (hly : Coordinates ay ly) (hlz : Coordinates az lz)
    (hg : mkGrid3D ax ay az arr = .ok g) (h2x : 2 ≤ lx.length) (h2y : 2 ≤ ly.length)
    (h2z : 2 ≤ lz.length) (z : T) (htz : OnTurn az lz z z) (hinz : ¬ Outside lz z) :
    ∃ (k k' : Nat) (g0 g1 : Grid2D K), Frames lz false z k k' ∧
      mkGrid2D ax ay (arr.layer k) = .ok g0 ∧ mkGrid2D ax ay (arr.layer k') = .ok g1 ∧
      ∀ (m : Method K) (x y : K) (b : Bool),
        (∀ s0 s1, bivariate m g0 x y b = .ok (some s0) → bivariate m g1 x y b = .ok (some s1) →
          ∃ r, trivariate m .linear g x y z b = .ok (some r) ∧
            OnLine (ZNum.toK (lz.getD k 0)) (ZNum.toK (lz.getD k' 0)) s0 s1 (ZNum.toK z) r ∧
            InRange [s0, s1] r) ∧
        (bivariate m g0 x y b = .ok none ∨ bivariate m g1 x y b = .ok none →
          trivariate m .linear g x y z b = .ok none) := by
  have okz := ZAxis.ok az lz haz hlz
  obtain ⟨k, k', hk, hk', hadj, hb, hall⟩ := tri_layers (reach_axisOk hax hlx) (reach_axisOk hay hly) okz hg
    h2x h2y h2z htz hinz
  have hne := strict_ne (axisOk_strict okz) hk hk' (by omega)
  refine ⟨k, k', _, _, frames_of hk hk' hadj hb, layer_grid2D hg k, layer_grid2D hg k', ?_⟩
  intro m x y b
  have e0 : lz.getD k 0 = lz[k] := by simp [hk]
  have e1 : lz.getD k' 0 = lz[k'] := by simp [hk']
  rw [e0, e1]
  rcases hall m .linear x y b with ⟨s0, s1, h0, h1, ht⟩ | ⟨h0, h1, h2⟩
  · rw [h0, h1, ht]
    constructor
    · intro t0 t1 f0 f1
      simp only [Except.ok.injEq] at f0 f1
      subst f0 f1
      exact linear_combine hne hb t0 t1
    · intro hn
      simp only [Except.ok.injEq] at hn
      simp only [ZMethod.evaluate, zLinear_none hne s0 s1 hn]
  · constructor
    · intro t0 t1 f0 f1
      rw [f0] at h2
      simp at h2
    · intro hn
      rw [h1]
      rcases hn with hn | hn
      · exact hn
      · rw [h0]; exact hn

/-- The closest end of the interval is the closest coordinate. -/
theorem nearest_adj {l : List T} (hs : StrictlyMonotone l) {k k' : Nat} (hk : k < l.length)
    (hk' : k' < l.length) (hadj : k' = k + 1 ∨ k = k' + 1) {z : T} (hb : Between l[k] z l[k'])
    (hle : |z - l[k]| ≤ |z - l[k']|) : Nearest l z k := by
  refine ⟨l[k], by omega, by simp [hk], ?_⟩
  intro w hw
  obtain ⟨q, hq, rfl⟩ := List.getElem_of_mem hw
  have far : ∀ v w : T, (v ≤ z ∧ w ≤ v) ∨ (z ≤ v ∧ v ≤ w) → |z - v| ≤ |z - w| := by
    intro v w h
    rcases h with ⟨h1, h2⟩ | ⟨h1, h2⟩
    · rw [abs_of_nonneg (by linarith), abs_of_nonneg (by linarith)]; linarith
    · rw [abs_of_nonpos (by linarith), abs_of_nonpos (by linarith)]; linarith
  have key : |z - l[k]| ≤ |z - l[q]| ∨ |z - l[k']| ≤ |z - l[q]| := by
    by_cases e1 : q = k
    · left; subst e1; exact le_refl _
    by_cases e2 : q = k'
    · right; subst e2; exact le_refl _
    rcases hs with hs | hs
    · have lt := fun a b ha hb hab => List.pairwise_iff_getElem.mp hs a b ha hb hab
      rcases hadj with rfl | rfl
      · have h0 := lt k (k + 1) hk hk' (by omega)
        have hz : l[k] ≤ z ∧ z ≤ l[k + 1] := by
          rcases hb with hb | hb
          · exact hb
          · exact ⟨by linarith [hb.1, hb.2], by linarith [hb.1, hb.2]⟩
        rcases Nat.lt_or_ge q k with hlt | hge
        · exact Or.inl (far _ _ (Or.inl ⟨hz.1, (lt q k hq hk hlt).le⟩))
        · exact Or.inr (far _ _ (Or.inr ⟨hz.2, (lt (k + 1) q hk' hq (by omega)).le⟩))
      · have h0 := lt k' (k' + 1) hk' hk (by omega)
        have hz : l[k'] ≤ z ∧ z ≤ l[k' + 1] := by
          rcases hb with hb | hb
          · exact ⟨by linarith [hb.1, hb.2], by linarith [hb.1, hb.2]⟩
          · exact hb
        rcases Nat.lt_or_ge q k' with hlt | hge
        · exact Or.inr (far _ _ (Or.inl ⟨hz.1, (lt q k' hq hk' hlt).le⟩))
        · exact Or.inl (far _ _ (Or.inr ⟨hz.2, (lt (k' + 1) q hk hq (by omega)).le⟩))
    · have lt := fun a b ha hb hab => List.pairwise_iff_getElem.mp hs a b ha hb hab
      rcases hadj with rfl | rfl
      · have h0 := lt k (k + 1) hk hk' (by omega)
        have hz : l[k + 1] ≤ z ∧ z ≤ l[k] := by
          rcases hb with hb | hb
          · exact ⟨by linarith [hb.1, hb.2], by linarith [hb.1, hb.2]⟩
          · exact hb
        rcases Nat.lt_or_ge q k with hlt | hge
        · exact Or.inl (far _ _ (Or.inr ⟨hz.2, (lt q k hq hk hlt).le⟩))
        · exact Or.inr (far _ _ (Or.inl ⟨hz.1, (lt (k + 1) q hk' hq (by omega)).le⟩))
      · have h0 := lt k' (k' + 1) hk' hk (by omega)
        have hz : l[k' + 1] ≤ z ∧ z ≤ l[k'] := by
          rcases hb with hb | hb
          · exact hb
          · exact ⟨by linarith [hb.1, hb.2], by linarith [hb.1, hb.2]⟩
        rcases Nat.lt_or_ge q k' with hlt | hge
        · exact Or.inr (far _ _ (Or.inr ⟨hz.2, (lt q k' hq hk' hlt).le⟩))
        · exact Or.inl (far _ _ (Or.inl ⟨hz.1, (lt (k' + 1) q hk hq (by omega)).le⟩))
  rcases key with h | h
  · exact h
  · exact hle.trans h

/-- The layer selected by `nearest`, when the squares are defined. -/
theorem nearest_select {l : List T} (hs : StrictlyMonotone l) {k k' : Nat} (hk : k < l.length)
    (hk' : k' < l.length) (hadj : k' = k + 1 ∨ k = k' + 1) {z : T} (hb : Between l[k] z l[k'])
    (h0 : (ZNum.sqr K (l[k] - z) : Out T) = .ok ((l[k] - z) * (l[k] - z)))
    (h1 : (ZNum.sqr K (l[k'] - z) : Out T) = .ok ((l[k'] - z) * (l[k'] - z)))
    (s0 s1 : Option K) :
    (Nearest l z k ∧ ZMethod.nearest.evaluate z l[k] l[k'] s0 s1 = .ok s0) ∨
    (Nearest l z k' ∧ ZMethod.nearest.evaluate z l[k] l[k'] s0 s1 = .ok s1) := by
  simp only [ZMethod.evaluate, zNearest, h0, h1, bind, Except.bind, pure, Except.pure]
  have habs : ∀ a b : T, a * a < b * b → |a| < |b| := fun a b h => by
    rw [← abs_mul_abs_self a, ← abs_mul_abs_self b] at h
    exact lt_of_mul_self_lt_mul_self₀ (abs_nonneg b) h
  by_cases h : (l[k] - z) * (l[k] - z) < (l[k'] - z) * (l[k'] - z)
  · left
    refine ⟨nearest_adj hs hk hk' hadj hb ?_, by rw [if_pos h]⟩
    rw [abs_sub_comm z, abs_sub_comm z]
    exact (habs _ _ h).le
  · right
    refine ⟨nearest_adj hs hk' hk (by omega) (between_comm hb) ?_, by rw [if_neg h]⟩
    rw [abs_sub_comm z, abs_sub_comm z]
    by_contra hh
    push Not at hh
    apply h
    rw [← abs_mul_abs_self (l[k] - z), ← abs_mul_abs_self (l[k'] - z)]
    exact mul_self_lt_mul_self (abs_nonneg _) hh

theorem nearest_layers (ax ay : Axis K) (az : Axis T) (arr : Arr K) (g : Grid3D T K) (lx ly : List K)
    (lz : List T) (hax : Reach false ax) (hay : Reach false ay) (haz : ZAxis.Reachable az)
    (hlx : Coordinates ax lx) (hly : Coordinates ay ly) (hlz : Coordinates az lz)
    (hg : mkGrid3D ax ay az arr = .ok g) (h2x : 2 ≤ lx.length) (h2y : 2 ≤ ly.length)
    (h2z : 2 ≤ lz.length) (z : T) (htz : OnTurn az lz z z) (hinz : ¬ Outside lz z)
    (hsqr : ∀ (k k' : Nat) (hk : k < lz.length) (hk' : k' < lz.length), (k' = k + 1 ∨ k = k' + 1) →
      Between lz[k] z lz[k'] → (ZNum.sqr K (lz[k] - z) : Out T) = .ok ((lz[k] - z) * (lz[k] - z)))
    (m : Method K) (x y : K) (b : Bool) :
    ∃ (k : Nat) (gk : Grid2D K), Nearest lz z k ∧ mkGrid2D ax ay (arr.layer k) = .ok gk ∧
      trivariate m .nearest g x y z b = bivariate m gk x y b := by
  have okz := ZAxis.ok az lz haz hlz
  obtain ⟨k, k', hk, hk', hadj, hb, hall⟩ := tri_layers (reach_axisOk hax hlx) (reach_axisOk hay hly) okz hg
    h2x h2y h2z htz hinz
  have h0 := hsqr k k' hk hk' hadj hb
  have h1 := hsqr k' k hk' hk (by omega) (between_comm hb)
  rcases hall m .nearest x y b with ⟨s0, s1, e0, e1, ht⟩ | ⟨e0, e1, e2⟩
  · rcases nearest_select (axisOk_strict okz) hk hk' hadj hb h0 h1 s0 s1 with ⟨hn, hv⟩ | ⟨hn, hv⟩
    · exact ⟨k, _, hn, layer_grid2D hg k, by rw [ht, hv, e0]⟩
    · exact ⟨k', _, hn, layer_grid2D hg k', by rw [ht, hv, e1]⟩
  · rcases nearest_select (axisOk_strict okz) hk hk' hadj hb h0 h1 (none : Option K) none with ⟨hn, -⟩ | ⟨hn, -⟩
    · exact ⟨k, _, hn, layer_grid2D hg k, e1⟩
    · exact ⟨k', _, hn, layer_grid2D hg k', by rw [e1, e0]⟩

/-- **C48** Nearest along a floating point z axis: the result is the one of the 2-D
interpolation of a layer whose coordinate is nearest to `z`. -/
theorem C48_nearest (ax ay az : Axis K) (arr : Arr K) (g : Grid3D K K) (lx ly lz : List K)
    (hax : Reach false ax) (hay : Reach false ay) (haz : Reach false az)
    (hlx : Coordinates ax lx) (hly : Coordinates ay ly) (hlz : Coordinates az lz)
    (hg : mkGrid3D ax ay az arr = .ok g) (h2x : 2 ≤ lx.length) (h2y : 2 ≤ ly.length)
    (h2z : 2 ≤ lz.length) (z : K) (htz : OnTurn az lz z z) (hinz : ¬ Outside lz z)
    (m : Method K) (x y : K) (b : Bool) :
    ∃ (k : Nat) (gk : Grid2D K), Nearest lz z k ∧ mkGrid2D ax ay (arr.layer k) = .ok gk ∧
      trivariate m .nearest g x y z b = bivariate m gk x y b :=
  nearest_layers ax ay az arr g lx ly lz hax hay haz hlx hly hlz hg h2x h2y h2z z htz hinz
    (fun _ _ _ _ _ _ => rfl) m x y b

/-- **C48** Nearest along a temporal axis: as `C48_nearest`, if the square of the difference
between neighbouring dates fits in a 64-bit integer (see `C48_nearest_temporal_false`). -/
theorem C48_nearest_temporal_partial (ax ay : Axis K) (az : Axis Int) (arr : Arr K) (g : Grid3D Int K)
    (lx ly : List K) (lz : List Int)
    (hax : Reach false ax) (hay : Reach false ay) (haz : ReachI az)
    (hlx : Coordinates ax lx) (hly : Coordinates ay ly) (hlz : Coordinates az lz)
    (hg : mkGrid3D ax ay az arr = .ok g) (h2x : 2 ≤ lx.length) (h2y : 2 ≤ ly.length)
    (h2z : 2 ≤ lz.length) (z : Int) (htz : OnTurn az lz z z) (hinz : ¬ Outside lz z)
    (hgap : ∀ k (hk : k + 1 < lz.length), (lz[k + 1] - lz[k]) * (lz[k + 1] - lz[k]) < 2 ^ 63)
    (m : Method K) (x y : K) (b : Bool) :
    ∃ (k : Nat) (gk : Grid2D K), Nearest lz z k ∧ mkGrid2D ax ay (arr.layer k) = .ok gk ∧
      trivariate m .nearest g x y z b = bivariate m gk x y b := by
  refine nearest_layers ax ay az arr g lx ly lz hax hay haz hlx hly hlz hg h2x h2y h2z z htz hinz
    ?_ m x y b
  intro k k' hk hk' hadj hb
  show (if _ < _ then _ else _) = _
  rw [if_pos]
  have hgap' : (lz[k'] - lz[k]) * (lz[k'] - lz[k]) < 2 ^ 63 := by
    rcases hadj with rfl | rfl
    · exact hgap k hk'
    · have := hgap k' hk
      have e : (lz[k'] - lz[k' + 1]) * (lz[k'] - lz[k' + 1]) =
          (lz[k' + 1] - lz[k']) * (lz[k' + 1] - lz[k']) := by ring
      rw [e]; exact this
  refine lt_of_le_of_lt ?_ hgap'
  rcases hb with ⟨h1, h2⟩ | ⟨h1, h2⟩ <;> nlinarith

/-- **C48** Outside: when a coordinate lies outside its axis the result is NaN, or an
exception if `bounds_error` is set. -/
theorem C48_outside (ax ay : Axis K) (az : Axis T) (arr : Arr K) (g : Grid3D T K) (lx ly : List K)
    (lz : List T) (hax : Reach false ax) (hay : Reach false ay) (haz : ZAxis.Reachable az)
    (hlx : Coordinates ax lx) (hly : Coordinates ay ly) (hlz : Coordinates az lz)
    (hg : mkGrid3D ax ay az arr = .ok g) (h2x : 2 ≤ lx.length) (h2y : 2 ≤ ly.length)
    (h2z : 2 ≤ lz.length) (x y cx cy : K) (z cz : T) (htx : OnTurn ax lx x cx)
    (hty : OnTurn ay ly y cy) (htz : OnTurn az lz z cz)
    (hout : (ax.isCircle = false ∧ Outside lx cx) ∨ Outside ly cy ∨ Outside lz cz) (m : Method K)
    (zm : ZMethod) :
    trivariate m zm g x y z false = .ok none ∧ trivariate m zm g x y z true = .error .exn := by
  have okx := reach_axisOk hax hlx
  have oky := reach_axisOk hay hly
  have okz := ZAxis.ok az lz haz hlz
  obtain ⟨rfl, rfl, rfl, rfl, hcy, hcz, -⟩ := mkGrid3D_ok hg
  have key : g.x.findIndexes x = .ok none ∨ g.y.findIndexes y = .ok none ∨ g.z.findIndexes z = .ok none := by
    rcases hout with ⟨h1, h2⟩ | h | h
    · exact Or.inl (locate_none okx h2x htx h1 h2)
    · exact Or.inr (Or.inl (locate_none oky h2y hty hcy h))
    · exact Or.inr (Or.inr (locate_none okz h2z htz hcz h))
  rcases findIndexes_ok okx h2x x with fx | ⟨i, i', -, -, fx, -, -⟩ <;>
    rcases findIndexes_ok oky h2y y with fy | ⟨j, j', -, -, fy, -, -⟩ <;>
    rcases findIndexes_ok okz h2z z with fz | ⟨k, k', -, -, fz, -, -⟩ <;>
    first
      | (rw [fx, fy, fz] at key; simp at key; done)
      | (constructor <;> simp [trivariate, fx, fy, fz, bind, Except.bind, pure, Except.pure])

theorem surrounds_pair {l : List T} {c : T} {k k' : Nat} (hf : Frames l false c k k') :
    Surrounds l c k ∧ Surrounds l c k' ∧ ∃ (hk : k < l.length) (hk' : k' < l.length),
      k ≠ k' ∧ Between l[k] c l[k'] := by
  obtain ⟨-, -, hk, hk', h⟩ := hf
  simp only [Int.toNat_natCast] at hk hk' h
  rcases h with ⟨hadj, hb⟩ | ⟨h, -⟩
  · rcases hadj with h | h
    · have : k' = k + 1 := by omega
      subst this
      exact ⟨⟨k, ⟨hk', hb⟩, Or.inl rfl⟩, ⟨k, ⟨hk', hb⟩, Or.inr rfl⟩, hk, hk', by omega, hb⟩
    · have : k = k' + 1 := by omega
      subst this
      exact ⟨⟨k', ⟨hk, between_comm hb⟩, Or.inr rfl⟩, ⟨k', ⟨hk, between_comm hb⟩, Or.inl rfl⟩,
        hk, hk', by omega, hb⟩
  · cases h

/-- 2-D: if the nodes around the point are within bounds, so is the result. -/
theorem C47_range_partial (ax ay : Axis K) (arr : Arr K) (g : Grid2D K) (lx ly : List K)
    (hax : Reach false ax) (hay : Reach false ay) (hlx : Coordinates ax lx) (hly : Coordinates ay ly)
    (hg : mkGrid2D ax ay arr = .ok g) (h2x : 2 ≤ lx.length) (h2y : 2 ≤ ly.length)
    (x y cx : K) (bd : Bool) (htx : OnTurn ax lx x cx) (hty : OnTurn ay ly y y)
    (hinx : ¬ Outside lx cx) (hiny : ¬ Outside ly y)
    (hside : ax.isAngle = true → lx.Pairwise (· < ·) ∨ ∃ v ∈ lx, v < cx) (lo hi : K)
    (hq : ∀ a b, Surrounds lx cx a → Surrounds ly y b →
      ∃ q, arr.at' [a, b] = some q ∧ lo ≤ q ∧ q ≤ hi) :
    ∃ r, bivariate .bilinear g x y bd = .ok (some r) ∧ lo ≤ r ∧ r ≤ hi := by
  obtain ⟨i, j, hi', hj', bx, b_y, hv, -⟩ := C47_bilinear_partial ax ay arr g lx ly hax hay hlx hly hg h2x h2y
    x y cx bd htx hty hinx hiny hside
  have si : Surrounds lx cx i := ⟨i, ⟨hi', bx⟩, Or.inl rfl⟩
  have si' : Surrounds lx cx (i + 1) := ⟨i, ⟨hi', bx⟩, Or.inr rfl⟩
  have sj : Surrounds ly y j := ⟨j, ⟨hj', b_y⟩, Or.inl rfl⟩
  have sj' : Surrounds ly y (j + 1) := ⟨j, ⟨hj', b_y⟩, Or.inr rfl⟩
  obtain ⟨q00, e00, l00, u00⟩ := hq _ _ si sj
  obtain ⟨q01, e01, l01, u01⟩ := hq _ _ si sj'
  obtain ⟨q10, e10, l10, u10⟩ := hq _ _ si' sj
  obtain ⟨q11, e11, l11, u11⟩ := hq _ _ si' sj'
  obtain ⟨r, h1, -, h3⟩ := hv _ _ _ _ e00 e01 e10 e11
  obtain ⟨h4, h5⟩ := h3.bounds (lo := lo) (hi := hi) (by
    intro q hq
    simp only [List.mem_cons, List.not_mem_nil, or_false] at hq
    rcases hq with rfl | rfl | rfl | rfl <;> exact ⟨by assumption, by assumption⟩)
  exact ⟨r, h1, h4, h5⟩

/-- **C48** 3-D, bilinear and linear: if the nodes around the point are defined and within
bounds, so is the result. Restrictions of `C47_bilinear_partial` on the x and y axes. -/
theorem C48_range_partial (ax ay : Axis K) (az : Axis T) (arr : Arr K) (g : Grid3D T K) (lx ly : List K)
    (lz : List T) (hax : Reach false ax) (hay : Reach false ay) (haz : ZAxis.Reachable az)
    (hlx : Coordinates ax lx) (hly : Coordinates ay ly) (hlz : Coordinates az lz)
    (hg : mkGrid3D ax ay az arr = .ok g) (h2x : 2 ≤ lx.length) (h2y : 2 ≤ ly.length)
    (h2z : 2 ≤ lz.length) (x y cx : K) (z : T) (bd : Bool) (htx : OnTurn ax lx x cx)
    (hty : OnTurn ay ly y y) (htz : OnTurn az lz z z)
    (hinx : ¬ Outside lx cx) (hiny : ¬ Outside ly y) (hinz : ¬ Outside lz z)
    (hside : ax.isAngle = true → lx.Pairwise (· < ·) ∨ ∃ v ∈ lx, v < cx) (lo hi : K)
    (hq : ∀ a b c, Surrounds lx cx a → Surrounds ly y b → Surrounds lz z c →
      ∃ q, arr.at' [a, b, c] = some q ∧ lo ≤ q ∧ q ≤ hi) :
    ∃ r, trivariate .bilinear .linear g x y z bd = .ok (some r) ∧ lo ≤ r ∧ r ≤ hi := by
  obtain ⟨k, k', g0, g1, hf, hg0, hg1, hall⟩ := C48_linear ax ay az arr g lx ly lz hax hay haz hlx hly hlz hg
    h2x h2y h2z z htz hinz
  obtain ⟨sk, sk', -⟩ := surrounds_pair hf
  obtain ⟨s0, h0, l0, u0⟩ := C47_range_partial ax ay (arr.layer k) g0 lx ly hax hay hlx hly hg0 h2x h2y
    x y cx bd htx hty hinx hiny hside lo hi (fun a b ha hb => hq a b k ha hb sk)
  obtain ⟨s1, h1, l1, u1⟩ := C47_range_partial ax ay (arr.layer k') g1 lx ly hax hay hlx hly hg1 h2x h2y
    x y cx bd htx hty hinx hiny hside lo hi (fun a b ha hb => hq a b k' ha hb sk')
  obtain ⟨r, hr, -, hin⟩ := (hall .bilinear x y bd).1 s0 s1 h0 h1
  obtain ⟨h4, h5⟩ := hin.bounds (lo := lo) (hi := hi) (by
    intro q hq
    simp only [List.mem_cons, List.not_mem_nil, or_false] at hq
    rcases hq with rfl | rfl <;> exact ⟨by assumption, by assumption⟩)
  exact ⟨r, hr, h4, h5⟩

theorem onLine_end {x0 x1 q0 q1 x r : K} (h : OnLine x0 x1 q0 q1 x r) (hne : x0 ≠ x1) :
    (x = x0 → r = q0) ∧ (x = x1 → r = q1) := by
  have hne' : x1 - x0 ≠ 0 := sub_ne_zero.mpr hne.symm
  unfold OnLine at h
  constructor
  · rintro rfl
    apply mul_right_cancel₀ hne'
    rw [h]; ring
  · rintro rfl
    apply mul_right_cancel₀ hne'
    rw [h]; ring

/-- **C48** 3-D, bilinear and linear: at a node the result is the value of the node (when the
nodes around it are defined). Restrictions of `C47_bilinear_partial` on the x and y axes. -/
theorem C48_node_partial (ax ay : Axis K) (az : Axis T) (arr : Arr K) (g : Grid3D T K) (lx ly : List K)
    (lz : List T) (hax : Reach false ax) (hay : Reach false ay) (haz : ZAxis.Reachable az)
    (hlx : Coordinates ax lx) (hly : Coordinates ay ly) (hlz : Coordinates az lz)
    (hg : mkGrid3D ax ay az arr = .ok g) (h2x : 2 ≤ lx.length) (h2y : 2 ≤ ly.length)
    (h2z : 2 ≤ lz.length) (n m o : Nat) (hn : n < lx.length) (hm : m < ly.length) (ho : o < lz.length)
    (x : K) (b : Bool) (htx : OnTurn ax lx x lx[n]) (hty : OnTurn ay ly ly[m] ly[m])
    (htz : OnTurn az lz lz[o] lz[o])
    (hside : ax.isAngle = true → lx.Pairwise (· < ·) ∨ ∃ v ∈ lx, v < lx[n])
    (hdef : ∀ i j k, n ≤ i + 1 → i ≤ n + 1 → m ≤ j + 1 → j ≤ m + 1 → o ≤ k + 1 → k ≤ o + 1 →
      i < lx.length → j < ly.length → k < lz.length → (arr.at' [i, j, k]).isSome) :
    trivariate .bilinear .linear g x ly[m] lz[o] b = .ok (arr.at' [n, m, o]) := by
  have okz := ZAxis.ok az lz haz hlz
  obtain ⟨k, k', g0, g1, hf, hg0, hg1, hall⟩ := C48_linear ax ay az arr g lx ly lz hax hay haz hlx hly hlz hg
    h2x h2y h2z lz[o] htz (not_outside_mem (List.getElem_mem ho))
  obtain ⟨⟨c, ⟨hc1, hc2⟩, hc3⟩, -, hk, hk', hkk, hb⟩ := surrounds_pair hf
  have hadj : k' = k + 1 ∨ k = k' + 1 := by
    obtain ⟨_, _, _, _, h⟩ := hf
    rcases h with ⟨h, _⟩ | ⟨h, _⟩
    · omega
    · cases h
  have hok : o = k ∨ o = k' := by
    rcases hadj with rfl | rfl
    · exact node_of_between (axisOk_strict okz) hk' ho hb
    · exact (node_of_between (axisOk_strict okz) hk ho (between_comm hb)).symm
  have h0 := C47_node_partial ax ay (arr.layer k) g0 lx ly hax hay hlx hly hg0 h2x h2y n m hn hm x b
    htx hty hside (fun i j a1 a2 a3 a4 b1 b2 => hdef i j k a1 a2 a3 a4 (by omega) (by omega) b1 b2 hk)
  have h1 := C47_node_partial ax ay (arr.layer k') g1 lx ly hax hay hlx hly hg1 h2x h2y n m hn hm x b
    htx hty hside (fun i j a1 a2 a3 a4 b1 b2 => hdef i j k' a1 a2 a3 a4 (by omega) (by omega) b1 b2 hk')
  obtain ⟨s0, e0⟩ := Option.isSome_iff_exists.mp (hdef n m k (by omega) (by omega) (by omega) (by omega)
    (by omega) (by omega) hn hm hk)
  obtain ⟨s1, e1⟩ := Option.isSome_iff_exists.mp (hdef n m k' (by omega) (by omega) (by omega) (by omega)
    (by omega) (by omega) hn hm hk')
  have h0' : bivariate .bilinear g0 x ly[m] b = .ok (some s0) := by rw [h0]; exact congrArg _ e0
  have h1' : bivariate .bilinear g1 x ly[m] b = .ok (some s1) := by rw [h1]; exact congrArg _ e1
  obtain ⟨r, hr, hl, -⟩ := (hall .bilinear x ly[m] b).1 s0 s1 h0' h1'
  have g0' : lz.getD k 0 = lz[k] := by simp [hk]
  have g1' : lz.getD k' 0 = lz[k'] := by simp [hk']
  rw [g0', g1'] at hl
  have hends := onLine_end hl (toK_ne (strict_ne (axisOk_strict okz) hk hk' hkk))
  rw [hr]
  rcases hok with rfl | rfl
  · rw [e0, hends.1 rfl]
  · rw [e1, hends.2 rfl]

/-- **C48** Interpolation of a 4-D grid: for a coordinate `u` within the u axis there are two
neighbouring layers `n`, `n'` (along the last dimension) whose coordinates frame `u`. Linear:
when the 3-D interpolations of these two layers give `s0` and `s1`, the result is on the straight
line between them; NaN if one of them is NaN. Nearest: the result of the 3-D interpolation of a
layer nearest to `u`. -/
theorem C48_quad (ax ay : Axis K) (az : Axis T) (au : Axis K) (arr : Arr K) (g : Grid4D T K)
    (lx ly lu : List K) (lz : List T) (hax : Reach false ax) (hay : Reach false ay)
    (haz : ZAxis.Reachable az) (hau : Reach false au)
    (hlx : Coordinates ax lx) (hly : Coordinates ay ly) (hlz : Coordinates az lz) (hlu : Coordinates au lu)
    (hg : mkGrid4D ax ay az au arr = .ok g) (h2x : 2 ≤ lx.length) (h2y : 2 ≤ ly.length)
    (h2z : 2 ≤ lz.length) (h2u : 2 ≤ lu.length) (u : K) (htu : OnTurn au lu u u) (hinu : ¬ Outside lu u) :
    ∃ (n n' : Nat) (g0 g1 : Grid3D T K), Frames lu false u n n' ∧
      mkGrid3D ax ay az (arr.layer n) = .ok g0 ∧ mkGrid3D ax ay az (arr.layer n') = .ok g1 ∧
      ∀ (m : Method K) (zm : ZMethod) (x y : K) (z : T) (b : Bool),
        (∀ s0 s1, trivariate m zm g0 x y z b = .ok (some s0) → trivariate m zm g1 x y z b = .ok (some s1) →
          ∃ r, quadrivariate m zm .linear g x y z u b = .ok (some r) ∧
            OnLine (lu.getD n 0) (lu.getD n' 0) s0 s1 u r ∧ InRange [s0, s1] r) ∧
        (∀ s0 s1, trivariate m zm g0 x y z b = .ok s0 → trivariate m zm g1 x y z b = .ok s1 →
          (s0 = none ∨ s1 = none → quadrivariate m zm .linear g x y z u b = .ok none) ∧
          ((Nearest lu u n ∧ quadrivariate m zm .nearest g x y z u b = .ok s0) ∨
           (Nearest lu u n' ∧ quadrivariate m zm .nearest g x y z u b = .ok s1))) := by
  have okz := ZAxis.ok az lz haz hlz
  have oku := reach_axisOk hau hlu
  obtain ⟨n, n', hn, hn', hadj, hb, hall⟩ := quad_layers (reach_axisOk hax hlx) (reach_axisOk hay hly) okz oku hg
    h2x h2y h2z h2u htu hinu
  have hne := strict_ne (axisOk_strict oku) hn hn' (by omega)
  refine ⟨n, n', _, _, frames_of hn hn' hadj hb, layer_grid3D hg n, layer_grid3D hg n', ?_⟩
  intro m zm x y z b
  have e0 : lu.getD n 0 = lu[n] := by simp [hn]
  have e1 : lu.getD n' 0 = lu[n'] := by simp [hn']
  rw [e0, e1]
  have lin := hall m zm .linear x y z b
  have nea := hall m zm .nearest x y z b
  generalize trivariate m zm { x := ax, y := ay, arr := arr.layer n, z := az } x y z b = r0 at *
  generalize trivariate m zm { x := ax, y := ay, arr := arr.layer n', z := az } x y z b = r1 at *
  constructor
  · intro s0 s1 f0 f1
    subst f0 f1
    rcases lin with lin | ⟨-, -, h⟩
    · rw [lin]
      exact linear_combine hne hb s0 s1
    · simp at h
  · intro s0 s1 f0 f1
    subst f0 f1
    constructor
    · intro hnone
      rcases lin with lin | ⟨h1, h2, h3⟩
      · rw [lin]
        show ZMethod.linear.evaluate u lu[n] lu[n'] s0 s1 = .ok none
        simp only [ZMethod.evaluate, zLinear_none hne s0 s1 hnone]
      · rw [h2]
        simp only [Except.ok.injEq] at h1
        rcases hnone with rfl | rfl
        · rfl
        · rw [h1]
    · rcases nea with nea | ⟨h1, h2, h3⟩
      · rw [nea]
        exact nearest_select (axisOk_strict oku) hn hn' hadj hb rfl rfl s0 s1
      · simp only [Except.ok.injEq] at h1
        subst h1
        rw [h2]
        rcases nearest_select (axisOk_strict oku) hn hn' hadj hb rfl rfl s0 s0 with ⟨h, -⟩ | ⟨h, -⟩
        · exact Or.inl ⟨h, rfl⟩
        · exact Or.inr ⟨h, rfl⟩

/-- **C48** 4-D, outside. -/
theorem C48_quad_outside (ax ay : Axis K) (az : Axis T) (au : Axis K) (arr : Arr K) (g : Grid4D T K)
    (lx ly lu : List K) (lz : List T) (hax : Reach false ax) (hay : Reach false ay)
    (haz : ZAxis.Reachable az) (hau : Reach false au)
    (hlx : Coordinates ax lx) (hly : Coordinates ay ly) (hlz : Coordinates az lz) (hlu : Coordinates au lu)
    (hg : mkGrid4D ax ay az au arr = .ok g) (h2x : 2 ≤ lx.length) (h2y : 2 ≤ ly.length)
    (h2z : 2 ≤ lz.length) (h2u : 2 ≤ lu.length) (x y u cx cy cu : K) (z cz : T)
    (htx : OnTurn ax lx x cx) (hty : OnTurn ay ly y cy) (htz : OnTurn az lz z cz)
    (htu : OnTurn au lu u cu)
    (hout : (ax.isCircle = false ∧ Outside lx cx) ∨ Outside ly cy ∨ Outside lz cz ∨ Outside lu cu)
    (m : Method K) (zm um : ZMethod) :
    quadrivariate m zm um g x y z u false = .ok none ∧
      quadrivariate m zm um g x y z u true = .error .exn := by
  have okx := reach_axisOk hax hlx
  have oky := reach_axisOk hay hly
  have okz := ZAxis.ok az lz haz hlz
  have oku := reach_axisOk hau hlu
  obtain ⟨rfl, rfl, rfl, rfl, rfl, hcy, hcz, hcu, -⟩ := mkGrid4D_ok hg
  have key : g.x.findIndexes x = .ok none ∨ g.y.findIndexes y = .ok none ∨
      g.z.findIndexes z = .ok none ∨ g.u.findIndexes u = .ok none := by
    rcases hout with ⟨h1, h2⟩ | h | h | h
    · exact Or.inl (locate_none okx h2x htx h1 h2)
    · exact Or.inr (Or.inl (locate_none oky h2y hty hcy h))
    · exact Or.inr (Or.inr (Or.inl (locate_none okz h2z htz hcz h)))
    · exact Or.inr (Or.inr (Or.inr (locate_none oku h2u htu hcu h)))
  rcases findIndexes_ok okx h2x x with fx | ⟨i, i', -, -, fx, -, -⟩ <;>
    rcases findIndexes_ok oky h2y y with fy | ⟨j, j', -, -, fy, -, -⟩ <;>
    rcases findIndexes_ok okz h2z z with fz | ⟨k, k', -, -, fz, -, -⟩ <;>
    rcases findIndexes_ok oku h2u u with fu | ⟨n, n', -, -, fu, -, -⟩ <;>
    first
      | (rw [fx, fy, fz, fu] at key; simp at key; done)
      | (constructor <;> simp [quadrivariate, fx, fy, fz, fu, bind, Except.bind, pure, Except.pure])

/-- **C48** 4-D, bilinear and linear along z and u: if the nodes around the point are defined and
within bounds, so is the result. Restrictions of `C47_bilinear_partial` on the x and y axes. -/
theorem C48_quad_range_partial (ax ay : Axis K) (az : Axis T) (au : Axis K) (arr : Arr K)
    (g : Grid4D T K) (lx ly lu : List K) (lz : List T) (hax : Reach false ax) (hay : Reach false ay)
    (haz : ZAxis.Reachable az) (hau : Reach false au)
    (hlx : Coordinates ax lx) (hly : Coordinates ay ly) (hlz : Coordinates az lz) (hlu : Coordinates au lu)
    (hg : mkGrid4D ax ay az au arr = .ok g) (h2x : 2 ≤ lx.length) (h2y : 2 ≤ ly.length)
    (h2z : 2 ≤ lz.length) (h2u : 2 ≤ lu.length) (x y cx u : K) (z : T) (bd : Bool)
    (htx : OnTurn ax lx x cx)
    (hty : OnTurn ay ly y y) (htz : OnTurn az lz z z) (htu : OnTurn au lu u u)
    (hinx : ¬ Outside lx cx) (hiny : ¬ Outside ly y) (hinz : ¬ Outside lz z) (hinu : ¬ Outside lu u)
    (hside : ax.isAngle = true → lx.Pairwise (· < ·) ∨ ∃ v ∈ lx, v < cx) (lo hi : K)
    (hq : ∀ a b c d, Surrounds lx cx a → Surrounds ly y b → Surrounds lz z c → Surrounds lu u d →
      ∃ q, arr.at' [a, b, c, d] = some q ∧ lo ≤ q ∧ q ≤ hi) :
    ∃ r, quadrivariate .bilinear .linear .linear g x y z u bd = .ok (some r) ∧ lo ≤ r ∧ r ≤ hi := by
  obtain ⟨k, k', g0, g1, hf, hg0, hg1, hall⟩ := C48_quad ax ay az au arr g lx ly lu lz hax hay haz hau
    hlx hly hlz hlu hg h2x h2y h2z h2u u htu hinu
  obtain ⟨sk, sk', -⟩ := surrounds_pair hf
  obtain ⟨s0, h0, l0, u0⟩ := C48_range_partial ax ay az (arr.layer k) g0 lx ly lz hax hay haz hlx hly hlz hg0
    h2x h2y h2z x y cx z bd htx hty htz hinx hiny hinz hside lo hi
    (fun a b c ha hb hc => hq a b c k ha hb hc sk)
  obtain ⟨s1, h1, l1, u1⟩ := C48_range_partial ax ay az (arr.layer k') g1 lx ly lz hax hay haz hlx hly hlz hg1
    h2x h2y h2z x y cx z bd htx hty htz hinx hiny hinz hside lo hi
    (fun a b c ha hb hc => hq a b c k' ha hb hc sk')
  obtain ⟨r, hr, -, hin⟩ := (hall .bilinear .linear x y z bd).1 s0 s1 h0 h1
  obtain ⟨h4, h5⟩ := hin.bounds (lo := lo) (hi := hi) (by
    intro q hq
    simp only [List.mem_cons, List.not_mem_nil, or_false] at hq
    rcases hq with rfl | rfl <;> exact ⟨by assumption, by assumption⟩)
  exact ⟨r, hr, h4, h5⟩

/-- **C48** 4-D, bilinear and linear along z and u: at a node the result is the value of the node
(when the nodes around it are defined). -/
theorem C48_quad_node_partial (ax ay : Axis K) (az : Axis T) (au : Axis K) (arr : Arr K)
    (g : Grid4D T K) (lx ly lu : List K) (lz : List T) (hax : Reach false ax) (hay : Reach false ay)
    (haz : ZAxis.Reachable az) (hau : Reach false au)
    (hlx : Coordinates ax lx) (hly : Coordinates ay ly) (hlz : Coordinates az lz) (hlu : Coordinates au lu)
    (hg : mkGrid4D ax ay az au arr = .ok g) (h2x : 2 ≤ lx.length) (h2y : 2 ≤ ly.length)
    (h2z : 2 ≤ lz.length) (h2u : 2 ≤ lu.length) (n m o p : Nat) (hn : n < lx.length)
    (hm : m < ly.length) (ho : o < lz.length) (hp : p < lu.length)
    (x : K) (b : Bool) (htx : OnTurn ax lx x lx[n]) (hty : OnTurn ay ly ly[m] ly[m])
    (htz : OnTurn az lz lz[o] lz[o]) (htu : OnTurn au lu lu[p] lu[p])
    (hside : ax.isAngle = true → lx.Pairwise (· < ·) ∨ ∃ v ∈ lx, v < lx[n])
    (hdef : ∀ i j k l, n ≤ i + 1 → i ≤ n + 1 → m ≤ j + 1 → j ≤ m + 1 → o ≤ k + 1 → k ≤ o + 1 →
      p ≤ l + 1 → l ≤ p + 1 → i < lx.length → j < ly.length → k < lz.length → l < lu.length →
      (arr.at' [i, j, k, l]).isSome) :
    quadrivariate .bilinear .linear .linear g x ly[m] lz[o] lu[p] b = .ok (arr.at' [n, m, o, p]) := by
  have oku := reach_axisOk hau hlu
  obtain ⟨k, k', g0, g1, hf, hg0, hg1, hall⟩ := C48_quad ax ay az au arr g lx ly lu lz hax hay haz hau
    hlx hly hlz hlu hg h2x h2y h2z h2u lu[p] htu (not_outside_mem (List.getElem_mem hp))
  obtain ⟨-, -, hk, hk', hkk, hb⟩ := surrounds_pair hf
  have hadj : k' = k + 1 ∨ k = k' + 1 := by
    obtain ⟨_, _, _, _, h⟩ := hf
    rcases h with ⟨h, _⟩ | ⟨h, _⟩
    · omega
    · cases h
  have hok : p = k ∨ p = k' := by
    rcases hadj with rfl | rfl
    · exact node_of_between (axisOk_strict oku) hk' hp hb
    · exact (node_of_between (axisOk_strict oku) hk hp (between_comm hb)).symm
  have h0 := C48_node_partial ax ay az (arr.layer k) g0 lx ly lz hax hay haz hlx hly hlz hg0 h2x h2y h2z
    n m o hn hm ho x b htx hty htz hside
    (fun i j c a1 a2 a3 a4 a5 a6 b1 b2 b3 => hdef i j c k a1 a2 a3 a4 a5 a6 (by omega) (by omega) b1 b2 b3 hk)
  have h1 := C48_node_partial ax ay az (arr.layer k') g1 lx ly lz hax hay haz hlx hly hlz hg1 h2x h2y h2z
    n m o hn hm ho x b htx hty htz hside
    (fun i j c a1 a2 a3 a4 a5 a6 b1 b2 b3 => hdef i j c k' a1 a2 a3 a4 a5 a6 (by omega) (by omega) b1 b2 b3 hk')
  obtain ⟨s0, e0⟩ := Option.isSome_iff_exists.mp (hdef n m o k (by omega) (by omega) (by omega) (by omega)
    (by omega) (by omega) (by omega) (by omega) hn hm ho hk)
  obtain ⟨s1, e1⟩ := Option.isSome_iff_exists.mp (hdef n m o k' (by omega) (by omega) (by omega) (by omega)
    (by omega) (by omega) (by omega) (by omega) hn hm ho hk')
  have h0' : trivariate .bilinear .linear g0 x ly[m] lz[o] b = .ok (some s0) := by
    rw [h0]; exact congrArg _ e0
  have h1' : trivariate .bilinear .linear g1 x ly[m] lz[o] b = .ok (some s1) := by
    rw [h1]; exact congrArg _ e1
  obtain ⟨r, hr, hl, -⟩ := (hall .bilinear .linear x ly[m] lz[o] b).1 s0 s1 h0' h1'
  have g0' : lu.getD k 0 = lu[k] := by simp [hk]
  have g1' : lu.getD k' 0 = lu[k'] := by simp [hk']
  rw [g0', g1'] at hl
  have hends := onLine_end hl (strict_ne (axisOk_strict oku) hk hk' hkk)
  rw [hr]
  rcases hok with rfl | rfl
  · rw [e0, hends.1 rfl]
  · rw [e1, hends.2 rfl]

/-- **C48** The names of the methods: "linear", "nearest" and nothing else. -/
theorem C48_method_names (s : String) (zm : ZMethod) :
    zMethodOf s = .ok zm ↔ (s = "linear" ∧ zm = .linear) ∨ (s = "nearest" ∧ zm = .nearest) := by
  unfold zMethodOf
  by_cases h1 : s = "linear"
  · subst h1; cases zm <;> simp
  · by_cases h2 : s = "nearest"
    · subst h2; cases zm <;> simp
    · simp [h1, h2]

end

/-! ### Examples and counter-example -/

/-- an array with the value `100 * i + 10 * j + k` at `(i, j, k)` (and `+ l / 10` in 4-D) -/
def exArr3 (shape : List Nat) : Arr ℚ :=
  { shape := shape, at' := fun idx => some (100 * (idx.getD 0 0 : ℚ) + 10 * (idx.getD 1 0 : ℚ) +
      (idx.getD 2 0 : ℚ) + (idx.getD 3 0 : ℚ) / 10) }

def exTrivariate (zm : ZMethod) (vz : List Int) (x y : ℚ) (z : Int) (b : Bool) : Out (Option ℚ) := do
  let ax ← exAxis [0, 90, 180, 270] true
  let ay ← exAxis [5, 3, 2] false
  let az ← mkAxis true vz 0 false
  let g ← mkGrid3D ax ay az (exArr3 [4, 3, vz.length])
  trivariate .bilinear zm g x y z b

def exQuadrivariate (zm um : ZMethod) (x y z u : ℚ) (b : Bool) : Out (Option ℚ) := do
  let ax ← exAxis [0, 90, 180, 270] true
  let ay ← exAxis [5, 3, 2] false
  let az ← exAxis [0, 1, 4] false
  let au ← exAxis [0, 1, 2] false
  let g ← mkGrid4D ax ay az au (exArr3 [4, 3, 3, 3])
  quadrivariate .bilinear zm um g x y z u b

example : exTrivariate .linear [0, 10, 40] 405 4 25 false = .ok (some (50 + 5 + 3 / 2)) ∧
    exTrivariate .nearest [0, 10, 40] 405 4 24 false = .ok (some 56) ∧
    exTrivariate .linear [0, 10, 40] 90 3 40 false = .ok (some 112) ∧
    exTrivariate .linear [0, 10, 40] 405 4 41 false = .ok none ∧
    exTrivariate .linear [0, 10, 40] 405 4 41 true = .error .exn := by
  decide +kernel

example : exQuadrivariate .linear .linear 405 4 (5 / 2) (1 / 2) false = .ok (some (56 + 11 / 20)) ∧
    exQuadrivariate .nearest .nearest 405 4 3 (1 / 4) false = .ok (some 57) ∧
    exQuadrivariate .linear .linear 90 3 4 2 false = .ok (some (112 + 2 / 10)) ∧
    exQuadrivariate .linear .linear 405 4 1 3 true = .error .exn := by
  decide +kernel

/-- **C48, undefined for nearest on a temporal axis** The distances to the two dates are squared
in 64-bit integers: at 4 seconds of the nearest date of an axis in nanoseconds the product
overflows. -/
theorem C48_nearest_temporal_false :
    exTrivariate .nearest [0, 10000000000] 405 4 4000000000 false = .error .ub := by
  decide +kernel

end Pyinterp.Variate
