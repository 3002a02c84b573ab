import Verif.Props.C53_WindowFunctions
import Verif.Props.C54_Mesh

/-
C55. Window-function interpolation is a convex combination of the values of neighbours within the
radius and NaN if there is none.

True for all the functions but `flat_top` (`C55_flat_top_false`), when the radius is positive. It
is NaN as well when all the neighbours are exactly at the radius (for `lanczos`, `parzen` and
`parzen_swot`), and without radius when all the neighbours are at the point of the query
(`C55_no_radius_false`).
-/
set_option linter.unusedVariables false
namespace Pyinterp.RTree
open Pyinterp.Spec Pyinterp.WindowFunctions

/-- The radius of the window: the radius of the search or, without it, the distance of the farthest neighbour. -/
noncomputable def windowRadius (p : Point) (near : List Item) (radius : Option ℝ) : ℝ :=
  match radius with
  | some r => r
  | none => ((near.getLast?).map fun i => distance p i.pt).getD 0

theorem windowFunction_query (p : Point) (near : List Item) (wf : Fn) (arg : ℝ) (radius : Option ℝ) (within : Bool)
    (hw : within = true → InBox p (near.map Item.pt)) :
    windowFunction p near wf arg radius within =
      match windowLoop (fun d => weight wf d (windowRadius p near radius) arg) radius (query p near) (some (0, 0)) 0 with
      | (none, n) => (none, n)
      | (some a, n) => if a.2 ≠ 0 then (some (a.1 / a.2), n) else (none, 0) := by
  have hq : (if within = true then queryWithin p near else query p near) = query p near := by
    cases within with
    | false => rfl
    | true => rw [if_pos rfl, queryWithin_eq, if_pos (hw rfl)]
  unfold windowFunction
  dsimp only
  rw [hq]
  have e : furthestNeighbor (query p near) radius = windowRadius p near radius := by
    cases radius with
    | some r => rfl
    | none =>
      unfold windowRadius query furthestNeighbor
      rw [List.getLast?_map, Option.map_map]
      rfl
  rw [e]
  rcases windowLoop (fun d => weight wf d (windowRadius p near radius) arg) radius (query p near) (some (0, 0)) 0 with
    ⟨_ | a, n⟩ <;> rfl

/-- Sorted distances: the last one is the largest. -/
theorem le_last {p : Point} {near : List Item} (hs : near.Pairwise fun a b => distance p a.pt ≤ distance p b.pt)
    {i : Item} (hi : i ∈ near) : distance p i.pt ≤ windowRadius p near none := by
  unfold windowRadius
  induction near generalizing i with
  | nil => cases hi
  | cons a l ih =>
    obtain ⟨s1, s2⟩ := List.pairwise_cons.1 hs
    cases l with
    | nil =>
      have : i = a := by simpa using hi
      subst this; simp
    | cons b l =>
      rw [List.getLast?_cons_cons]
      rcases List.mem_cons.1 hi with rfl | hi
      · exact le_trans (s1 b (by simp)) (ih s2 (by simp))
      · exact ih s2 hi

/-- **C55** The result is the mean of the values of the neighbours within the radius with the weights of the window
function, which are not negative (`C53_shape_partial`), and it lies between two of these values; the number returned is
that of these neighbours. The exception: NaN and 0 when all the weights are 0, in particular when there is no neighbour
within the radius. -/
theorem C55_mean_partial (all near : List Item) (p : Point) (wf : Fn) (arg : ℝ) (radius : Option ℝ) (k : Nat)
    (within : Bool) (h : KNearest all p k near) (hw : within = true → InBox p (near.map Item.pt))
    (hf : wf ≠ .flatTop) (ha : ArgOk wf arg) (hr : 0 < windowRadius p near radius) :
    ∃ w : Item → ℝ,
      (∀ i ∈ used p near radius, weight wf (distance p i.pt) (windowRadius p near radius) arg = some (w i) ∧ 0 ≤ w i) ∧
      ((∀ i ∈ used p near radius, w i = 0) → windowFunction p near wf arg radius within = (none, 0)) ∧
      ((∃ i ∈ used p near radius, w i ≠ 0) →
        ∃ v, windowFunction p near wf arg radius within = (some v, (used p near radius).length) ∧
          IsItemMean (used p near radius) w v ∧
          ∃ a ∈ used p near radius, ∃ b ∈ used p near radius, a.val ≤ v ∧ v ≤ b.val) := by
  have hin : ∀ i ∈ near, InRadius radius (distance p i.pt) → distance p i.pt ≤ windowRadius p near radius := by
    intro i hi hri
    cases radius with
    | some r => exact hri
    | none => exact le_last h.sorted hi
  let w : Item → ℝ := fun i => (weight wf (distance p i.pt) (windowRadius p near radius) arg).getD 0
  have hwt : ∀ i ∈ near, InRadius radius (distance p i.pt) →
      weight wf (distance p i.pt) (windowRadius p near radius) arg = some (w i) ∧ 0 ≤ w i := by
    intro i hi hri
    obtain ⟨x, x0, hx, -, hx1, -, -⟩ := C53_shape_partial wf (distance p i.pt) (windowRadius p near radius) arg hr
      (distance_nonneg _ _) (hin i hi hri) ha hf
    have : w i = x := by simp [w, hx]
    rw [this]
    exact ⟨hx, hx1⟩
  have hused : ∀ i ∈ used p near radius,
      weight wf (distance p i.pt) (windowRadius p near radius) arg = some (w i) ∧ 0 ≤ w i := by
    intro i hi
    have := List.mem_filter.1 hi
    exact hwt i this.1 (of_decide_eq_true this.2)
  have hres : windowFunction p near wf arg radius within =
      if ((used p near radius).map w).sum ≠ 0 then
        (some (((used p near radius).map fun i => w i * i.val).sum / ((used p near radius).map w).sum),
          (used p near radius).length)
      else (none, 0) := by
    rw [windowFunction_query p near wf arg radius within hw,
      windowLoop_mean p _ w radius near h.sorted (fun i hi hri => (hwt i hi hri).1)]
    simp only [zero_add]
    rfl
  refine ⟨w, hused, fun hz => ?_, fun hnz => ?_⟩
  · rw [hres, if_neg]
    rw [not_not]
    apply List.sum_eq_zero
    intro x hx
    obtain ⟨i, hi, rfl⟩ := List.mem_map.1 hx
    exact hz i hi
  · have hs : ((used p near radius).map w).sum ≠ 0 := by
      obtain ⟨i, hi, hne⟩ := hnz
      have hle : w i ≤ ((used p near radius).map w).sum := List.single_le_sum (by
        simp only [List.mem_map]
        rintro _ ⟨j, hj, rfl⟩
        exact (hused j hj).2) _ (List.mem_map.2 ⟨i, hi, rfl⟩)
      have := lt_of_le_of_ne (hused i hi).2 (Ne.symm hne)
      linarith
    have hm : IsItemMean (used p near radius) w
        (((used p near radius).map fun i => w i * i.val).sum / ((used p near radius).map w).sum) :=
      ⟨hs, div_mul_cancel₀ _ hs⟩
    exact ⟨_, by rw [hres, if_pos hs], hm, mean_between (fun i hi => (hused i hi).2) hm⟩

/-- **C55** When the result is a number: as soon as a neighbour is nearer than the radius; and also with a neighbour at the
radius for `blackman`, `blackman_harris`, `boxcar`, `gaussian`, `hamming` and `nuttall`. -/
theorem C55_defined (all near : List Item) (p : Point) (wf : Fn) (arg : ℝ) (radius : Option ℝ) (k : Nat)
    (within : Bool) (h : KNearest all p k near) (hw : within = true → InBox p (near.map Item.pt))
    (hf : wf ≠ .flatTop) (ha : ArgOk wf arg) (hr : 0 < windowRadius p near radius)
    (i : Item) (hi : i ∈ used p near radius)
    (hlt : distance p i.pt < windowRadius p near radius ∨ (wf ≠ .lanczos ∧ wf ≠ .parzen ∧ wf ≠ .parzenSwot)) :
    ∃ v, windowFunction p near wf arg radius within = (some v, (used p near radius).length) ∧
      ∃ a ∈ used p near radius, ∃ b ∈ used p near radius, a.val ≤ v ∧ v ≤ b.val := by
  obtain ⟨w, h1, -, h3⟩ := C55_mean_partial all near p wf arg radius k within h hw hf ha hr
  have hle : distance p i.pt ≤ windowRadius p near radius := by
    have hm := List.mem_filter.1 hi
    cases radius with
    | some r => exact of_decide_eq_true hm.2
    | none => exact le_last h.sorted hm.1
  obtain ⟨x, hx, hpos⟩ := C53_positive wf (distance p i.pt) (windowRadius p near radius) arg hr (distance_nonneg _ _) hle
    ha hf hlt
  obtain ⟨v, hv, -, hb⟩ := h3 ⟨i, hi, by
    have := (h1 i hi).1
    rw [hx] at this
    have e := Option.some.inj this
    rw [← e]; exact hpos.ne'⟩
  exact ⟨v, hv, hb⟩

/-- **C55** No neighbour: NaN and 0, when no neighbour is within the radius, or with `within` when the query is not in the box of
the neighbours. -/
theorem C55_none (near : List Item) (p : Point) (wf : Fn) (arg : ℝ) (radius : Option ℝ)
    (within : Bool) (hs : near.Pairwise fun a b => distance p a.pt ≤ distance p b.pt)
    (hno : (within = true ∧ ¬ InBox p (near.map Item.pt)) ∨ used p near radius = []) :
    windowFunction p near wf arg radius within = (none, 0) := by
  by_cases hb : within = true ∧ ¬ InBox p (near.map Item.pt)
  · unfold windowFunction
    dsimp only
    rw [if_pos hb.1, queryWithin_eq, if_neg hb.2]
    simp [windowLoop]
  · have hnil : used p near radius = [] := by tauto
    have hn : ∀ i ∈ near, ¬ InRadius radius (distance p i.pt) := by
      intro i hi hri
      have : i ∈ used p near radius := List.mem_filter.2 ⟨hi, decide_eq_true hri⟩
      rw [hnil] at this; cases this
    rw [windowFunction_query p near wf arg radius within (by tauto),
      windowLoop_mean p _ (fun _ => 0) radius near hs (fun i hi hri => absurd hri (hn i hi))]
    unfold used at hnil
    simp [hnil]

/-- The hypotheses are met: boxcar, without radius, the mean of 10 and 40. -/
example : windowFunction (onX 0) twoItems .boxcar 0 none true = (some 25, 2) := by
  have hu : used (onX 0) twoItems none = twoItems := by
    unfold used
    exact List.filter_eq_self.2 (fun a _ => decide_eq_true (p := InRadius none (distance (onX 0) a.pt)) trivial)
  have hr : windowRadius (onX 0) twoItems none = 2 := by
    simp [windowRadius, twoItems, distance_onX]
  obtain ⟨w, h1, -, h3⟩ := C55_mean_partial twoItems twoItems (onX 0) .boxcar 0 none 3 true twoItems_nearest
    (fun _ => twoItems_box) (by decide) trivial (by rw [hr]; norm_num)
  rw [hu, hr] at *
  have w1 : w ⟨onX (-1), 10⟩ = 1 := by
    have := (h1 ⟨onX (-1), 10⟩ (by simp [twoItems])).1
    simp [weight, boxcar, distance_onX] at this
    exact this.symm
  have w2 : w ⟨onX 2, 40⟩ = 1 := by
    have := (h1 ⟨onX 2, 40⟩ (by simp [twoItems])).1
    simp [weight, boxcar, distance_onX] at this
    exact this.symm
  obtain ⟨v, hv, hm, -⟩ := h3 ⟨⟨onX 2, 40⟩, by simp [twoItems], by rw [w2]; norm_num⟩
  have h4 := hm.2
  simp [twoItems, w1, w2] at h4
  have : v = 25 := by linarith
  rw [hv, this]; rfl

/-- **C55, the part that fails** `flat_top` has negative weights: with the values 0 and 1 the result is negative. -/
theorem C55_flat_top_false :
    ∃ v, windowFunction (onX 0) [⟨onX 0, 0⟩, ⟨onX 1, 1⟩] .flatTop 0 (some 1) false = (some v, 2) ∧ v < 0 := by
  have d0 : distance (onX 0) (onX 0) = 0 := by rw [distance_onX]; simp
  have d1 : distance (onX 0) (onX 1) = 1 := by rw [distance_onX]; simp
  have hq : query (onX 0) [⟨onX 0, 0⟩, ⟨onX 1, 1⟩] = [(0, 0), (1, 1)] := by simp [query, d0, d1]
  have e1 : Real.cos (Real.pi * (0 + 1)) = -1 := by simp
  have f0 : weight .flatTop 0 1 0 = some 1.000000003 := by
    simp only [weight, flatTop, zero_le_one, if_true, quot_pos one_pos, Option.bind_eq_bind, Option.bind_some, div_one,
      cos1, cos2, cos3, cos4, mul_zero, Real.cos_zero]
    norm_num
  have f1 : weight .flatTop 1 1 0 = some (-0.000421051) := by
    simp only [weight, flatTop, le_refl, if_true, quot_pos one_pos, Option.bind_eq_bind, Option.bind_some, div_one,
      cos1, cos2, cos3, cos4, mul_one, Real.cos_pi]
    norm_num
  rw [windowFunction_query _ _ _ _ _ _ (by simp), hq]
  simp only [windowRadius, windowLoop, close, Option.bind_eq_bind, Option.bind_some, f0, f1]
  norm_num

/-- **C55, the part that fails** Without radius, a query on a point of the tree with one neighbour: the window has the radius 0 and the
weight is 0/0, so that the result is NaN (with 1 neighbour) though the value is known. -/
theorem C55_no_radius_false (x v : ℝ) : windowFunction (onX x) [⟨onX x, v⟩] .blackman 0 none false = (none, 1) := by
  have d0 : distance (onX x) (onX x) = 0 := by rw [distance_onX]; simp
  rw [windowFunction_query _ _ _ _ _ _ (by simp)]
  simp [windowRadius, query, d0, windowLoop, close, weight, blackman, quot]

/-- **C55, the part that fails** `window_function(…, wf='lanczos')` without argument: NaN whatever the neighbours at positive
distances are. -/
theorem C55_lanczos_default_false (near : List Item) (p : Point) (r : ℝ) (hr : 0 < r) (hn : near ≠ [])
    (hs : near.Pairwise fun a b => distance p a.pt ≤ distance p b.pt) (hd : ∀ i ∈ near, 0 < distance p i.pt) :
    windowFunction p near .lanczos (coreArg none) (some r) false = (none, 0) := by
  rw [windowFunction_query p near _ _ _ _ (by simp),
    windowLoop_mean p _ (fun _ => 0) (some r) near hs
      (fun i hi _ => (C53_lanczos_default_false r hr).2.2 _ (hd i hi))]
  simp

end Pyinterp.RTree
