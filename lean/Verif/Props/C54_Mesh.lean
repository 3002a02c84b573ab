import Verif.Lemmas.RTree
import Mathlib.Tactic.NormNum

/-
C54. IDW with an R-tree returns the stored value when the query hits a point, otherwise a value
within the range of the values of the neighbours within the radius, and NaN with 0 neighbours
when there is none; the number of neighbours reported is at most k.

C66. `query` and `value` return the nearest points.

`near` is the answer of the spatial index of Boost to the question "the k nearest points"
(`KNearest`); everything is proved for all the answers that satisfy the contract.
-/
set_option linter.unusedVariables false
namespace Pyinterp.RTree
open Pyinterp.Spec

/-- The points used: the neighbours within the radius. -/
noncomputable def used (p : Point) (near : List Item) (radius : Option ℝ) : List Item :=
  near.filter fun i => decide (InRadius radius (distance p i.pt))

theorem queryWithin_eq (p : Point) (near : List Item) :
    queryWithin p near = if InBox p (near.map Item.pt) then query p near else [] := by
  unfold queryWithin query
  by_cases h : InBox p (near.map Item.pt)
  · rw [if_pos h, (coveredBy_iff _ _).2 h]; simp
  · rw [if_neg h]
    have : coveredBy p (near.map Item.pt) = false := by
      rw [← Bool.not_eq_true, coveredBy_iff]; exact h
    rw [this]; simp

/-- **C54** The query hits a point of the tree (distance less than 1e-6), which is among the neighbours since at least one
is asked for: the value of the nearest point is returned, and `k`. With `within` this demands that the query lies in the
box of the neighbours, as it does if the hit is exact (`C54_within_hit`). -/
theorem C54_hit (all near : List Item) (p : Point) (radius : Option ℝ) (k pw : Nat) (within : Bool) (hk : 0 < k)
    (h : KNearest all p k near) (hw : within = true → InBox p (near.map Item.pt))
    (i : Item) (hi : i ∈ all) (hit : distance p i.pt < 1e-6) :
    ∃ a ∈ all, (∀ j ∈ all, distance p a.pt ≤ distance p j.pt) ∧ idw p near radius k pw within = (some a.val, k) := by
  obtain ⟨a, rest, rfl, ha, hmin⟩ := head_nearest h hk hi
  refine ⟨a, ha, hmin, ?_⟩
  have hq : (if within = true then queryWithin p (a :: rest) else query p (a :: rest)) = query p (a :: rest) := by
    cases within with
    | false => rfl
    | true => rw [if_pos rfl, queryWithin_eq, if_pos (hw rfl)]
  have hlt : distance p a.pt < 1e-6 := lt_of_le_of_lt (hmin i hi) hit
  unfold idw
  dsimp only
  rw [hq]
  show (match idwLoop k pw radius ((distance p a.pt, a.val) :: query p rest) _ with
    | .inl r => r
    | .inr acc => if acc.total ≠ 0 then (some (acc.result / acc.total), acc.neighbors) else (none, 0)) = _
  unfold idwLoop
  rw [if_pos hlt]

/-- **C54** A query on a neighbour is in the box of the neighbours. -/
theorem C54_within_hit (near : List Item) (p : Point) (i : Item) (hi : i ∈ near) (hp : i.pt = p) :
    InBox p (near.map Item.pt) := by
  have hm : p ∈ near.map Item.pt := List.mem_map.2 ⟨i, hi, hp⟩
  exact ⟨⟨p, hm, le_refl _⟩, ⟨p, hm, le_refl _⟩, ⟨p, hm, le_refl _⟩, ⟨p, hm, le_refl _⟩, ⟨p, hm, le_refl _⟩,
    ⟨p, hm, le_refl _⟩⟩

/-- **C54** Otherwise, if a neighbour is within the radius: the value is the mean of the values of the neighbours within the
radius with the weights `1 / distance ^ p`, it lies between two of these values, and the number returned is that of these
neighbours, at most `k`. -/
theorem C54_mean (all near : List Item) (p : Point) (radius : Option ℝ) (k pw : Nat) (within : Bool)
    (h : KNearest all p k near) (hw : within = true → InBox p (near.map Item.pt))
    (hfar : ∀ i ∈ near, 1e-6 ≤ distance p i.pt) (hne : used p near radius ≠ []) :
    ∃ v, idw p near radius k pw within = (some v, (used p near radius).length) ∧
      IsItemMean (used p near radius) (fun i => 1 / distance p i.pt ^ pw) v ∧
      (∃ a ∈ used p near radius, ∃ b ∈ used p near radius, a.val ≤ v ∧ v ≤ b.val) ∧
      (used p near radius).length ≤ k := by
  have hq : (if within = true then queryWithin p near else query p near) = query p near := by
    cases within with
    | false => rfl
    | true => rw [if_pos rfl, queryWithin_eq, if_pos (hw rfl)]
  have hpos : ∀ i ∈ used p near radius, 0 < 1 / distance p i.pt ^ pw := by
    intro i hi
    have : 1e-6 ≤ distance p i.pt := hfar i (List.mem_of_mem_filter hi)
    have : (0 : ℝ) < distance p i.pt := lt_of_lt_of_le (by norm_num) this
    positivity
  have htot : ((used p near radius).map fun i => 1 / distance p i.pt ^ pw).sum ≠ 0 := by
    apply ne_of_gt
    apply List.sum_pos
    · intro x hx
      obtain ⟨i, hi, rfl⟩ := List.mem_map.1 hx
      exact hpos i hi
    · simpa using hne
  have hmean : IsItemMean (used p near radius) (fun i => 1 / distance p i.pt ^ pw)
      (((used p near radius).map fun i => 1 / distance p i.pt ^ pw * i.val).sum /
        ((used p near radius).map fun i => 1 / distance p i.pt ^ pw).sum) :=
    ⟨htot, div_mul_cancel₀ _ htot⟩
  refine ⟨_, ?_, hmean, mean_between (fun i hi => (hpos i hi).le) hmean, ?_⟩
  · unfold idw
    dsimp only
    rw [hq, idwLoop_mean p k pw radius near (fun i hi => not_lt.2 (hfar i hi))]
    simp only [zero_add]
    exact if_pos htot
  · have := h.count
    have : (used p near radius).length ≤ near.length := List.length_filter_le _ _
    omega

/-- **C54** No neighbour: the query is not in the box of the neighbours and `within` is asked for, or no neighbour is hit
nor within the radius (in particular when the tree is empty): NaN and 0. -/
theorem C54_none (all near : List Item) (p : Point) (radius : Option ℝ) (k pw : Nat) (within : Bool)
    (h : KNearest all p k near)
    (hno : (within = true ∧ ¬ InBox p (near.map Item.pt)) ∨
      ((∀ i ∈ near, 1e-6 ≤ distance p i.pt) ∧ used p near radius = [])) :
    idw p near radius k pw within = (none, 0) := by
  rcases hno with ⟨rfl, hb⟩ | ⟨hfar, hnil⟩
  · unfold idw
    dsimp only
    rw [if_pos rfl, queryWithin_eq, if_neg hb]
    simp [idwLoop]
  · unfold idw
    dsimp only
    have hz : ∀ within, (match idwLoop k pw radius (if within = true then queryWithin p near else query p near) ⟨0, 0, 0⟩ with
      | .inl r => r
      | .inr acc => if acc.total ≠ 0 then (some (acc.result / acc.total), acc.neighbors) else (none, 0)) = (none, 0) := by
      intro within
      have hq : (if within = true then queryWithin p near else query p near) = query p near ∨
          (if within = true then queryWithin p near else query p near) = [] := by
        cases within with
        | false => exact Or.inl rfl
        | true =>
          rw [if_pos rfl, queryWithin_eq]
          by_cases hb : InBox p (near.map Item.pt)
          · exact Or.inl (if_pos hb)
          · exact Or.inr (if_neg hb)
      rcases hq with hq | hq
      · rw [hq, idwLoop_mean p k pw radius near (fun i hi => not_lt.2 (hfar i hi))]
        unfold used at hnil
        simp [hnil]
      · rw [hq]; simp [idwLoop]
    exact hz within

/-- **C54** The number of neighbours is never more than `k`. -/
theorem C54_count (all near : List Item) (p : Point) (radius : Option ℝ) (k pw : Nat) (within : Bool)
    (h : KNearest all p k near) : (idw p near radius k pw within).2 ≤ k := by
  by_cases hb : within = true ∧ ¬ InBox p (near.map Item.pt)
  · rw [C54_none all near p radius k pw within h (Or.inl hb)]; exact Nat.zero_le _
  · have hw : within = true → InBox p (near.map Item.pt) := by tauto
    by_cases hfar : ∀ i ∈ near, 1e-6 ≤ distance p i.pt
    · by_cases hne : used p near radius = []
      · rw [C54_none all near p radius k pw within h (Or.inr ⟨hfar, hne⟩)]; exact Nat.zero_le _
      · obtain ⟨v, hv, -, -, hc⟩ := C54_mean all near p radius k pw within h hw hfar hne
        rw [hv]; exact hc
    · push Not at hfar
      obtain ⟨i, hi, hit⟩ := hfar
      have hk : 0 < k := by
        have := h.count
        have := List.length_pos_of_mem hi
        omega
      obtain ⟨a, -, -, ha⟩ := C54_hit all near p radius k pw within hk h hw i (mem_all h hi) hit
      rw [ha]

/-- A point of the x axis. -/
noncomputable def onX (x : ℝ) : Point := ⟨x, 0, 0⟩

theorem distance_onX (a b : ℝ) : distance (onX a) (onX b) = |a - b| := by
  unfold distance onX
  simp [Real.sqrt_sq_eq_abs]

/-- Two points: 10 at x = -1 and 40 at x = 2. -/
noncomputable def twoItems : List Item := [⟨onX (-1), 10⟩, ⟨onX 2, 40⟩]

theorem twoItems_nearest : KNearest twoItems (onX 0) 3 twoItems where
  count := by simp [twoItems]
  sorted := by
    simp only [twoItems, List.pairwise_cons, List.mem_singleton, forall_eq, distance_onX]
    norm_num
  nearest := ⟨[], by simp, by simp⟩

theorem twoItems_box : InBox (onX 0) (twoItems.map Item.pt) := by
  simp [InBox, twoItems, onX]

/-- The hypotheses of `C54_mean` are met: the mean of 10 and 40 with the weights 1 and 1/4 is 16. -/
example : idw (onX 0) twoItems (some 5) 3 2 true = (some 16, 2) := by
  have hu : used (onX 0) twoItems (some 5) = twoItems := by
    simp [used, twoItems, InRadius, distance_onX]; norm_num
  obtain ⟨v, h1, h2, -, -⟩ := C54_mean twoItems twoItems (onX 0) (some 5) 3 2 true twoItems_nearest
    (fun _ => twoItems_box) (by simp [twoItems, distance_onX]; norm_num) (by rw [hu]; simp [twoItems])
  rw [hu] at h1 h2
  have h3 := h2.2
  simp [twoItems, distance_onX] at h3
  have : v = 16 := by linarith
  rw [h1, this]; rfl

example : ∃ a ∈ twoItems, (∀ j ∈ twoItems, distance (onX 2) a.pt ≤ distance (onX 2) j.pt) ∧
    idw (onX 2) [⟨onX 2, 40⟩] none 1 2 false = (some a.val, 1) :=
  C54_hit twoItems [⟨onX 2, 40⟩] (onX 2) none 1 2 false (by norm_num)
    ⟨by simp [twoItems], by simp, [⟨onX (-1), 10⟩], by simpa [twoItems] using List.Perm.swap _ _ _,
      by simp [distance_onX]⟩ (by simp) ⟨onX 2, 40⟩ (by simp [twoItems]) (by rw [distance_onX]; norm_num)

/-- **C54, the part that fails** `within` is documented as "the calculated values will not be extrapolated". The test is done
on the `k` neighbours, before those beyond the radius are dropped: here the only value used is on one side of the
query. -/
theorem C54_within_false : idw (onX 0) twoItems (some (3 / 2)) 2 2 true = (some 10, 1) ∧
    KNearest twoItems (onX 0) 2 twoItems ∧
    ¬ InBox (onX 0) ((used (onX 0) twoItems (some (3 / 2))).map Item.pt) := by
  have hu : used (onX 0) twoItems (some (3 / 2)) = [⟨onX (-1), 10⟩] := by
    simp only [used, twoItems, List.filter_cons, List.filter_nil, distance_onX, InRadius]
    norm_num
  have hn : KNearest twoItems (onX 0) 2 twoItems := ⟨by simp [twoItems], twoItems_nearest.sorted, [], by simp, by simp⟩
  refine ⟨?_, hn, ?_⟩
  · obtain ⟨v, h1, h2, -, -⟩ := C54_mean twoItems twoItems (onX 0) (some (3 / 2)) 2 2 true hn
      (fun _ => twoItems_box) (by simp [twoItems, distance_onX]; norm_num) (by rw [hu]; simp)
    rw [hu] at h1 h2
    have h3 := h2.2
    simp [distance_onX] at h3
    rw [h1, h3]; rfl
  · rw [hu]
    simp [InBox, onX]

/-- **C66** `query`: a row of `k` distances and values. First the nearest points of the tree, from the nearest to the
farthest, with their distances; then -1. With `within`, only -1 if the query is not in the box of the neighbours. -/
theorem C66_query (all near : List Item) (p : Point) (k : Nat) (within : Bool) (h : KNearest all p k near) :
    ∃ row, pyQuery p near k within = .ok row ∧ row.length = k ∧
      (within = true ∧ ¬ InBox p (near.map Item.pt) → ∀ e ∈ row, e = (-1, -1)) ∧
      ((within = true → InBox p (near.map Item.pt)) →
        (∀ j, (hj : j < min k all.length) → ∃ i ∈ all, row[j]? = some (distance p i.pt, i.val)) ∧
        (∀ j, min k all.length ≤ j → j < k → row[j]? = some (-1, -1)) ∧
        (row.take (min k all.length)).Pairwise (fun a b => a.1 ≤ b.1) ∧
        ∃ rest : List Item, (row.take (min k all.length) ++ query p rest).Perm (query p all) ∧
          ∀ e ∈ row.take (min k all.length), ∀ b ∈ rest, e.1 ≤ distance p b.pt) := by
  by_cases hb : within = true ∧ ¬ InBox p (near.map Item.pt)
  · refine ⟨List.replicate k (-1, -1), ?_, by simp, fun _ e he => List.eq_of_mem_replicate he, fun hh => ?_⟩
    · unfold pyQuery
      rw [if_pos hb.1, queryWithin_eq, if_neg hb.2]
      simp [queryRow]
    · exact absurd (hh hb.1) hb.2
  · have hw : within = true → InBox p (near.map Item.pt) := by tauto
    have hq : (if within = true then queryWithin p near else query p near) = query p near := by
      cases within with
      | false => rfl
      | true => rw [if_pos rfl, queryWithin_eq, if_pos (hw rfl)]
    have hlen : (query p near).length = min k all.length := by simp [query, h.count]
    refine ⟨query p near ++ List.replicate (k - (query p near).length) (-1, -1), ?_, ?_, fun hh => absurd hh hb, fun _ => ?_⟩
    · unfold pyQuery queryRow
      rw [hq, if_neg (by omega)]
    · simp; omega
    · rw [← hlen, List.take_left]
      refine ⟨?_, ?_, ?_, ?_⟩
      · intro j hj
        have hj' : j < near.length := by simpa [query] using hj
        refine ⟨near[j], mem_all h (List.getElem_mem _), ?_⟩
        rw [List.getElem?_append_left hj]
        simp [query, hj']
      · intro j h1 h2
        rw [List.getElem?_append_right h1]
        rw [List.getElem?_replicate]
        rw [if_pos (by omega)]
      · simp only [query, List.pairwise_map]
        exact h.sorted
      · obtain ⟨rest, hp, hr⟩ := h.nearest
        refine ⟨rest, ?_, ?_⟩
        · unfold query
          rw [← List.map_append]
          exact hp.map _
        · intro e he b hb
          obtain ⟨a, ha, rfl⟩ := List.mem_map.1 he
          exact hr a ha b hb

example : ∃ row, pyQuery (onX 0) twoItems 3 false = .ok row ∧ row = [(1, 10), (2, 40), (-1, -1)] := by
  refine ⟨_, rfl, ?_⟩
  simp [query, twoItems, distance_onX]

/-- **C66** `value`: the points among the `k` nearest that lie within the radius, in order, padded with NaN; with `within`
the query lies in the box of the points returned, or none is returned. -/
theorem C66_value (all near : List Item) (p : Point) (radius : Option ℝ) (k : Nat) (within : Bool)
    (h : KNearest all p k near) :
    ∃ l : List Item, pyValue p near radius k within = .ok (l.map some ++ List.replicate (k - l.length) none) ∧
      l.length ≤ k ∧
      (l = used p near radius ∨ (within = true ∧ l = [])) ∧
      (within = true → l ≠ [] → InBox p (l.map Item.pt)) ∧
      (within = true → InBox p ((used p near radius).map Item.pt) → l = used p near radius) := by
  have hu : removeFar p near radius = used p near radius := by
    unfold removeFar used
    cases radius with
    | none =>
      exact (List.filter_eq_self.2 (fun a _ => decide_eq_true (p := InRadius none (distance p a.pt)) trivial)).symm
    | some r =>
      apply List.filter_congr
      intro i _
      rw [distance_comm]
      by_cases hr : distance p i.pt ≤ r
      · have h2 : InRadius (some r) (distance p i.pt) := hr
        simp [h2, hr]
      · have h2 : ¬ InRadius (some r) (distance p i.pt) := hr
        simp [h2, not_le.1 hr]
  have hl : (used p near radius).length ≤ k := by
    have h1 := h.count
    have h2 : (used p near radius).length ≤ near.length := List.length_filter_le _ _
    omega
  refine ⟨value p near radius within, ?_, ?_, ?_, ?_, ?_⟩
  · unfold pyValue
    dsimp only
    rw [if_neg]
    unfold value
    dsimp only
    rw [hu]
    split
    · simp
    · omega
  · unfold value; dsimp only; rw [hu]; split
    · simp
    · exact hl
  · unfold value; dsimp only; rw [hu]
    split
    · rename_i hc
      simp only [Bool.and_eq_true] at hc
      exact Or.inr ⟨hc.1, rfl⟩
    · exact Or.inl rfl
  · intro hw
    unfold value; dsimp only; rw [hu]
    by_cases hb : InBox p ((used p near radius).map Item.pt)
    · rw [(coveredBy_iff _ _).2 hb]; simp [hb]
    · have : coveredBy p ((used p near radius).map Item.pt) = false := by
        rw [← Bool.not_eq_true, coveredBy_iff]; exact hb
      rw [this, hw]; simp
  · intro hw hb
    unfold value; dsimp only; rw [hu, (coveredBy_iff _ _).2 hb]; simp

example : pyValue (onX 0) twoItems (some (3 / 2)) 2 false = .ok [some ⟨onX (-1), 10⟩, none] := by
  have hv : value (onX 0) twoItems (some (3 / 2)) false = [⟨onX (-1), 10⟩] := by
    simp only [value, removeFar, twoItems, List.filter_cons, List.filter_nil, distance_onX]; norm_num
  simp [pyValue, hv]

/-- **C54**: the search in a ball (C++ only) gives each value of the tree that is at most at `radius`, the distance included, as
many times as it is in the tree and with its distance, and no other. -/
theorem C54_ball (p : Point) (all : List Item) (radius : ℝ) :
    (∀ d v, (d, v) ∈ queryBall p all radius ↔ ∃ i ∈ all, distance p i.pt = d ∧ i.val = v ∧ d ≤ radius) ∧
    (queryBall p all radius).length = all.countP (fun i => decide (distance p i.pt ≤ radius)) := by
  constructor
  · intro d v
    unfold queryBall
    simp only [List.mem_map, List.mem_filter, decide_eq_true_eq, Prod.mk.injEq]
    constructor
    · rintro ⟨i, ⟨hi, hd⟩, e1, e2⟩
      exact ⟨i, hi, e1, e2, by rw [← e1, distance_comm]; exact hd⟩
    · rintro ⟨i, hi, e1, e2, hd⟩
      exact ⟨i, ⟨hi, by rw [distance_comm, e1]; exact hd⟩, e1, e2⟩
  · unfold queryBall
    rw [List.length_map, List.countP_eq_length_filter]
    congr 2
    funext i
    rw [distance_comm]

/- Two points at the distances 1 and 2: the ball of radius 1 holds the first one, which is on its edge. -/
example : (1, 10) ∈ queryBall (onX 0) [⟨onX (-1), 10⟩, ⟨onX 2, 20⟩] 1 ∧
    (2, 20) ∉ queryBall (onX 0) [⟨onX (-1), 10⟩, ⟨onX 2, 20⟩] 1 := by
  constructor
  · exact ((C54_ball _ _ _).1 _ _).2 ⟨⟨onX (-1), 10⟩, by simp, by rw [distance_onX]; norm_num, rfl, le_refl _⟩
  · intro h
    obtain ⟨_, _, _, _, hd⟩ := ((C54_ball _ _ _).1 _ _).1 h
    norm_num at hd

end Pyinterp.RTree
