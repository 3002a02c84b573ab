import Verif.Props.C91_CrossoverSearch

/-
C92: all the crossovers of two half-orbits, the search on the ellipsoid, the errors
(lib/geodetic/crossover.cpp:93-214).
-/
namespace Pyinterp.Crossover

open Spec

set_option linter.unusedSectionVars false

variable {K : Type} [Field K] [LinearOrder K] [IsStrictOrderedRing K] [FloorRing K]

theorem collect_spec (f : Pt K → Out (Option (Pt K × Nat × Nat))) (P : Pt K → Option (Pt K × Nat × Nat) → Prop)
    (hf : ∀ q, ∃ r, f q = .ok r ∧ P q r) :
    ∀ l : Line K, ∃ rs, collect f l = .ok rs.reduceOption ∧ List.Forall₂ P l rs := by
  intro l
  induction l with
  | nil => exact ⟨[], rfl, List.Forall₂.nil⟩
  | cons q l ih =>
    obtain ⟨rs, h1, h2⟩ := ih
    obtain ⟨r, h3, h4⟩ := hf q
    refine ⟨r :: rs, ?_, List.Forall₂.cons h4 h2⟩
    unfold collect
    rw [h1, h3]
    cases r <;> rfl

/-- C92, plane: the list contains, in the order of the crossing points and with repetitions, exactly the
outcome described by C91 of each crossing point that is not too far from the measurements. -/
theorem C92_list_plane (interP interG : Line K → Line K → Line K) (near : Line K → Pt K → Option Nat)
    (dist : Pt K → Pt K → Option K) (limit : K)
    (w s1 s2 : K) (u1 u2 lon1 lat1 lon2 lat2 : List K) (h1 : lon1.length = lat1.length)
    (h2 : lon2.length = lat2.length) (r1 : Recorded w u1 lon1) (r2 : Recorded w u2 lon2) (t1 : Track u1) (t2 : Track u2)
    (n1 : 3 ≤ lon1.length) (n2 : 3 ≤ lon2.length) (p1 : Spans u1 s1) (p2 : Spans u2 s2) (hs : s1 + s2 < 360) :
    ∃ (k1 k2 : ℤ) (B : K) (L1 L2 : Line K) (rs : List (Option (Pt K × Nat × Nat))),
      L1 = (u1.map fun t => t + (k1 : K) * 360).zip lat1 ∧ L2 = (u2.map fun t => t + (k2 : K) * 360).zip lat2 ∧
      (∀ p ∈ L1 ++ L2, B - 360 < p.1 ∧ p.1 ≤ B) ∧
      List.Forall₂ (PlaneOutcome dist lon1 lat1 lon2 lat2 limit L1 L2) (interP L1 L2) rs ∧
      crossoverList interP interG near dist lon1 lat1 lon2 lat2 limit true = .ok rs.reduceOption := by
  obtain ⟨k1, k2, B, he, w1, w2⟩ := plane_lines w s1 s2 u1 u2 lon1 lat1 lon2 lat2 h1 h2 r1 r2 t1 t2 n1 n2 p1 p2 hs
  have hu1 : u1.length = lon1.length := List.Forall₂.length_eq r1
  have hu2 : u2.length = lon2.length := List.Forall₂.length_eq r2
  set L1 := (u1.map fun t => t + (k1 : K) * 360).zip lat1 with hL1
  set L2 := (u2.map fun t => t + (k2 : K) * 360).zip lat2 with hL2
  have lL1 : L1.length = lon1.length := by simp [hL1]; omega
  have lL2 : L2.length = lon2.length := by simp [hL2]; omega
  have hp := fun q => planePoint_spec dist lon1 lat1 lon2 lat2 limit L1 L2 q h1 h2 lL1 lL2
      (by intro h; rw [h] at lL1; simp at lL1; omega) (by intro h; rw [h] at lL2; simp at lL2; omega)
  obtain ⟨rs, hc, hf⟩ := collect_spec _ _ hp (interP L1 L2)
  refine ⟨k1, k2, B, L1, L2, rs, rfl, rfl, ?_, hf, ?_⟩
  · intro p hp
    rw [List.mem_append] at hp
    rcases hp with hp | hp
    · have := (List.of_mem_zip (a := p.1) (b := p.2) hp).1
      obtain ⟨t, ht, hte⟩ := List.mem_map.1 this
      rw [← hte]; exact w1 t ht
    · have := (List.of_mem_zip (a := p.1) (b := p.2) hp).1
      obtain ⟨t, ht, hte⟩ := List.mem_map.1 this
      rw [← hte]; exact w2 t ht
  · unfold crossoverList
    simp only [checkSize_ok h1, checkSize_ok h2, lineString_ok h1, lineString_ok h2, he, bind, Except.bind,
      if_true]
    exact hc

example := C92_list_plane exInter exInter (fun _ _ => none) exDist 1000 (-180) 20 30 exTrack1 exTrack2
  [170, 175, -175, -170] [0, 10, 20, 30] [-165, -180, 165] [0, 15, 30] rfl rfl ex_recorded1 ex_recorded2 ex_track1
  ex_track2 (by decide) (by decide) ex_spans1 ex_spans2 (by norm_num)

example : crossoverList (fun l1 l2 => exInter l1 l2 ++ [(175, 10), (250, 80)]) exInter (fun _ _ => none) exDist
    [170, 175, -175, -170] [0, 10, 20, 30] [-165, -180, 165] [0, 15, 30] 100000 true =
    .ok [((-177, 15), 2, 1), ((-110, 80), 3, 1)] := by decide +kernel

theorem collect_replicate (f : Pt K → Out (Option (Pt K × Nat × Nat))) (q : Pt K) (r : Option (Pt K × Nat × Nat))
    (hf : f q = .ok r) : ∀ n, collect f (List.replicate n q) = .ok (r.elim [] (List.replicate n)) := by
  intro n
  induction n with
  | zero => cases r <;> rfl
  | succ n ih =>
    rw [List.replicate_succ]
    unfold collect
    rw [ih, hf]
    cases r <;> rfl

/-- C92, both searches, any data: when `calculate_crossover` returns a result, `calculate_crossover_list`
returns the same crossover, perhaps several times; when it returns `None` the list is empty. -/
theorem C92_agree (interP interG : Line K → Line K → Line K) (near : Line K → Pt K → Option Nat)
    (dist : Pt K → Pt K → Option K) (lon1 lat1 lon2 lat2 : List K) (limit : K) (cartesian : Bool)
    (r : Option (Pt K × Nat × Nat))
    (h : crossover interP interG near dist lon1 lat1 lon2 lat2 limit cartesian = .ok r) :
    (r = none → crossoverList interP interG near dist lon1 lat1 lon2 lat2 limit cartesian = .ok []) ∧
    (∀ x, r = some x → ∃ n, 0 < n ∧
      crossoverList interP interG near dist lon1 lat1 lon2 lat2 limit cartesian = .ok (List.replicate n x)) := by
  have main : ∀ (pts : Line K) (f : Pt K → Out (Option (Pt K × Nat × Nat))),
      (do match ← search pts with
          | none => return none
          | some point => f point) = Except.ok r →
      (r = none → collect f pts = .ok []) ∧
      (∀ x, r = some x → ∃ n, 0 < n ∧ collect f pts = .ok (List.replicate n x)) := by
    intro pts f hm
    by_cases hall : ∃ q ∈ pts, ∀ q' ∈ pts, q' = q
    · obtain ⟨q, hq, hall⟩ := hall
      rw [search_same hq hall] at hm
      replace hm : f q = .ok r := hm
      have hrep : pts = List.replicate pts.length q := List.eq_replicate_of_mem hall
      have hpos : 0 < pts.length := List.length_pos_of_mem hq
      rw [hrep, collect_replicate f q r hm]
      refine ⟨?_, ?_⟩
      · rintro rfl; rfl
      · rintro x rfl; exact ⟨_, hpos, rfl⟩
    · match pts, hall, hm with
      | [], _, hm =>
        rw [search_nil] at hm
        have : r = none := by cases hm; rfl
        subst this
        exact ⟨fun _ => rfl, by simp⟩
      | p :: rest, hall, hm =>
        exfalso
        apply hall
        refine ⟨p, by simp, fun q' hq' => ?_⟩
        by_contra hne
        rw [search_diff hq' (List.mem_cons_self) hne] at hm
        cases hm
  unfold crossover at h
  unfold crossoverList
  cases hc1 : Shapes.checkSize lon1.length lat1.length with
  | error e => rw [hc1] at h; cases h
  | ok _ =>
  rw [hc1] at h
  cases hc2 : Shapes.checkSize lon2.length lat2.length with
  | error e => rw [hc2] at h; cases h
  | ok _ =>
  rw [hc2] at h
  cases hl1 : lineString lon1 lat1 with
  | error e => rw [hl1] at h; cases h
  | ok l1 =>
  rw [hl1] at h
  cases hl2 : lineString lon2 lat2 with
  | error e => rw [hl2] at h; cases h
  | ok l2 =>
  rw [hl2] at h
  cases cartesian with
  | true =>
    cases hn : normalize l1 l2 with
    | error e =>
      simp only [bind, Except.bind, hn, if_true] at h
      cases h
    | ok L =>
      simp only [bind, Except.bind, hn, if_true] at h ⊢
      exact main (interP L.1 L.2) _ h
  | false =>
    simp only [bind, Except.bind] at h ⊢
    exact main (interG l1 l2) _ h

/-- The hypothesis holds on a real case where the crossing is found on two segments: the list repeats the
crossover that `calculate_crossover` reports once. -/
example : crossover (fun l1 l2 => exInter l1 l2 ++ exInter l1 l2) exInter (fun _ _ => none) exDist
      [170, 175, -175, -170] [0, 10, 20, 30] [-165, -180, 165] [0, 15, 30] 1000 true = .ok (some ((-177, 15), 2, 1)) ∧
    crossoverList (fun l1 l2 => exInter l1 l2 ++ exInter l1 l2) exInter (fun _ _ => none) exDist
      [170, 175, -175, -170] [0, 10, 20, 30] [-165, -180, 165] [0, 15, 30] 1000 true =
      .ok [((-177, 15), 2, 1), ((-177, 15), 2, 1)] := by decide +kernel

/-- C92: arrays of different sizes, or (plane) of fewer than three points, are refused. -/
theorem C92_refused (interP interG : Line K → Line K → Line K) (near : Line K → Pt K → Option Nat)
    (dist : Pt K → Pt K → Option K) (lon1 lat1 lon2 lat2 : List K) (limit : K) (cartesian : Bool)
    (h : lon1.length ≠ lat1.length ∨ lon2.length ≠ lat2.length ∨
      (cartesian = true ∧ (lon1.length < 3 ∨ lon2.length < 3))) :
    crossover interP interG near dist lon1 lat1 lon2 lat2 limit cartesian = .error .exn ∧
    crossoverList interP interG near dist lon1 lat1 lon2 lat2 limit cartesian = .error .exn := by
  unfold crossover crossoverList
  by_cases e1 : lon1.length = lat1.length
  · by_cases e2 : lon2.length = lat2.length
    · rcases h with h | h | ⟨rfl, h⟩
      · exact absurd e1 h
      · exact absurd e2 h
      · have hn : normalize (lon1.zip lat1) (lon2.zip lat2) = .error .exn :=
          (C90_same_places _ _).1 (by simpa [← e1, ← e2] using h)
        simp only [checkSize_ok e1, checkSize_ok e2, lineString_ok e1, lineString_ok e2, bind, Except.bind, hn, if_true,
          and_self]
    · have : Shapes.checkSize lon2.length lat2.length = .error .exn := by unfold Shapes.checkSize; simp [e2]
      simp only [checkSize_ok e1, this, bind, Except.bind, and_self]
  · have : Shapes.checkSize lon1.length lat1.length = .error .exn := by unfold Shapes.checkSize; simp [e1]
    simp only [this, bind, Except.bind, and_self]

example : ([1, 2] : List ℚ).length ≠ ([3] : List ℚ).length := by decide

/-- C92: in the plane no undefined behaviour, whatever the data and the points that the intersection
returns: the result is a value or an exception. -/
theorem C92_plane_defined (interP interG : Line K → Line K → Line K) (near : Line K → Pt K → Option Nat)
    (dist : Pt K → Pt K → Option K) (lon1 lat1 lon2 lat2 : List K) (limit : K) :
    ((∃ r, crossover interP interG near dist lon1 lat1 lon2 lat2 limit true = .ok r) ∨
      crossover interP interG near dist lon1 lat1 lon2 lat2 limit true = .error .exn) ∧
    ((∃ r, crossoverList interP interG near dist lon1 lat1 lon2 lat2 limit true = .ok r) ∨
      crossoverList interP interG near dist lon1 lat1 lon2 lat2 limit true = .error .exn) := by
  by_cases hrefused : lon1.length ≠ lat1.length ∨ lon2.length ≠ lat2.length ∨
      (true = true ∧ (lon1.length < 3 ∨ lon2.length < 3))
  · have := C92_refused interP interG near dist lon1 lat1 lon2 lat2 limit true hrefused
    exact ⟨Or.inr this.1, Or.inr this.2⟩
  · simp only [ne_eq, true_and, not_or, not_not, not_lt] at hrefused
    obtain ⟨e1, e2, n1, n2⟩ := hrefused
    have z1 : (lon1.zip lat1).length = lon1.length := by simp [e1]
    have z2 : (lon2.zip lat2).length = lon2.length := by simp [e2]
    obtain ⟨L1, L2, hn, f1, f2⟩ := (C90_same_places (lon1.zip lat1) (lon2.zip lat2)).2 (by omega) (by omega)
    have lL1 : L1.length = lon1.length := by rw [← f1.length_eq]; exact z1
    have lL2 : L2.length = lon2.length := by rw [← f2.length_eq]; exact z2
    have hp := fun q => planePoint_spec dist lon1 lat1 lon2 lat2 limit L1 L2 q e1 e2 lL1 lL2
      (by intro h; rw [h] at lL1; simp at lL1; omega) (by intro h; rw [h] at lL2; simp at lL2; omega)
    constructor
    · unfold crossover
      simp only [checkSize_ok e1, checkSize_ok e2, lineString_ok e1, lineString_ok e2, hn, bind, Except.bind, if_true]
      by_cases hall : ∃ q ∈ interP L1 L2, ∀ q' ∈ interP L1 L2, q' = q
      · obtain ⟨q, hq, hall⟩ := hall
        rw [search_same hq hall]
        obtain ⟨r, hr, -⟩ := hp q
        exact Or.inl ⟨r, hr⟩
      · match hpts : interP L1 L2, hall with
        | [], _ => exact Or.inl ⟨none, rfl⟩
        | p :: rest, hall =>
          right
          have : ∃ b ∈ p :: rest, b ≠ p := by
            by_contra hc
            push Not at hc
            exact hall ⟨p, by simp, hc⟩
          obtain ⟨b, hb, hne⟩ := this
          rw [search_diff hb List.mem_cons_self hne]
    · obtain ⟨rs, hc, -⟩ := collect_spec _ _ hp (interP L1 L2)
      left
      refine ⟨rs.reduceOption, ?_⟩
      unfold crossoverList
      simp only [checkSize_ok e1, checkSize_ok e2, lineString_ok e1, lineString_ok e2, hn, bind, Except.bind, if_true]
      exact hc

/-! ### on the ellipsoid -/

/-- The tree returns the index of a point of the line when there is one, and nothing from an empty tree. -/
def TreeQuery (near : Line K → Pt K → Option Nat) (closest : Line K → Pt K → Nat → Prop) : Prop :=
  ∀ l q, (l = [] → near l q = none) ∧
    (l ≠ [] → ∃ i, near l q = some i ∧ i < l.length ∧ closest l q i)

/-- C92, `Crossover.nearest` on the ellipsoid: the indices of closest points of both half-orbits, or `None`
when one of them is farther than the limit. -/
theorem C92_nearest_geodetic (near : Line K → Pt K → Option Nat) (closest : Line K → Pt K → Nat → Prop)
    (ht : TreeQuery near closest) (dist : Pt K → Pt K → Option K) (l1 l2 : Line K) (q : Pt K) (limit : K)
    (n1 : l1 ≠ []) (n2 : l2 ≠ []) :
    ∃ r i j a b, nearest near dist l1 l2 q limit = .ok r ∧ l1[i]? = some a ∧ l2[j]? = some b ∧
      closest l1 q i ∧ closest l2 q j ∧
      ((TooFar (dist a q) limit ∨ TooFar (dist b q) limit) → r = none) ∧
      (¬ TooFar (dist a q) limit → ¬ TooFar (dist b q) limit → r = some (i, j)) := by
  obtain ⟨i, hi, hil, hci⟩ := (ht l1 q).2 n1
  obtain ⟨j, hj, hjl, hcj⟩ := (ht l2 q).2 n2
  obtain ⟨a, ha⟩ := getElem?_isSome hil
  obtain ⟨b, hb⟩ := getElem?_isSome hjl
  have he : nearest near dist l1 l2 q limit =
      .ok (if far (dist a q) limit then none else if far (dist b q) limit then none else some (i, j)) := by
    unfold nearest treeNearest
    simp only [hi, hj, rd_ok ha, rd_ok hb, bind, Except.bind, pure, Except.pure]
    split
    · rfl
    · split <;> rfl
  refine ⟨_, i, j, a, b, he, ha, hb, hci, hcj, ?_, ?_⟩
  · rintro (h | h)
    · rw [if_pos ((far_iff _ _).2 h)]
    · split
      · rfl
      · rw [if_pos ((far_iff _ _).2 h)]
  · intro h h'
    rw [if_neg (fun c => h ((far_iff _ _).1 c)), if_neg (fun c => h' ((far_iff _ _).1 c))]

/-- C92, `calculate_crossover` on the ellipsoid. -/
theorem C92_crossover_geodetic (interP interG : Line K → Line K → Line K) (near : Line K → Pt K → Option Nat)
    (closest : Line K → Pt K → Nat → Prop) (ht : TreeQuery near closest) (dist : Pt K → Pt K → Option K) (limit : K)
    (lon1 lat1 lon2 lat2 : List K) (h1 : lon1.length = lat1.length) (h2 : lon2.length = lat2.length)
    (n1 : lon1 ≠ []) (n2 : lon2 ≠ []) (L1 L2 : Line K) (hL1 : L1 = lon1.zip lat1) (hL2 : L2 = lon2.zip lat2) :
    (interG L1 L2 = [] → crossover interP interG near dist lon1 lat1 lon2 lat2 limit false = .ok none) ∧
    ((∃ a ∈ interG L1 L2, ∃ b ∈ interG L1 L2, a ≠ b) →
      crossover interP interG near dist lon1 lat1 lon2 lat2 limit false = .error .exn) ∧
    (∀ q ∈ interG L1 L2, (∀ q' ∈ interG L1 L2, q' = q) →
      ∃ r i j a b, crossover interP interG near dist lon1 lat1 lon2 lat2 limit false = .ok r ∧
        L1[i]? = some a ∧ L2[j]? = some b ∧ closest L1 q i ∧ closest L2 q j ∧
        ((TooFar (dist a q) limit ∨ TooFar (dist b q) limit) → r = none) ∧
        (¬ TooFar (dist a q) limit → ¬ TooFar (dist b q) limit → r = some (q, i, j))) := by
  have z1 : L1 ≠ [] := by
    rw [hL1]; intro h
    have := congrArg List.length h
    rw [List.length_zip, ← h1, Nat.min_self] at this
    exact n1 (List.eq_nil_of_length_eq_zero this)
  have z2 : L2 ≠ [] := by
    rw [hL2]; intro h
    have := congrArg List.length h
    rw [List.length_zip, ← h2, Nat.min_self] at this
    exact n2 (List.eq_nil_of_length_eq_zero this)
  subst hL1 hL2
  have hun : ∀ s, search (interG (lon1.zip lat1) (lon2.zip lat2)) = s →
      crossover interP interG near dist lon1 lat1 lon2 lat2 limit false =
      (do match ← s with
          | none => return none
          | some point => geodeticPoint near dist (lon1.zip lat1) (lon2.zip lat2) limit point) := by
    rintro s rfl
    unfold crossover
    simp only [checkSize_ok h1, checkSize_ok h2, lineString_ok h1, lineString_ok h2, bind, Except.bind]
    rfl
  refine ⟨fun hi => ?_, fun hd => ?_, fun q hq hall => ?_⟩
  · rw [hun _ rfl, hi]; rfl
  · obtain ⟨a, ha, b, hb, hab⟩ := hd
    rw [hun _ (search_diff ha hb hab)]; rfl
  · rw [hun _ (search_same hq hall)]
    obtain ⟨r, i, j, a, b, he, ha, hb, hci, hcj, hf, hn⟩ := C92_nearest_geodetic near closest ht dist _ _ q limit z1 z2
    refine ⟨r.map (fun x => (q, x.1, x.2)), i, j, a, b, ?_, ha, hb, hci, hcj, ?_, ?_⟩
    · show geodeticPoint near dist _ _ limit q = _
      unfold geodeticPoint
      rw [he]
      cases r <;> rfl
    · intro h; rw [hf h]; rfl
    · intro h h'; rw [hn h h']; rfl

/-- A tree query for the examples. -/
def exNear (l : Line ℚ) (q : Pt ℚ) : Option Nat := if l = [] then none else some (nearestPoint l q)

theorem ex_tree : TreeQuery exNear FirstNearest := by
  intro l q
  refine ⟨fun h => by simp [exNear, h], fun h => ⟨nearestPoint l q, by simp [exNear, h], ?_, C91_nearest l q h⟩⟩
  obtain ⟨p, hp, -⟩ := C91_nearest l q h
  exact (List.getElem?_eq_some_iff.1 hp).1

example : crossover exInter exInter exNear exDist [170, 175] [0, 10] [160, 185] [10, 16] 1000 false =
    .ok (some ((183, 15), 1, 1)) := by decide +kernel

example := C92_crossover_geodetic exInter exInter exNear FirstNearest ex_tree exDist 1000 [170, 175] [0, 10] [160, 185]
  [10, 16] rfl rfl (by simp) (by simp) _ _ rfl rfl

/-- C92 does not extend to an empty half-orbit: `Crossover(LineString([]), ...).nearest(point)` reads the first
element of an empty vector. -/
theorem C92_empty_false (near : Line K → Pt K → Option Nat) (closest : Line K → Pt K → Nat → Prop)
    (ht : TreeQuery near closest) (dist : Pt K → Pt K → Option K) (l2 : Line K) (q : Pt K) (limit : K) :
    nearest near dist [] l2 q limit = .error .ub := by
  unfold nearest treeNearest
  rw [(ht [] q).1 rfl]
  rfl

/-- A NaN distance is not "too far": the crossover is kept whatever the limit. -/
theorem C92_nan_false : ∃ r, crossover exInter exInter exNear (fun _ _ => none) [170, 175] [0, 10] [160, 185] [10, 16]
    0 false = .ok (some r) := ⟨((183, 15), 1, 1), by decide +kernel⟩

end Pyinterp.Crossover
