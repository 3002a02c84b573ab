import Verif.Lemmas.Orbit
import Verif.Spec.Orbit

/-
C83: `calculate_pass` returns the samples of the pass; the passes share out the samples of the orbit.
-/
namespace Pyinterp
open Passes Spec

section
variable {K : Type} [Field K] [LinearOrder K]

omit [Field K] [LinearOrder K] in
/-- The indexes of the pass `p` are these of the samples whose date is in the pass. -/
theorem passIndexes_eq (o : Orbit K) {p : Nat} (h1 : 1 ≤ p) (hp : p ≤ o.passTime.length) :
    o.passIndexes p = .ok ((List.range o.time.length).filter fun k => decide (InPass o.passTime p (o.time.getD k 0))) := by
  unfold Orbit.passIndexes
  dsimp only
  by_cases h : p = o.passTime.length
  · rw [if_pos (by omega)]
    rw [show (-1 : Int) = -((1 : Nat) : Int) by rfl, pyGet_neg le_rfl (by omega)]
    show Except.ok _ = Except.ok _
    congr 1
    apply List.filter_congr
    intro k _
    rw [decide_eq_decide]
    unfold InPass
    rw [List.getD_eq_getElem _ _ (show p - 1 < o.passTime.length by omega)]
    simp only [h, lt_irrefl, false_imp_iff, and_true, ge_iff_le]
  · rw [if_neg (by omega)]
    rw [show ((p : Int) - 1) = ((p - 1 : Nat) : Int) by omega, pyGet_nat (show p - 1 < o.passTime.length by omega)]
    rw [show (((p - 1 : Nat) : Int) + 1) = ((p : Nat) : Int) by omega, pyGet_nat (show p < o.passTime.length by omega)]
    show Except.ok _ = Except.ok _
    congr 1
    apply List.filter_congr
    intro k _
    rw [decide_eq_decide]
    unfold InPass
    rw [List.getD_eq_getElem _ _ (show p - 1 < o.passTime.length by omega), List.getD_eq_getElem _ _ (show p < o.passTime.length by omega)]
    constructor
    · rintro ⟨a, b⟩; exact ⟨a, fun _ => b⟩
    · rintro ⟨a, b⟩; exact ⟨a, b (by omega)⟩

omit [Field K] [LinearOrder K] in
/-- C83. The passes 1, ..., `passes_per_cycle()` share out the samples: every sample of the orbit belongs to one and only one of them
(the dates of the passes are sorted and the first pass begins with the orbit). -/
theorem C83_partition (o : Orbit K) (ho : o.passTime ≠ []) (hs : o.passTime.Pairwise (· ≤ ·))
    (h0 : ∀ t ∈ o.time, o.passTime.getD 0 0 ≤ t) (k : Nat) (hk : k < o.time.length) :
    ∃! p : Nat, (1 ≤ p ∧ p ≤ o.passTime.length) ∧ ∃ idx, o.passIndexes p = .ok idx ∧ k ∈ idx := by
  set n := o.passTime.length with hn
  have hn0 : 0 < n := by rw [hn]; exact List.length_pos_iff.mpr ho
  set t := o.time.getD k 0 with ht
  have hmem : o.passTime.getD 0 0 ≤ t := h0 _ (by rw [ht, List.getD_eq_getElem _ _ hk]; exact List.getElem_mem hk)
  have hmono : ∀ i j, i ≤ j → j < n → o.passTime.getD i 0 ≤ o.passTime.getD j 0 := by
    intro i j hij hj
    rcases eq_or_lt_of_le hij with rfl | h
    · exact le_rfl
    · rw [List.getD_eq_getElem _ _ (show i < o.passTime.length by omega), List.getD_eq_getElem _ _ (show j < o.passTime.length by omega)]
      exact List.pairwise_iff_getElem.mp hs i j (by omega) (by omega) h
  have hequiv : ∀ p : Nat, (1 ≤ p ∧ p ≤ n) ∧ (∃ idx, o.passIndexes p = .ok idx ∧ k ∈ idx) ↔ (1 ≤ p ∧ p ≤ n) ∧ InPass o.passTime p t := by
    intro p
    constructor
    · rintro ⟨hp, idx, e, hki⟩
      rw [passIndexes_eq o hp.1 (by omega)] at e
      have := Except.ok.inj e
      rw [← this] at hki
      simp only [List.mem_filter, decide_eq_true_eq] at hki
      exact ⟨hp, hki.2⟩
    · rintro ⟨hp, hin⟩
      refine ⟨hp, _, passIndexes_eq o hp.1 (by omega), ?_⟩
      simp only [List.mem_filter, decide_eq_true_eq, List.mem_range]
      exact ⟨hk, hin⟩
  have hex : ∃ p, (1 ≤ p ∧ p ≤ n) ∧ InPass o.passTime p t := by
    classical
    -- the last pass that does not begin after `t`
    have : ∀ m, m ≤ n → 1 ≤ m → (∀ j, m ≤ j → j < n → t < o.passTime.getD j 0) → ∃ p, (1 ≤ p ∧ p ≤ n) ∧ InPass o.passTime p t := by
      intro m
      induction m with
      | zero => intro _ h; omega
      | succ m ih =>
        intro hm _ hall
        by_cases hle : o.passTime.getD m 0 ≤ t
        · refine ⟨m + 1, ⟨by omega, hm⟩, by simpa using hle, fun hlt => hall (m + 1) le_rfl (by omega)⟩
        · have hm1 : 1 ≤ m := by
            by_contra hc
            have : m = 0 := by omega
            subst this
            exact hle hmem
          refine ih (by omega) hm1 ?_
          intro j hj hjn
          exact lt_of_lt_of_le (not_le.mp hle) (hmono m j hj hjn)
    exact this n le_rfl (by omega) (fun j h1 h2 => by omega)
  obtain ⟨p, hp, hin⟩ := hex
  refine ⟨p, (hequiv p).mpr ⟨hp, hin⟩, ?_⟩
  intro q hq
  obtain ⟨hqb, hqin⟩ := (hequiv q).mp hq
  by_contra hne
  rcases Nat.lt_or_ge p q with h | h
  · have a := hin.2 (by omega)
    have b := hmono p (q - 1) (by omega) (by omega)
    have c := hqin.1
    omega
  · have a := hqin.2 (by omega)
    have b := hmono q (p - 1) (by omega) (by omega)
    have c := hin.1
    omega

variable [FloorRing K]

/-- A sample of an orbit: longitude, latitude, date, along track distance. -/
def samplesOf (o : Orbit K) : List (K × K × Int × K) := o.longitude.zip (o.latitude.zip (o.time.zip o.xAl))

omit [Field K] [LinearOrder K] [FloorRing K] in
theorem samplesOf_fields (o : Orbit K) (h1 : o.longitude.length = o.time.length) (h2 : o.latitude.length = o.time.length)
    (h3 : o.xAl.length = o.time.length) :
    (samplesOf o).map (·.1) = o.longitude ∧ (samplesOf o).map (·.2.1) = o.latitude ∧ (samplesOf o).map (·.2.2.1) = o.time ∧
      (samplesOf o).map (·.2.2.2) = o.xAl := by
  have e1 : (samplesOf o).map Prod.fst = o.longitude := by
    unfold samplesOf; apply List.map_fst_zip; simp; omega
  have e2 : (samplesOf o).map Prod.snd = o.latitude.zip (o.time.zip o.xAl) := by
    unfold samplesOf; apply List.map_snd_zip; simp; omega
  have e3 : (o.latitude.zip (o.time.zip o.xAl)).map Prod.fst = o.latitude := by
    apply List.map_fst_zip; simp; omega
  have e4 : (o.latitude.zip (o.time.zip o.xAl)).map Prod.snd = o.time.zip o.xAl := by
    apply List.map_snd_zip; simp; omega
  have e5 : (o.time.zip o.xAl).map Prod.fst = o.time := by apply List.map_fst_zip; omega
  have e6 : (o.time.zip o.xAl).map Prod.snd = o.xAl := by apply List.map_snd_zip; omega
  refine ⟨e1, ?_, ?_, ?_⟩
  · rw [← e3, ← e2, List.map_map]; rfl
  · rw [← e5, ← e4, ← e2, List.map_map, List.map_map]; rfl
  · rw [← e6, ← e4, ← e2, List.map_map, List.map_map]; rfl

/-- C83. `calculate_pass`: the samples of the orbit whose date is in the pass, in their order, restricted to the box. There is no pass
with fewer than five samples (before the restriction to the box) and no pass without a sample in the box. -/
theorem C83_samples (meet : List K → List K → Option K) (dist : List K → List K → List K) (o : Orbit K)
    (h1 : o.longitude.length = o.time.length) (h2 : o.latitude.length = o.time.length) (h3 : o.xAl.length = o.time.length)
    {p : Nat} (hp1 : 1 ≤ p) (hp : p ≤ o.passTime.length) (bbox : Option (K → K → Bool)) :
    calculatePass meet dist p o bbox =
      (let pass := (samplesOf o).filter fun s => decide (InPass o.passTime p s.2.2.1)
       let kept := pass.filter fun s => match bbox with | none => true | some box => box s.1 s.2.1
       if pass.length < 5 ∨ kept = [] then .ok none
       else do
         let eq ← equatorProperties meet dist (kept.map (·.1)) (kept.map (·.2.1)) (kept.map (·.2.2.1))
         .ok (some ⟨kept.map (·.1), kept.map (·.2.1), kept.map (·.2.2.1), kept.map (·.2.2.2), eq⟩)) := by
  obtain ⟨f1, f2, f3, f4⟩ := samplesOf_fields o h1 h2 h3
  set S := samplesOf o with hS
  have hSl : S.length = o.time.length := by rw [← f3]; simp
  set P : K × K × Int × K → Bool := fun s => decide (InPass o.passTime p s.2.2.1) with hP
  set idx := (List.range o.time.length).filter fun k => decide (InPass o.passTime p (o.time.getD k 0)) with hidx
  have hidx' : idx = (List.range S.length).filter fun k => P (S.getD k (0, 0, 0, 0)) := by
    rw [hidx, hSl]
    apply List.filter_congr
    intro k hk
    have hk' : k < S.length := by rw [hSl]; simpa using hk
    have hk'' : k < o.time.length := by simpa using hk
    rw [hP]
    simp only
    rw [List.getD_eq_getElem _ _ hk', List.getD_eq_getElem _ _ hk'']
    congr 2
    simp only [← f3, List.getElem_map]
  have hg : gather S idx = S.filter P := by rw [hidx']; exact gather_filter P S _
  have hlen : idx.length = (S.filter P).length := by
    rw [← hg, gather_length]
    intro i hi
    rw [hidx'] at hi
    simp only [List.mem_filter, List.mem_range] at hi
    exact hi.1
  have g1 : gather o.longitude idx = (S.filter P).map (·.1) := by rw [← f1, gather_map, hg]
  have g2 : gather o.latitude idx = (S.filter P).map (·.2.1) := by rw [← f2, gather_map, hg]
  have g3 : gather o.time idx = (S.filter P).map (·.2.2.1) := by
    rw [← hg, ← gather_map, f3]
  have g4 : gather o.xAl idx = (S.filter P).map (·.2.2.2) := by rw [← f4, gather_map, hg]
  unfold calculatePass
  rw [passIndexes_eq o hp1 hp, ← hidx]
  show (if idx.length < 5 then _ else _) = _
  dsimp only
  by_cases h5 : idx.length < 5
  · rw [if_pos h5, if_pos (Or.inl (by omega))]
  rw [if_neg h5, g1, g2, g3, g4]
  have h5' : ¬ (S.filter P).length < 5 := by omega
  have hne : S.filter P ≠ [] := by
    intro h; rw [h] at h5'; simp at h5'
  cases bbox with
  | none =>
    dsimp only
    have hkeep : List.filter (fun _ : K × K × Int × K => true) (S.filter P) = S.filter P := List.filter_eq_self.mpr (fun _ _ => rfl)
    rw [hkeep, if_neg (by push Not; exact ⟨by omega, hne⟩)]
    rfl
  | some box =>
    dsimp only
    have hz : List.zipWith box ((S.filter P).map (·.1)) ((S.filter P).map (·.2.1)) = (S.filter P).map fun s => box s.1 s.2.1 := by
      rw [List.zipWith_map, List.zipWith_self]
    rw [hz]
    by_cases hall : (List.map (fun s => box s.1 s.2.1) (S.filter P)).all (fun b => !b) = true
    · rw [if_pos hall, if_pos]
      right
      rw [List.filter_eq_nil_iff]
      intro s hs
      rw [List.all_map, List.all_eq_true] at hall
      have := hall s hs
      simpa using this
    · rw [if_neg hall]
      have hany : (List.map (fun s => box s.1 s.2.1) (S.filter P)).any id = true := by
        rw [List.any_eq_true]
        rw [List.all_eq_true] at hall
        push Not at hall
        obtain ⟨b, hb, hb2⟩ := hall
        exact ⟨b, hb, by simpa using hb2⟩
      rw [if_pos hany, if_neg, select_map, select_map, select_map, select_map]
      · rfl
      · push Not
        refine ⟨by omega, ?_⟩
        intro hnil
        rw [List.filter_eq_nil_iff] at hnil
        rw [List.any_eq_true] at hany
        obtain ⟨b, hb, hb2⟩ := hany
        rw [List.mem_map] at hb
        obtain ⟨s, hs, rfl⟩ := hb
        exact hnil s hs hb2

/-- C83. After the last pass: an error. -/
theorem C83_refused (meet : List K → List K → Option K) (dist : List K → List K → List K) (o : Orbit K)
    (bbox : Option (K → K → Bool)) {p : Nat} (hp : o.passTime.length < p) (ho : o.passTime ≠ []) :
    calculatePass meet dist p o bbox = .error .exn := by
  have hn0 : 0 < o.passTime.length := List.length_pos_iff.mpr ho
  have : o.passIndexes p = .error .exn := by
    unfold Orbit.passIndexes
    dsimp only
    rw [if_neg (by omega)]
    have hend : pyGet o.passTime ((p : Int) - 1 + 1) = .error .exn := by
      unfold pyGet
      have e1 : ¬ ((p : Int) - 1 + 1 < 0) := by omega
      have e2 : ((p : Int) - 1 + 1).toNat = p := by omega
      simp only [e1, if_false, e2]
      rw [List.getElem?_eq_none (by omega)]
    cases h : pyGet o.passTime ((p : Int) - 1) with
    | error e =>
      have he : e = .exn := by
        unfold pyGet at h
        dsimp only at h
        rw [if_neg (show ¬ ((p : Int) - 1 < 0) by omega), if_neg (show ¬ ((p : Int) - 1 < 0) by omega)] at h
        split at h
        · cases h
        · exact (Except.error.inj h).symm
      rw [he]; rfl
    | ok a =>
      show (do let b ← pyGet o.passTime ((p : Int) - 1 + 1); _) = _
      rw [hend]; rfl
  unfold calculatePass
  rw [this]; rfl

/-- Finding (C83): negative pass numbers are not refused: the pass `-m` is the pass `n - m` (Python indexing from the end). -/
theorem C83_negative_false (meet : List K → List K → Option K) (dist : List K → List K → List K) (o : Orbit K)
    (bbox : Option (K → K → Bool)) {m : Nat} (h1 : 1 ≤ m) (hm : m < o.passTime.length) :
    calculatePass meet dist (-(m : Int)) o bbox = calculatePass meet dist ((o.passTime.length - m : Nat) : Int) o bbox := by
  have : o.passIndexes (-(m : Int)) = o.passIndexes ((o.passTime.length - m : Nat) : Int) := by
    unfold Orbit.passIndexes
    dsimp only
    rw [if_neg (by omega), if_neg (by omega)]
    rw [show (-(m : Int) - 1) = -((m + 1 : Nat) : Int) by push_cast; ring, pyGet_neg (by omega) (by omega)]
    rw [show (-((m + 1 : Nat) : Int) + 1) = -((m : Nat) : Int) by push_cast; ring, pyGet_neg h1 (by omega)]
    rw [show (((o.passTime.length - m : Nat) : Int) - 1) = ((o.passTime.length - (m + 1) : Nat) : Int) by omega,
      pyGet_nat (by omega)]
    rw [show (((o.passTime.length - (m + 1) : Nat) : Int) + 1) = ((o.passTime.length - m : Nat) : Int) by omega, pyGet_nat (by omega)]
  unfold calculatePass
  rw [this]

/-- C83. The pass 0 has no sample when the dates are sorted. -/
theorem C83_zero (meet : List K → List K → Option K) (dist : List K → List K → List K) (o : Orbit K)
    (bbox : Option (K → K → Bool)) (ho : o.passTime ≠ []) (hs : o.passTime.Pairwise (· ≤ ·)) :
    calculatePass meet dist 0 o bbox = .ok none := by
  have hn0 : 0 < o.passTime.length := List.length_pos_iff.mpr ho
  have : o.passIndexes 0 = .ok [] := by
    unfold Orbit.passIndexes
    dsimp only
    rw [if_neg (by omega)]
    rw [show (0 : Int) - 1 = -((1 : Nat) : Int) by rfl, pyGet_neg le_rfl (by omega)]
    rw [show (-((1 : Nat) : Int) + 1) = ((0 : Nat) : Int) by rfl, pyGet_nat hn0]
    show Except.ok _ = Except.ok _
    congr 1
    rw [List.filter_eq_nil_iff]
    intro k _
    simp only [decide_eq_true_eq, not_and, not_lt]
    intro h
    have : o.passTime[0] ≤ o.passTime[o.passTime.length - 1] := by
      rcases Nat.eq_or_lt_of_le (show 0 ≤ o.passTime.length - 1 by omega) with h | h
      · simp only [← h]; exact le_rfl
      · exact List.pairwise_iff_getElem.mp hs 0 _ _ _ h
    omega
  unfold calculatePass
  rw [this]; rfl

end

/-- Two passes of five samples each; the hypotheses hold and both passes are found. -/
def twoPasses : Orbit ℚ :=
  ⟨[-60, -30, 1, 30, 60, 66, 30, 2, -30, -60], [0, 1, 2, 3, 4, 5, 6, 7, 8, 9], [0, 50], [0, 10, 20, 30, 40, 50, 60, 70, 80, 90],
   [0, 1, 2, 3, 4, 5, 6, 7, 8, 9]⟩

example : ∃! p : Nat, (1 ≤ p ∧ p ≤ twoPasses.passTime.length) ∧ ∃ idx, twoPasses.passIndexes p = .ok idx ∧ 4 ∈ idx :=
  C83_partition twoPasses (by decide) (by decide) (by decide) 4 (by decide)

example : (calculatePass (fun _ _ => none) (fun _ _ => []) 2 twoPasses none).map
    (fun r => r.map (fun p => (p.lat, p.time))) = .ok (some ([66, 30, 2, -30, -60], [50, 60, 70, 80, 90])) := by
  decide +kernel

end Pyinterp
