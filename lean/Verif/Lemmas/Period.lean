import Verif.Props.C16_Periods
import Mathlib.Tactic.Push

namespace Pyinterp
open Period PeriodList

theorem covers_nil (t : Int) : ¬ Covers [] t := by simp [Covers]

theorem covers_cons (p : Period) (l : List Period) (t : Int) :
    Covers (p :: l) t ↔ p.Mem t ∨ Covers l t := by simp [Covers]

theorem covers_reverse (l : List Period) (t : Int) : Covers l.reverse t ↔ Covers l t := by
  simp [Covers]

/-! ### sortedness test -/

theorem sortedDisjointGo_iff (prev : Period) (l : List Period) (hp : prev.Valid)
    (hl : ∀ p ∈ l, p.Valid) :
    sortedDisjointGo prev l = true ↔
      (∀ q ∈ l, prev.last < q.begin_) ∧ l.Pairwise (fun p q => p.last < q.begin_) := by
  induction l generalizing prev with
  | nil => simp [sortedDisjointGo]
  | cons q rest ih =>
    have hq : q.Valid := hl q (by simp)
    have ih' := ih q hq (fun p h => hl p (by simp [h]))
    unfold sortedDisjointGo
    by_cases hc : prev.last < q.begin_
    · have h1 : prev.intersects q = false := by
        rw [← Bool.not_eq_true, intersects_iff hp hq]; unfold Valid at *; omega
      have h2 : ¬ q.last < prev.begin_ := by unfold Valid at *; omega
      simp only [h1, h2, decide_false, Bool.or_false, Bool.false_eq_true, if_false, ih',
        List.pairwise_cons, List.mem_cons, forall_eq_or_imp]
      constructor
      · rintro ⟨a, b⟩
        refine ⟨⟨hc, fun r hr => ?_⟩, a, b⟩
        have := a r hr; unfold Valid at *; omega
      · rintro ⟨_, a, b⟩; exact ⟨a, b⟩
    · have h1 : (prev.intersects q || decide (q.last < prev.begin_)) = true := by
        rw [Bool.or_eq_true, intersects_iff hp hq, decide_eq_true_iff]; unfold Valid at *; omega
      simp only [h1, if_true]
      simp only [Bool.false_eq_true, false_iff]
      rintro ⟨a, -⟩
      exact hc (a q (by simp))

/-! ### merge -/

/-- Invariant of the (reversed) output of `merge`. -/
def MergeInv (out : List Period) : Prop :=
  (∀ p ∈ out, p.Valid) ∧ out.Pairwise (fun p q => q.last < p.begin_)

theorem insertOrMerge_inv (out : List Period) (p : Period) (hp : p.Valid) (ho : MergeInv out)
    (hb : ∀ h ∈ out.head?, h.begin_ ≤ p.begin_) :
    MergeInv (insertOrMerge out p) ∧
    (∀ z, p.begin_ ≤ z → ∀ h ∈ (insertOrMerge out p).head?, h.begin_ ≤ z) ∧
    (∀ t, Covers (insertOrMerge out p) t ↔ Covers out t ∨ p.Mem t) := by
  cases out with
  | nil =>
    refine ⟨?_, ?_, ?_⟩
    · simp [MergeInv, insertOrMerge, hp]
    · intro z hz h hh; simp [insertOrMerge] at hh; subst hh; exact hz
    · intro t; simp [insertOrMerge, Covers]
  | cons top rest =>
    have hb' : top.begin_ ≤ p.begin_ := hb top (by simp)
    obtain ⟨hv, hpw⟩ := ho
    have ht : top.Valid := hv top (by simp)
    rw [List.pairwise_cons] at hpw
    have hm := C17_merge ht hp
    unfold insertOrMerge
    simp only
    by_cases hc : (∃ t, top.Mem t ∧ p.Mem t)
    · obtain ⟨hval, hmem⟩ := hm.1 hc
      have hn : (top.merge p).isNull = false := by
        rw [← Bool.not_eq_true, isNull_iff]; simpa using hval
      have hbeg : (top.merge p).begin_ = top.begin_ := by
        have h1 := (hmem top.begin_).2 (Or.inl ⟨Int.le_refl _, ht⟩)
        have h2 := (hmem (top.merge p).begin_).1 ⟨Int.le_refl _, hval⟩
        unfold Mem at h1 h2; omega
      rw [hn]
      simp only [Bool.false_eq_true, if_false]
      refine ⟨⟨?_, ?_⟩, ?_, ?_⟩
      · intro q hq
        rcases List.mem_cons.1 hq with rfl | hq
        · exact hval
        · exact hv q (by simp [hq])
      · rw [List.pairwise_cons]
        refine ⟨fun q hq => ?_, hpw.2⟩
        rw [hbeg]; exact hpw.1 q hq
      · intro z hz h hh
        simp at hh; subst hh; rw [hbeg]; omega
      · intro t
        rw [covers_cons, covers_cons, hmem]
        tauto
    · have hn := hm.2 hc
      rw [hn]
      simp only [if_true]
      have hlt : top.last < p.begin_ := by
        by_contra hh
        apply hc
        exact ⟨p.begin_, ⟨hb', by omega⟩, ⟨Int.le_refl _, hp⟩⟩
      refine ⟨⟨?_, ?_⟩, ?_, ?_⟩
      · intro q hq
        rcases List.mem_cons.1 hq with rfl | hq
        · exact hp
        · exact hv q hq
      · rw [List.pairwise_cons]
        refine ⟨fun q hq => ?_, List.pairwise_cons.2 hpw⟩
        rcases List.mem_cons.1 hq with rfl | hq
        · exact hlt
        · have := hpw.1 q hq; omega
      · intro z hz h hh
        simp at hh; subst hh; exact hz
      · intro t
        rw [covers_cons]; tauto

theorem mergeGo_spec (out xs ys : List Period) (ho : MergeInv out)
    (hx : (∀ p ∈ xs, p.Valid) ∧ xs.Pairwise (fun p q => p.begin_ ≤ q.begin_))
    (hy : (∀ p ∈ ys, p.Valid) ∧ ys.Pairwise (fun p q => p.begin_ ≤ q.begin_))
    (hbx : ∀ p ∈ xs, ∀ h ∈ out.head?, h.begin_ ≤ p.begin_)
    (hby : ∀ p ∈ ys, ∀ h ∈ out.head?, h.begin_ ≤ p.begin_) :
    MergeInv (mergeGo out xs ys) ∧
    ∀ t, Covers (mergeGo out xs ys) t ↔ Covers out t ∨ Covers xs t ∨ Covers ys t := by
  fun_induction mergeGo out xs ys with
  | case1 out => exact ⟨ho, fun t => by simp [covers_nil]⟩
  | case2 out x xs ih =>
    obtain ⟨h1, h2, h3⟩ := insertOrMerge_inv out x (hx.1 x (by simp)) ho (hbx x (by simp))
    have hx2 := List.pairwise_cons.1 hx.2
    obtain ⟨a, b⟩ := ih h1 ⟨fun p h => hx.1 p (by simp [h]), hx2.2⟩ hy
      (fun p h => h2 _ (hx2.1 p h)) (by simp)
    refine ⟨a, fun t => ?_⟩
    rw [b, h3, covers_cons]; tauto
  | case3 out y ys ih =>
    obtain ⟨h1, h2, h3⟩ := insertOrMerge_inv out y (hy.1 y (by simp)) ho (hby y (by simp))
    have hy2 := List.pairwise_cons.1 hy.2
    obtain ⟨a, b⟩ := ih h1 hx ⟨fun p h => hy.1 p (by simp [h]), hy2.2⟩ (by simp)
      (fun p h => h2 _ (hy2.1 p h))
    refine ⟨a, fun t => ?_⟩
    rw [b, h3, covers_cons]; tauto
  | case4 out x xs y ys hc ih =>
    obtain ⟨h1, h2, h3⟩ := insertOrMerge_inv out x (hx.1 x (by simp)) ho (hbx x (by simp))
    have hx2 := List.pairwise_cons.1 hx.2
    have hy2 := List.pairwise_cons.1 hy.2
    rw [isAfter_iff (hy.1 y (by simp))] at hc
    obtain ⟨a, b⟩ := ih h1 ⟨fun p h => hx.1 p (by simp [h]), hx2.2⟩ hy
      (fun p h => h2 _ (hx2.1 p h)) (by
        intro p hp
        apply h2
        rcases List.mem_cons.1 hp with rfl | hp
        · omega
        · have := hy2.1 p hp; omega)
    refine ⟨a, fun t => ?_⟩
    rw [b, h3, covers_cons, covers_cons]; tauto
  | case5 out x xs y ys hc ih =>
    obtain ⟨h1, h2, h3⟩ := insertOrMerge_inv out y (hy.1 y (by simp)) ho (hby y (by simp))
    have hx2 := List.pairwise_cons.1 hx.2
    have hy2 := List.pairwise_cons.1 hy.2
    rw [isAfter_iff (hy.1 y (by simp))] at hc
    obtain ⟨a, b⟩ := ih h1 hx ⟨fun p h => hy.1 p (by simp [h]), hy2.2⟩ (by
        intro p hp
        apply h2
        rcases List.mem_cons.1 hp with rfl | hp
        · omega
        · have := hx2.1 p hp; omega)
      (fun p h => h2 _ (hy2.1 p h))
    refine ⟨a, fun t => ?_⟩
    rw [b, h3, covers_cons, covers_cons]; tauto

theorem SortedDisjoint.sorted {l : List Period} (h : SortedDisjoint l) :
    l.Pairwise (fun p q => p.begin_ ≤ q.begin_) := by
  refine h.2.imp_of_mem (R := fun p q : Period => p.last < q.begin_) ?_
  intro p q hp _ hpq
  have := h.1 p hp; unfold Valid at this; omega

theorem SortedDisjoint.tail {p : Period} {l : List Period} (h : SortedDisjoint (p :: l)) :
    SortedDisjoint l :=
  ⟨fun q hq => h.1 q (by simp [hq]), (List.pairwise_cons.1 h.2).2⟩

/-! ### lookup -/

theorem lookup_some {l : List Period} {first i : Nat} {d : Int} (h : lookup l first d = some i) :
    first ≤ i ∧ ∃ hi : i < l.length,
      (l[i].containsPoint d || l[i].isAfter d) = true ∧
      ∀ j (hj : j < l.length), first ≤ j → j < i → (l[j].containsPoint d || l[j].isAfter d) = false := by
  fun_induction lookup l first d with
  | case1 first hlt hc =>
    cases h
    exact ⟨Nat.le_refl _, hlt, hc, fun j hj a b => by omega⟩
  | case2 first hlt hc ih =>
    obtain ⟨a, hi, b, c⟩ := ih h
    refine ⟨by omega, hi, b, fun j hj h1 h2 => ?_⟩
    by_cases he : j = first
    · subst he; simpa using hc
    · exact c j hj (by omega) h2
  | case3 first hlt => cases h

theorem lookup_none {l : List Period} {first : Nat} {d : Int} (h : lookup l first d = none) :
    ∀ j (hj : j < l.length), first ≤ j → (l[j].containsPoint d || l[j].isAfter d) = false := by
  fun_induction lookup l first d with
  | case1 first hlt hc => cases h
  | case2 first hlt hc ih =>
    intro j hj h1
    by_cases he : j = first
    · subst he; simpa using hc
    · exact ih h j hj (by omega)
  | case3 first hlt => intro j hj h1; omega

theorem cond_iff {p : Period} (hp : p.Valid) (d : Int) :
    (p.containsPoint d || p.isAfter d) = true ↔ d ≤ p.last := by
  rw [Bool.or_eq_true, contains_iff, isAfter_iff hp]
  unfold Mem; unfold Valid at hp; omega

theorem cond_false_iff {p : Period} (hp : p.Valid) (d : Int) :
    (p.containsPoint d || p.isAfter d) = false ↔ p.last < d := by
  rw [← Bool.not_eq_true, cond_iff hp]; omega

theorem lookup_none' {l : List Period} (hl : ∀ p ∈ l, p.Valid) {first : Nat} {d : Int}
    (h : lookup l first d = none) :
    ∀ j (hj : j < l.length), first ≤ j → l[j].last < d := fun j hj h1 =>
  (cond_false_iff (hl _ (List.getElem_mem hj)) d).1 (lookup_none h j hj h1)

theorem lookup_some' {l : List Period} (hl : ∀ p ∈ l, p.Valid) {first i : Nat} {d : Int}
    (h : lookup l first d = some i) :
    first ≤ i ∧ ∃ hi : i < l.length, d ≤ l[i].last ∧
      ∀ j (hj : j < l.length), first ≤ j → j < i → l[j].last < d := by
  obtain ⟨a, hi, b, c⟩ := lookup_some h
  exact ⟨a, hi, (cond_iff (hl _ (List.getElem_mem hi)) d).1 b,
    fun j hj h1 h2 => (cond_false_iff (hl _ (List.getElem_mem hj)) d).1 (c j hj h1 h2)⟩

/-- the flag of one date: some period meets `[d, lastDate]`. -/
def meets (l : List Period) (lastDate d : Int) : Bool :=
  l.any fun p => decide (d ≤ p.last) && decide (p.begin_ ≤ lastDate)

theorem meets_false {l : List Period} {lastDate d : Int}
    (h : ∀ j (hj : j < l.length), l[j].last < d ∨ lastDate < l[j].begin_) :
    meets l lastDate d = false := by
  rw [← Bool.not_eq_true]
  intro hm
  rw [meets, List.any_eq_true] at hm
  obtain ⟨p, hp, hc⟩ := hm
  obtain ⟨j, hj, rfl⟩ := List.getElem_of_mem hp
  have := h j hj
  simp at hc; omega

theorem crossGo_spec (l : List Period) (hl : SortedDisjoint l) (lastDate : Int)
    (hnot : ∀ i p, lookup l 0 lastDate = some i → l[i]? = some p → lastDate < p.begin_)
    (first : Nat) (ds : List Int) (hds : Chronological ds) (hle : ∀ d ∈ ds, d ≤ lastDate)
    (hfirst : ∀ j (hj : j < l.length), j < first → ∀ d ∈ ds, l[j].last < d) :
    crossGo l (lookup l 0 lastDate) first ds = ds.map (meets l lastDate) := by
  induction ds generalizing first with
  | nil => rfl
  | cons d ds ih =>
    have hpw := List.pairwise_cons.1 hds
    have allfalse : (∀ j (hj : j < l.length), l[j].last < d ∨ lastDate < l[j].begin_) →
        false :: ds.map (fun _ => false) = (d :: ds).map (meets l lastDate) := by
      intro h
      rw [List.map_cons, meets_false h]
      congr 1
      apply List.map_congr_left
      intro d' hd'
      rw [meets_false]
      intro j hj
      rcases h j hj with h | h
      · left; have := hpw.1 d' hd'; omega
      · exact Or.inr h
    unfold crossGo
    cases hlk : lookup l first d with
    | none =>
      simp only
      apply allfalse
      intro j hj
      left
      by_cases hjf : j < first
      · exact hfirst j hj hjf d (by simp)
      · exact lookup_none' hl.1 hlk j hj (by omega)
    | some i =>
      obtain ⟨h1, hi, h2, h3⟩ := lookup_some' hl.1 hlk
      simp only
      by_cases heq : some i = lookup l 0 lastDate
      · rw [if_pos heq]
        apply allfalse
        intro j hj
        by_cases hji : j < i
        · left
          by_cases hjf : j < first
          · exact hfirst j hj hjf d (by simp)
          · exact h3 j hj (by omega) hji
        · right
          have hb := hnot i l[i] heq.symm (List.getElem?_eq_getElem hi)
          by_cases he : j = i
          · subst he; exact hb
          · have hs := List.pairwise_iff_getElem.1 hl.sorted i j hi hj (by omega)
            omega
      · rw [if_neg heq, List.getElem?_eq_getElem hi, List.map_cons]
        simp only
        have hv := hl.1 _ (List.getElem_mem hi)
        congr 1
        · rw [(cond_iff hv d).2 h2]
          symm
          rw [meets, List.any_eq_true]
          refine ⟨l[i], List.getElem_mem hi, ?_⟩
          have hd : d ≤ lastDate := hle d (by simp)
          have : l[i].last < lastDate := by
            cases hL : lookup l 0 lastDate with
            | none => exact lookup_none' hl.1 hL i hi (by omega)
            | some k =>
              obtain ⟨_, hk, k2, k3⟩ := lookup_some' hl.1 hL
              have hne : i ≠ k := by rintro rfl; exact heq hL.symm
              have hkf : first ≤ k := by
                by_contra hh
                have := hfirst k hk (by omega) d (by simp); omega
              have hik : i < k := by
                by_contra hh
                have := h3 k hk hkf (by omega); omega
              exact k3 i hi (by omega) hik
          unfold Valid at hv
          simp; omega
        · apply ih i hpw.2 (fun d' h => hle d' (by simp [h]))
          intro j hj hji d' hd'
          have hdd := hpw.1 d' hd'
          by_cases hjf : j < first
          · have := hfirst j hj hjf d (by simp); omega
          · have := h3 j hj (by omega) hji; omega

/-! ### belong -/

theorem advance_spec (atEnd : Out Period) (d : Int) (its : List Period)
    (hv : ∀ p ∈ its, p.Valid) :
    (∃ pre p post, its = pre ++ p :: post ∧ (∀ q ∈ pre, q.last < d) ∧ d ≤ p.last ∧
      advance atEnd d its = .ok (p :: post)) ∨
    ((∀ q ∈ its, q.last < d) ∧ advance atEnd d its = (atEnd >>= fun _ => .ok [])) := by
  induction its with
  | nil => right; exact ⟨by simp, rfl⟩
  | cons p ps ih =>
    have hp := hv p (by simp)
    unfold advance
    by_cases hc : d ≤ p.last
    · left
      refine ⟨[], p, ps, rfl, by simp, hc, ?_⟩
      have := (cond_iff hp d).2 hc
      have h2 : (!p.containsPoint d && !p.isAfter d) = false := by
        rw [← Bool.not_or, this]; rfl
      simp [h2]
    · have := (cond_false_iff hp d).2 (by omega)
      have h2 : (!p.containsPoint d && !p.isAfter d) = true := by
        rw [← Bool.not_or, this]; rfl
      simp only [h2, if_true]
      rcases ih (fun q hq => hv q (by simp [hq])) with ⟨pre, q, post, e, a, b, c⟩ | ⟨a, b⟩
      · left
        refine ⟨p :: pre, q, post, by simp [e], ?_, b, c⟩
        intro r hr
        rcases List.mem_cons.1 hr with rfl | hr
        · omega
        · exact a r hr
      · right
        refine ⟨?_, b⟩
        intro r hr
        rcases List.mem_cons.1 hr with rfl | hr
        · omega
        · exact a r hr

theorem any_contains_false {l : List Period} {d : Int} (h : ∀ q ∈ l, q.last < d) :
    l.any (fun p => p.containsPoint d) = false := by
  rw [← Bool.not_eq_true, List.any_eq_true]
  rintro ⟨p, hp, hc⟩
  have := h p hp
  rw [contains_iff] at hc; unfold Mem at hc; omega

theorem belongGo_spec (atEnd : Out Period) (its : List Period) (hits : SortedDisjoint its)
    (ds : List Int) (hds : Chronological ds) :
    belongGo atEnd its ds =
      if ∃ d ∈ ds, ∀ p ∈ its, p.last < d then
        atEnd >>= fun _ => .ok (ds.map fun d => its.any fun p => p.containsPoint d)
      else .ok (ds.map fun d => its.any fun p => p.containsPoint d) := by
  induction ds generalizing its with
  | nil => simp [belongGo]
  | cons d ds ih =>
    have hpw := List.pairwise_cons.1 hds
    unfold belongGo
    rcases advance_spec atEnd d its hits.1 with ⟨pre, p, post, e, a, b, c⟩ | ⟨a, b⟩
    · rw [c]
      have hsd : SortedDisjoint (p :: post) := by
        refine ⟨fun q hq => hits.1 q (by rw [e]; exact List.mem_append_right _ hq), ?_⟩
        have := hits.2; rw [e] at this
        exact (List.pairwise_append.1 this).2.1
      have hih := ih (p :: post) hsd hpw.2
      have hany : ∀ d', d ≤ d' → (its.any fun p => p.containsPoint d') =
          ((p :: post).any fun p => p.containsPoint d') := by
        intro d' hd'
        rw [e, List.any_append, any_contains_false (l := pre) (fun q hq => by have := a q hq; omega)]
        rfl
      have hpost : (post.any fun p => p.containsPoint d) = false := by
        rw [← Bool.not_eq_true, List.any_eq_true]
        rintro ⟨q, hq, hc⟩
        rw [contains_iff] at hc
        have h1 := (List.pairwise_cons.1 hsd.2).1 q hq
        unfold Mem at hc; omega
      have hcond : (∃ d' ∈ d :: ds, ∀ q ∈ its, q.last < d') ↔
          (∃ d' ∈ ds, ∀ q ∈ p :: post, q.last < d') := by
        constructor
        · rintro ⟨d', hd', hall⟩
          rcases List.mem_cons.1 hd' with rfl | hd'
          · have := hall p (by rw [e]; simp); omega
          · exact ⟨d', hd', fun q hq => hall q (by rw [e]; exact List.mem_append_right _ hq)⟩
        · rintro ⟨d', hd', hall⟩
          refine ⟨d', by simp [hd'], ?_⟩
          intro q hq
          rw [e] at hq
          rcases List.mem_append.1 hq with hq | hq
          · have h1 := a q hq; have h2 := hpw.1 d' hd'; omega
          · exact hall q hq
      have hmap : (d :: ds).map (fun d => its.any fun p => p.containsPoint d) =
          p.containsPoint d :: ds.map (fun d => (p :: post).any fun p => p.containsPoint d) := by
        rw [List.map_cons, hany d (Int.le_refl _), List.any_cons, hpost, Bool.or_false]
        congr 1
        apply List.map_congr_left
        intro d' hd'
        exact hany d' (hpw.1 d' hd')
      show (belongGo atEnd (p :: post) ds >>= fun rest => .ok (p.containsPoint d :: rest)) = _
      rw [hih, hmap]
      simp only [hcond]
      split
      · cases atEnd <;> rfl
      · rfl
    · rw [b]
      have hex : ∃ d' ∈ d :: ds, ∀ q ∈ its, q.last < d' := ⟨d, by simp, a⟩
      rw [if_pos hex]
      have hmap : (d :: ds).map (fun d => its.any fun p => p.containsPoint d) =
          false :: ds.map (fun _ => false) := by
        rw [List.map_cons, any_contains_false a]
        congr 1
        apply List.map_congr_left
        intro d' hd'
        exact any_contains_false (fun q hq => by have := a q hq; have := hpw.1 d' hd'; omega)
      rw [hmap]
      cases atEnd <;> rfl

/-! ### join -/

/-- instants added by joining. -/
def GapFilled (l : List Period) (eps t : Int) : Prop :=
  ∃ p ∈ l, ∃ q ∈ l, p.last < t ∧ t < q.begin_ ∧ q.begin_ - p.last ≤ eps

theorem joinGo_spec (eps : Int) (top : Period) (rest : List Period) (prev : Period)
    (pre ps : List Period)
    (hout : (∀ p ∈ top :: rest, p.Valid) ∧
      (top :: rest).Pairwise (fun p q => q.last < p.begin_ ∧ q.last + eps < p.begin_))
    (htop : top.last = prev.last) (hprev : prev ∈ pre) (hpre : ∀ a ∈ pre, a.last ≤ prev.last ∧ a.Valid)
    (hprevv : prev.Valid)
    (hps : SortedDisjoint ps) (hpps : ∀ p ∈ ps, prev.last < p.begin_)
    (hcov : ∀ t, Covers (top :: rest) t ↔ Covers pre t ∨ GapFilled pre eps t) :
    ((∀ p ∈ joinGo eps (top :: rest) prev ps, p.Valid) ∧
      (joinGo eps (top :: rest) prev ps).Pairwise
        (fun p q => q.last < p.begin_ ∧ q.last + eps < p.begin_)) ∧
    ∀ t, Covers (joinGo eps (top :: rest) prev ps) t ↔
      Covers (ps.reverse ++ pre) t ∨ GapFilled (ps.reverse ++ pre) eps t := by
  induction ps generalizing top rest prev pre with
  | nil => exact ⟨hout, by simpa [joinGo] using hcov⟩
  | cons p ps ih =>
    have hpv := hps.1 p (by simp)
    have hpp := hpps p (by simp)
    have hps2 := List.pairwise_cons.1 hps.2
    have hout2 := List.pairwise_cons.1 hout.2
    have htv := hout.1 top (by simp)
    have e : (p :: ps).reverse ++ pre = ps.reverse ++ (p :: pre) := by simp
    rw [e]
    unfold joinGo
    have hpre' : ∀ a ∈ p :: pre, a.last ≤ p.last ∧ a.Valid := by
      intro a ha
      rcases List.mem_cons.1 ha with rfl | ha
      · exact ⟨Int.le_refl _, hpv⟩
      · have := hpre a ha; unfold Valid at *; omega
    have hgapmono : ∀ t, GapFilled pre eps t → GapFilled (p :: pre) eps t := by
      rintro t ⟨a, ha, b, hb, h⟩
      exact ⟨a, by simp [ha], b, by simp [hb], h⟩
    by_cases hc : p.begin_ - prev.last ≤ eps
    · rw [if_pos hc]
      simp only
      apply ih { top with last := p.last } rest p (p :: pre)
      · refine ⟨?_, ?_⟩
        · intro q hq
          rcases List.mem_cons.1 hq with rfl | hq
          · unfold Valid at *; simp only; omega
          · exact hout.1 q (by simp [hq])
        · exact List.pairwise_cons.2 ⟨hout2.1, hout2.2⟩
      · rfl
      · simp
      · exact hpre'
      · exact hpv
      · exact hps.tail
      · exact hps2.1
      · intro t
        have hc1 := hcov t
        rw [covers_cons] at hc1
        rw [covers_cons, covers_cons]
        constructor
        · rintro (h | h)
          · by_cases ht : t ≤ top.last
            · rcases hc1.1 (Or.inl ⟨h.1, ht⟩) with h' | h'
              · exact Or.inl (Or.inr h')
              · exact Or.inr (hgapmono t h')
            · by_cases htp : p.begin_ ≤ t
              · exact Or.inl (Or.inl ⟨htp, h.2⟩)
              · right
                exact ⟨prev, by simp [hprev], p, by simp, by omega, by omega, hc⟩
          · rcases hc1.1 (Or.inr h) with h' | h'
            · exact Or.inl (Or.inr h')
            · exact Or.inr (hgapmono t h')
        · have old : Covers pre t ∨ GapFilled pre eps t →
              Mem { top with last := p.last } t ∨ Covers rest t := by
            intro h
            rcases hc1.2 h with h | h
            · left; unfold Mem at *; unfold Valid at hpv; simp only; omega
            · exact Or.inr h
          rintro ((h | h) | ⟨a, ha, b, hb, h1, h2, h3⟩)
          · left; unfold Mem at *; unfold Valid at *; simp only; omega
          · exact old (Or.inl h)
          · have key : ∀ a ∈ pre, a.last < t → t < p.begin_ → p.begin_ - a.last ≤ eps →
                Mem { top with last := p.last } t ∨ Covers rest t := by
              intro a ha h1 h2 h3
              by_cases ht : prev.last < t
              · left; unfold Mem; unfold Valid at *; simp only; omega
              · apply old
                by_cases hm : prev.begin_ ≤ t
                · left; exact ⟨prev, hprev, hm, by omega⟩
                · right
                  exact ⟨a, ha, prev, hprev, h1, by omega, by unfold Valid at *; omega⟩
            rcases List.mem_cons.1 ha with rfl | ha'
            · rcases List.mem_cons.1 hb with rfl | hb
              · unfold Valid at hpv; omega
              · exfalso
                have := hpre b hb; unfold Valid at *; omega
            · rcases List.mem_cons.1 hb with rfl | hb
              · exact key a ha' h1 h2 h3
              · exact old (Or.inr ⟨a, ha', b, hb, h1, h2, h3⟩)
    · rw [if_neg hc]
      apply ih p (top :: rest) p (p :: pre)
      · refine ⟨?_, ?_⟩
        · intro q hq
          rcases List.mem_cons.1 hq with rfl | hq
          · exact hpv
          · exact hout.1 q hq
        · refine List.pairwise_cons.2 ⟨?_, hout.2⟩
          intro q hq
          rcases List.mem_cons.1 hq with rfl | hq
          · omega
          · have := hout2.1 q hq; unfold Valid at *; omega
      · rfl
      · simp
      · exact hpre'
      · exact hpv
      · exact hps.tail
      · exact hps2.1
      · intro t
        rw [covers_cons, hcov, covers_cons]
        constructor
        · rintro (h | h | h)
          · exact Or.inl (Or.inl h)
          · exact Or.inl (Or.inr h)
          · exact Or.inr (hgapmono t h)
        · rintro ((h | h) | ⟨a, ha, b, hb, h1, h2, h3⟩)
          · exact Or.inl h
          · exact Or.inr (Or.inl h)
          · right; right
            rcases List.mem_cons.1 ha with rfl | ha'
            · rcases List.mem_cons.1 hb with rfl | hb
              · unfold Valid at hpv; omega
              · have := hpre b hb
                unfold Valid at *; omega
            · rcases List.mem_cons.1 hb with rfl | hb
              · have := hpre a ha'; omega
              · exact ⟨a, ha', b, hb, h1, h2, h3⟩

/-! ### compaction -/

theorem compactGo_eq (f : Period → Option Period) (a : List Period) (ix jx : Nat)
    (h : ix ≤ jx) (hj : jx ≤ a.length) :
    compactGo f a ix jx = a.take ix ++ (a.drop jx).filterMap f := by
  fun_induction compactGo f a ix jx with
  | case1 a ix jx hlt q hq ih =>
    rw [ih (by omega) (by simp; omega)]
    rw [List.drop_set_of_lt (by omega), List.drop_eq_getElem_cons hlt,
      List.filterMap_cons, hq]
    have : (a.set ix q).take (ix + 1) = a.take ix ++ [q] := by
      rw [List.take_add_one]
      rw [List.take_set_of_le (by omega)]
      simp [show ix < a.length by omega]
    rw [this]; simp
  | case2 a ix jx hlt hq ih =>
    rw [ih (by omega) (by omega)]
    rw [List.drop_eq_getElem_cons hlt, List.filterMap_cons, hq]
  | case3 a ix jx hlt =>
    have : a.drop jx = [] := List.drop_eq_nil_of_le (by omega)
    simp [this]

end Pyinterp
