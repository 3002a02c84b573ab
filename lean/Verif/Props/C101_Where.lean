import Verif.Spec.GeohashArray
import Mathlib.Tactic.Linarith
import Mathlib.Tactic.Ring
import Mathlib.Data.List.Nodup

/-
C101. `geohash.where`: the ranges of rows and columns of the codes of an array.
-/
set_option linter.unusedVariables false
namespace Pyinterp.Geohash
open Pyinterp.Spec

theorem cellCode_elem {a : CodeArray} (h : Plain2 a) (i j : Nat) : cellCode a i j = elem2 a i j := by
  unfold cellCode elem2 CodeArray.read
  rw [h.row, h.col]
  congr 2
  have : (((i : Int) * a.shape.2 + j) * a.itemsize) = ((i * (a.shape.2 * a.itemsize) + j * a.itemsize : Nat) : Int) := by
    push_cast; ring
  rw [this, Int.toNat_natCast]

/-! ### Ranges -/

theorem hull_widen {S : ℕ → ℕ → Prop} {r : Range2} (h : IsHull S r) (i j : Nat) :
    IsHull (fun x y => S x y ∨ (x = i ∧ y = j)) (widen r i j) := by
  obtain ⟨h0, ⟨a1, a2, a3, a4⟩, ⟨b1, b2, b3, b4⟩, ⟨c1, c2, c3, c4⟩, ⟨d1, d2, d3, d4⟩⟩ := h
  unfold widen
  refine ⟨?_, ?_, ?_, ?_, ?_⟩
  · rintro x y (hs | ⟨rfl, rfl⟩)
    · obtain ⟨e1, e2, e3, e4⟩ := h0 x y hs
      simp only
      omega
    · simp only
      omega
  · simp only
    rcases le_total r.1.1 (i : ℤ) with hh | hh
    · exact ⟨a1, a2, Or.inl a3, by omega⟩
    · exact ⟨i, j, Or.inr ⟨rfl, rfl⟩, by omega⟩
  · simp only
    rcases le_total r.1.2 (i : ℤ) with hh | hh
    · exact ⟨i, j, Or.inr ⟨rfl, rfl⟩, by omega⟩
    · exact ⟨b1, b2, Or.inl b3, by omega⟩
  · simp only
    rcases le_total r.2.1 (j : ℤ) with hh | hh
    · exact ⟨c1, c2, Or.inl c3, by omega⟩
    · exact ⟨i, j, Or.inr ⟨rfl, rfl⟩, by omega⟩
  · simp only
    rcases le_total r.2.2 (j : ℤ) with hh | hh
    · exact ⟨i, j, Or.inr ⟨rfl, rfl⟩, by omega⟩
    · exact ⟨d1, d2, Or.inl d3, by omega⟩

theorem hull_congr {S T : ℕ → ℕ → Prop} {r : Range2} (h : IsHull S r) (he : ∀ x y, S x y ↔ T x y) : IsHull T r := by
  have : S = T := by funext x y; exact propext (he x y)
  rwa [← this]

/-- The neighbours visited: those of the list of shifts that are in the array and have the same code. -/
theorem scan_fold {a : CodeArray} (h : Plain2 a) (ix jx : Nat) (c : List Char) (hc : elem2 a ix jx = c)
    (l : List (Int × Int)) (S : ℕ → ℕ → Prop) (r : Range2) (hr : IsHull S r) :
    IsHull (fun x y => S x y ∨ (Occurs a c x y ∧ ((x : Int) - ix, (y : Int) - jx) ∈ l))
      (l.foldl (fun r s =>
        let i := (ix : Int) + s.1
        let j := (jx : Int) + s.2
        if 0 ≤ i ∧ i < a.shape.1 ∧ 0 ≤ j ∧ j < a.shape.2 then
          if cellCode a ix jx = cellCode a i j then widen r i j else r
        else r) r) := by
  induction l generalizing S r with
  | nil => exact hull_congr hr fun x y => by simp
  | cons s l ih =>
    simp only [List.foldl_cons]
    by_cases hin : 0 ≤ (ix : Int) + s.1 ∧ (ix : Int) + s.1 < a.shape.1 ∧ 0 ≤ (jx : Int) + s.2 ∧ (jx : Int) + s.2 < a.shape.2
    · rw [if_pos hin]
      obtain ⟨i, hi⟩ := Int.eq_ofNat_of_zero_le hin.1
      obtain ⟨j, hj⟩ := Int.eq_ofNat_of_zero_le hin.2.2.1
      have hce : (cellCode a ix jx = cellCode a (ix + s.1) (jx + s.2)) ↔ c = elem2 a i j := by
        rw [hi, hj, cellCode_elem h, cellCode_elem h, hc]
      have hi' : i < a.shape.1 := by omega
      have hj' : j < a.shape.2 := by omega
      by_cases he : c = elem2 a i j
      · rw [if_pos (hce.2 he), hi, hj]
        refine hull_congr (ih _ _ (hull_widen hr i j)) fun x y => ?_
        have : (((x : Int) - ix, (y : Int) - jx) = s) ↔ (x = i ∧ y = j) := by
          rw [Prod.ext_iff]; simp only; omega
        rw [List.mem_cons, this]
        constructor
        · rintro ((h1 | ⟨rfl, rfl⟩) | h1)
          · exact Or.inl h1
          · exact Or.inr ⟨⟨hi', hj', he.symm⟩, Or.inl ⟨rfl, rfl⟩⟩
          · exact Or.inr ⟨h1.1, Or.inr h1.2⟩
        · rintro (h1 | ⟨h1, h2 | h2⟩)
          · exact Or.inl (Or.inl h1)
          · exact Or.inl (Or.inr h2)
          · exact Or.inr ⟨h1, h2⟩
      · rw [if_neg (fun e => he (hce.1 e))]
        refine hull_congr (ih _ _ hr) fun x y => ?_
        have : Occurs a c x y → ¬ (((x : Int) - ix, (y : Int) - jx) = s) := by
          intro ho hs
          rw [Prod.ext_iff] at hs
          simp only at hs
          have e1 : x = i := by omega
          have e2 : y = j := by omega
          subst e1; subst e2
          exact he ho.2.2.symm
        rw [List.mem_cons]
        tauto
    · rw [if_neg hin]
      refine hull_congr (ih _ _ hr) fun x y => ?_
      have : Occurs a c x y → ¬ (((x : Int) - ix, (y : Int) - jx) = s) := by
        intro ho hs
        rw [Prod.ext_iff] at hs
        simp only at hs
        have e1 := ho.1
        have e2 := ho.2.1
        exact hin ⟨by omega, by omega, by omega, by omega⟩
      rw [List.mem_cons]
      tauto

theorem mem_shifts (x y ix jx : Nat) : ((x : Int) - ix, (y : Int) - jx) ∈ shifts ↔ Touch ix jx x y := by
  unfold shifts Touch
  simp only [List.zip_cons_cons, List.zip_nil_right, List.mem_cons, Prod.mk.injEq, List.not_mem_nil, or_false]
  omega

/-! ### The scan -/

/-- The cells that the scan of `L` puts in the range of the code `c` first met at `f`. -/
def Seen (a : CodeArray) (c : List Char) (f : Nat × Nat) (L : List (Nat × Nat)) (x y : Nat) : Prop :=
  (x = f.1 ∧ y = f.2) ∨ (Occurs a c x y ∧ ∃ p ∈ L, elem2 a p.1 p.2 = c ∧ p ≠ f ∧ Touch p.1 p.2 x y)

/-- What the dictionary holds after the scan of `L`. -/
structure Inv (a : CodeArray) (L : List (Nat × Nat)) (m : List (List Char × Range2)) : Prop where
  nodup : (m.map Prod.fst).Nodup
  keys : ∀ c, (∃ r, (c, r) ∈ m) ↔ ∃ p ∈ L, elem2 a p.1 p.2 = c
  ranges : ∀ c r, (c, r) ∈ m → ∃ f, L.find? (fun p => elem2 a p.1 p.2 = c) = some f ∧ IsHull (Seen a c f L) r

theorem lookup_none {m : List (List Char × Range2)} {c : List Char} :
    (m.lookup c).isNone = true ↔ ¬ ∃ r, (c, r) ∈ m := by
  induction m with
  | nil => simp
  | cons e m ih =>
    obtain ⟨k, v⟩ := e
    rw [List.lookup_cons]
    by_cases hk : c = k
    · subst hk
      simp
    · have : (c == k) = false := by simpa using hk
      rw [this]
      simp only [List.mem_cons, Prod.mk.injEq, hk, false_and, false_or]
      exact ih

theorem inv_step {a : CodeArray} (h : Plain2 a) {L : List (Nat × Nat)} {m : List (List Char × Range2)} (hI : Inv a L m)
    (p : Nat × Nat) (hp : p ∉ L) : Inv a (L ++ [p]) (scanCell a m ((p.1 : Int), (p.2 : Int))) := by
  unfold scanCell
  simp only
  rw [cellCode_elem h]
  by_cases hn : (m.lookup (elem2 a p.1 p.2)).isNone = true
  · rw [if_pos hn]
    rw [lookup_none] at hn
    have hL : ∀ q ∈ L, elem2 a q.1 q.2 ≠ elem2 a p.1 p.2 := by
      intro q hq he
      exact hn ((hI.keys _).2 ⟨q, hq, he⟩)
    refine ⟨?_, fun c => ?_, fun c r hr => ?_⟩
    · rw [List.map_append, List.nodup_append]
      refine ⟨hI.nodup, by simp, ?_⟩
      intro x hx y hy
      simp only [List.map_cons, List.map_nil, List.mem_singleton] at hy
      subst hy
      rintro rfl
      obtain ⟨⟨c, r⟩, hm, hc⟩ := List.mem_map.1 hx
      simp only at hc
      subst hc
      exact hn ⟨r, hm⟩
    · constructor
      · rintro ⟨r, hr⟩
        rcases List.mem_append.1 hr with hr | hr
        · obtain ⟨q, hq, he⟩ := (hI.keys c).1 ⟨r, hr⟩
          exact ⟨q, List.mem_append_left _ hq, he⟩
        · simp only [List.mem_singleton, Prod.mk.injEq] at hr
          exact ⟨p, by simp, hr.1.symm⟩
      · rintro ⟨q, hq, he⟩
        rcases List.mem_append.1 hq with hq | hq
        · obtain ⟨r, hr⟩ := (hI.keys c).2 ⟨q, hq, he⟩
          exact ⟨r, List.mem_append_left _ hr⟩
        · simp only [List.mem_singleton] at hq
          subst hq
          exact ⟨_, List.mem_append_right _ (by rw [← he]; exact List.mem_singleton.2 rfl)⟩
    · rcases List.mem_append.1 hr with hr | hr
      · obtain ⟨f, hf, hh⟩ := hI.ranges c r hr
        refine ⟨f, by rw [List.find?_append, hf]; rfl, hull_congr hh fun x y => ?_⟩
        have hne : elem2 a p.1 p.2 ≠ c := by
          rintro rfl
          exact hn ⟨r, hr⟩
        unfold Seen
        constructor
        · rintro (h1 | ⟨h1, q, h2, h3⟩)
          · exact Or.inl h1
          · exact Or.inr ⟨h1, q, List.mem_append_left _ h2, h3⟩
        · rintro (h1 | ⟨h1, q, h2, h3⟩)
          · exact Or.inl h1
          · rcases List.mem_append.1 h2 with h2 | h2
            · exact Or.inr ⟨h1, q, h2, h3⟩
            · simp only [List.mem_singleton] at h2
              subst h2
              exact absurd h3.1 hne
      · simp only [List.mem_singleton, Prod.mk.injEq] at hr
        obtain ⟨rfl, rfl⟩ := hr
        refine ⟨p, ?_, ?_⟩
        · have : L.find? (fun q => elem2 a q.1 q.2 = elem2 a p.1 p.2) = none := by
            rw [List.find?_eq_none]
            intro q hq
            simpa using hL q hq
          rw [List.find?_append, this]
          simp
        · have : ∀ x y, Seen a (elem2 a p.1 p.2) p (L ++ [p]) x y ↔ (x = p.1 ∧ y = p.2) := by
            intro x y
            unfold Seen
            constructor
            · rintro (h1 | ⟨h1, q, h2, h3, h4, -⟩)
              · exact h1
              · rcases List.mem_append.1 h2 with h2 | h2
                · exact absurd h3 (hL q h2)
                · simp only [List.mem_singleton] at h2
                  exact absurd h2 h4
            · exact Or.inl
          refine ⟨?_, ⟨p.1, p.2, (this _ _).2 ⟨rfl, rfl⟩, rfl⟩, ⟨p.1, p.2, (this _ _).2 ⟨rfl, rfl⟩, rfl⟩,
            ⟨p.1, p.2, (this _ _).2 ⟨rfl, rfl⟩, rfl⟩, ⟨p.1, p.2, (this _ _).2 ⟨rfl, rfl⟩, rfl⟩⟩
          intro x y hs
          obtain ⟨rfl, rfl⟩ := (this x y).1 hs
          exact ⟨le_rfl, le_rfl, le_rfl, le_rfl⟩
  · rw [if_neg hn]
    have hex : ∃ r, (elem2 a p.1 p.2, r) ∈ m := by
      by_contra h1
      exact hn (lookup_none.2 h1)
    have hkeys : ∀ e : List Char × Range2, (if e.1 = elem2 a p.1 p.2 then (e.1, scanNeighbors a p.1 p.2 e.2) else e).1 = e.1 := by
      intro e
      split <;> rfl
    refine ⟨?_, fun c => ?_, fun c r hr => ?_⟩
    · rw [List.map_map]
      have : (Prod.fst ∘ fun e : List Char × Range2 =>
          if e.1 = elem2 a p.1 p.2 then (e.1, scanNeighbors a p.1 p.2 e.2) else e) = Prod.fst := by
        funext e
        exact hkeys e
      rw [this]
      exact hI.nodup
    · constructor
      · rintro ⟨r, hr⟩
        obtain ⟨e, he, heq⟩ := List.mem_map.1 hr
        have : e.1 = c := by rw [← hkeys e, heq]
        obtain ⟨q, hq, hqe⟩ := (hI.keys c).1 ⟨e.2, by rw [← this]; exact he⟩
        exact ⟨q, List.mem_append_left _ hq, hqe⟩
      · rintro ⟨q, hq, he⟩
        have : ∃ r, (c, r) ∈ m := by
          rcases List.mem_append.1 hq with hq | hq
          · exact (hI.keys c).2 ⟨q, hq, he⟩
          · simp only [List.mem_singleton] at hq
            subst hq; subst he
            exact hex
        obtain ⟨r, hr⟩ := this
        exact ⟨(if c = elem2 a p.1 p.2 then (c, scanNeighbors a p.1 p.2 r) else (c, r)).2,
          List.mem_map.2 ⟨(c, r), hr, Prod.ext (hkeys (c, r)) rfl⟩⟩
    · obtain ⟨e, he, heq⟩ := List.mem_map.1 hr
      have hec : e.1 = c := by rw [← hkeys e, heq]
      obtain ⟨f, hf, hh⟩ := hI.ranges e.1 e.2 he
      rw [hec] at hf hh
      refine ⟨f, by rw [List.find?_append, hf]; rfl, ?_⟩
      by_cases hc : e.1 = elem2 a p.1 p.2
      · rw [if_pos hc] at heq
        have hr' : r = scanNeighbors a p.1 p.2 e.2 := (congrArg Prod.snd heq).symm
        rw [hr']
        have hpf : p ≠ f := by
          rintro rfl
          exact hp (List.mem_of_find?_eq_some hf)
        have := scan_fold h p.1 p.2 c (by rw [← hc, hec]) shifts _ _ hh
        refine hull_congr this fun x y => ?_
        rw [mem_shifts]
        unfold Seen
        constructor
        · rintro ((h1 | ⟨h1, q, h2, h3⟩) | ⟨h1, h2⟩)
          · exact Or.inl h1
          · exact Or.inr ⟨h1, q, List.mem_append_left _ h2, h3⟩
          · exact Or.inr ⟨h1, p, by simp, by rw [← hc, hec], hpf, h2⟩
        · rintro (h1 | ⟨h1, q, h2, h3, h4, h5⟩)
          · exact Or.inl (Or.inl h1)
          · rcases List.mem_append.1 h2 with h2 | h2
            · exact Or.inl (Or.inr ⟨h1, q, h2, h3, h4, h5⟩)
            · simp only [List.mem_singleton] at h2
              subst h2
              exact Or.inr ⟨h1, h5⟩
      · rw [if_neg hc] at heq
        have hr' : r = e.2 := (congrArg Prod.snd heq).symm
        rw [hr']
        refine hull_congr hh fun x y => ?_
        unfold Seen
        constructor
        · rintro (h1 | ⟨h1, q, h2, h3⟩)
          · exact Or.inl h1
          · exact Or.inr ⟨h1, q, List.mem_append_left _ h2, h3⟩
        · rintro (h1 | ⟨h1, q, h2, h3⟩)
          · exact Or.inl h1
          · rcases List.mem_append.1 h2 with h2 | h2
            · exact Or.inr ⟨h1, q, h2, h3⟩
            · simp only [List.mem_singleton] at h2
              subst h2
              exact absurd (by rw [hec, h3.1]) hc

theorem inv_fold {a : CodeArray} (h : Plain2 a) (L L' : List (Nat × Nat)) (hd : (L ++ L').Nodup) (m : List (List Char × Range2))
    (hI : Inv a L m) :
    Inv a (L ++ L') ((L'.map fun p => ((p.1 : Int), (p.2 : Int))).foldl (scanCell a) m) := by
  induction L' generalizing L m with
  | nil => simpa using hI
  | cons p L' ih =>
    have hd' : ((L ++ [p]) ++ L').Nodup := by simpa using hd
    have hp : p ∉ L := by
      have := (List.nodup_append.1 hd).2.2
      intro hL
      exact this p hL p (by simp) rfl
    have := ih (L ++ [p]) hd' _ (inv_step h hI p hp)
    simpa using this

/-- The cells of the array, row by row. -/
def cells (rows cols : Nat) : List (Nat × Nat) := (List.range rows).flatMap fun i => (List.range cols).map fun j => (i, j)

theorem positions_eq (rows cols : Nat) : positions rows cols = (cells rows cols).map fun p => ((p.1 : Int), (p.2 : Int)) := by
  unfold positions cells
  rw [List.map_flatMap]
  simp only [List.map_map]
  rfl

theorem mem_cells {rows cols : Nat} {p : Nat × Nat} : p ∈ cells rows cols ↔ p.1 < rows ∧ p.2 < cols := by
  unfold cells
  simp only [List.mem_flatMap, List.mem_range, List.mem_map]
  constructor
  · rintro ⟨i, hi, j, hj, rfl⟩; exact ⟨hi, hj⟩
  · rintro ⟨hi, hj⟩; exact ⟨p.1, hi, p.2, hj, rfl⟩

theorem cells_sorted (rows cols : Nat) :
    (cells rows cols).Pairwise fun p q => p.1 < q.1 ∨ (p.1 = q.1 ∧ p.2 < q.2) := by
  unfold cells
  rw [List.flatMap_def, List.pairwise_flatten]
  constructor
  · intro l hl
    obtain ⟨i, -, rfl⟩ := List.mem_map.1 hl
    rw [List.pairwise_map]
    exact List.pairwise_lt_range.imp fun h => Or.inr ⟨rfl, h⟩
  · rw [List.pairwise_map]
    refine List.pairwise_lt_range.imp fun {i i'} h => ?_
    intro x hx y hy
    obtain ⟨j, -, rfl⟩ := List.mem_map.1 hx
    obtain ⟨j', -, rfl⟩ := List.mem_map.1 hy
    exact Or.inl h

theorem cells_nodup (rows cols : Nat) : (cells rows cols).Nodup := by
  refine (cells_sorted rows cols).imp ?_
  rintro p q h rfl
  omega

theorem find_first {l : List (Nat × Nat)} (hs : l.Pairwise fun p q => p.1 < q.1 ∨ (p.1 = q.1 ∧ p.2 < q.2))
    {P : Nat × Nat → Prop} [DecidablePred P] {f : Nat × Nat} (hf : l.find? (fun p => P p) = some f) :
    P f ∧ ∀ q ∈ l, P q → f.1 < q.1 ∨ (f.1 = q.1 ∧ f.2 ≤ q.2) := by
  refine ⟨by simpa using List.find?_some hf, ?_⟩
  induction l with
  | nil => simp at hf
  | cons x l ih =>
    obtain ⟨h1, h2⟩ := List.pairwise_cons.1 hs
    rw [List.find?_cons] at hf
    intro q hq hP
    by_cases hx : P x
    · simp only [hx, decide_true, Option.some.injEq] at hf
      subst hf
      rcases List.mem_cons.1 hq with rfl | hq
      · exact Or.inr ⟨rfl, le_rfl⟩
      · rcases h1 q hq with h | h
        · exact Or.inl h
        · exact Or.inr ⟨h.1, h.2.le⟩
    · simp only [hx, decide_false] at hf
      rcases List.mem_cons.1 hq with rfl | hq
      · exact absurd hP hx
      · exact ih h2 hf q hq hP

/-- **C101** What `where` returns: one entry for each code of the array, and only for these; the ranges of rows and columns of a
code are the smallest that contain its first occurrence and all the occurrences that touch another occurrence than the
first. -/
theorem C101_where (a : CodeArray) (h : Plain2 a) :
    ∃ d, «where» a = .ok d ∧ (d.map Prod.fst).Nodup ∧
      (∀ c, (∃ r, (c, r) ∈ d) ↔ ∃ i j, Occurs a c i j) ∧
      ∀ c r, (c, r) ∈ d → ∃ fi fj, FirstAt a c fi fj ∧
        IsHull (fun i j => (i = fi ∧ j = fj) ∨
          (Occurs a c i j ∧ ∃ i' j', Occurs a c i' j' ∧ ¬ (i' = fi ∧ j' = fj) ∧ Touch i' j' i j)) r := by
  have hI := inv_fold h [] (cells a.shape.1 a.shape.2) (by simpa using cells_nodup _ _) []
    ⟨by simp, by simp, by simp⟩
  rw [List.nil_append, ← positions_eq] at hI
  refine ⟨_, ?_, hI.nodup, fun c => ?_, fun c r hr => ?_⟩
  · unfold «where» getInfo2
    rw [h.contiguous, h.dims, h.bytes, h.row, h.col]
    have := h.short
    simp [Nat.not_lt.2 this]
  · rw [hI.keys]
    constructor
    · rintro ⟨p, hp, he⟩
      rw [mem_cells] at hp
      exact ⟨p.1, p.2, hp.1, hp.2, he⟩
    · rintro ⟨i, j, h1, h2, h3⟩
      exact ⟨(i, j), mem_cells.2 ⟨h1, h2⟩, h3⟩
  · obtain ⟨f, hf, hh⟩ := hI.ranges c r hr
    obtain ⟨h1, h2⟩ := find_first (cells_sorted _ _) hf
    have hm := mem_cells.1 (List.mem_of_find?_eq_some hf)
    refine ⟨f.1, f.2, ⟨⟨hm.1, hm.2, h1⟩, fun i j ho => ?_⟩, hull_congr hh fun x y => ?_⟩
    · exact h2 (i, j) (mem_cells.2 ⟨ho.1, ho.2.1⟩) ho.2.2
    · unfold Seen
      constructor
      · rintro (h3 | ⟨h3, p, h4, h5, h6, h7⟩)
        · exact Or.inl h3
        · have := mem_cells.1 h4
          refine Or.inr ⟨h3, p.1, p.2, ⟨this.1, this.2, h5⟩, fun e => h6 (Prod.ext e.1 e.2), h7⟩
      · rintro (h3 | ⟨h3, i', j', h4, h5, h6⟩)
        · exact Or.inl h3
        · refine Or.inr ⟨h3, (i', j'), mem_cells.2 ⟨h4.1, h4.2.1⟩, h4.2.2, fun e => h5 ?_, h6⟩
          rw [Prod.ext_iff] at e
          exact e

/-- **C101** The ranges never extend beyond the occurrences of the code, and contain the first of them. -/
theorem C101_within (a : CodeArray) (h : Plain2 a) (d : List (List Char × Range2)) (hd : «where» a = .ok d) (c : List Char)
    (r : Range2) (hr : (c, r) ∈ d) :
    (∃ i j, Occurs a c i j ∧ r.1.1 = i) ∧ (∃ i j, Occurs a c i j ∧ r.1.2 = i) ∧ (∃ i j, Occurs a c i j ∧ r.2.1 = j) ∧
    (∃ i j, Occurs a c i j ∧ r.2.2 = j) ∧
    ∃ i j, FirstAt a c i j ∧ r.1.1 ≤ i ∧ (i : ℤ) ≤ r.1.2 ∧ r.2.1 ≤ j ∧ (j : ℤ) ≤ r.2.2 := by
  obtain ⟨d', hd', -, -, hw⟩ := C101_where a h
  rw [hd] at hd'
  cases hd'
  obtain ⟨fi, fj, hf, h0, ⟨i1, j1, s1, e1⟩, ⟨i2, j2, s2, e2⟩, ⟨i3, j3, s3, e3⟩, ⟨i4, j4, s4, e4⟩⟩ := hw c r hr
  have key : ∀ i j, ((i = fi ∧ j = fj) ∨ (Occurs a c i j ∧ ∃ i' j', Occurs a c i' j' ∧ ¬ (i' = fi ∧ j' = fj) ∧
      Touch i' j' i j)) → Occurs a c i j := by
    rintro i j (⟨rfl, rfl⟩ | h)
    · exact hf.1
    · exact h.1
  exact ⟨⟨i1, j1, key _ _ s1, e1⟩, ⟨i2, j2, key _ _ s2, e2⟩, ⟨i3, j3, key _ _ s3, e3⟩, ⟨i4, j4, key _ _ s4, e4⟩,
    fi, fj, hf, h0 fi fj (Or.inl ⟨rfl, rfl⟩)⟩

/-- **C101** "The start and end indexes of the different GeoHash boxes": when the occurrences of a code fill a rectangle, the
ranges are those of the rectangle, unless the rectangle is made of exactly two cells (`C101_pair_false`). -/
theorem C101_box_partial (a : CodeArray) (h : Plain2 a) (d : List (List Char × Range2)) (hd : «where» a = .ok d) (c : List Char)
    (r0 r1 c0 c1 : Nat) (hf : Fills a c r0 r1 c0 c1) (h2 : (r1 - r0 + 1) * (c1 - c0 + 1) ≠ 2) :
    (c, (((r0 : ℤ), (r1 : ℤ)), ((c0 : ℤ), (c1 : ℤ)))) ∈ d := by
  obtain ⟨d', hd', -, hk, hw⟩ := C101_where a h
  rw [hd] at hd'
  cases hd'
  obtain ⟨hr, hc, hocc⟩ := hf
  have h00 : Occurs a c r0 c0 := (hocc _ _).2 ⟨le_rfl, hr, le_rfl, hc⟩
  obtain ⟨r, hrd⟩ := (hk c).2 ⟨r0, c0, h00⟩
  obtain ⟨fi, fj, ⟨hfo, hff⟩, h0, ⟨i1, j1, s1, e1⟩, ⟨i2, j2, s2, e2⟩, ⟨i3, j3, s3, e3⟩, ⟨i4, j4, s4, e4⟩⟩ := hw c r hrd
  have hfr := (hocc _ _).1 hfo
  have hf0 := hff r0 c0 h00
  have hfi : fi = r0 := by omega
  have hfj : fj = c0 := by omega
  subst hfi; subst hfj
  have key : ∀ i j, ((i = fi ∧ j = fj) ∨ (Occurs a c i j ∧ ∃ i' j', Occurs a c i' j' ∧ ¬ (i' = fi ∧ j' = fj) ∧
      Touch i' j' i j)) → fi ≤ i ∧ i ≤ r1 ∧ fj ≤ j ∧ j ≤ c1 := by
    rintro i j (⟨rfl, rfl⟩ | h)
    · omega
    · exact (hocc _ _).1 h.1
  have b1 := key _ _ s1
  have b2 := key _ _ s2
  have b3 := key _ _ s3
  have b4 := key _ _ s4
  obtain ⟨f1, f2, f3, f4⟩ := h0 fi fj (Or.inl ⟨rfl, rfl⟩)
  have hrow : (r1 : ℤ) ≤ r.1.2 := by
    by_cases hrr : r1 = fi
    · omega
    · by_cases hcc : c1 = fj
      · have hbig : fi + 2 ≤ r1 := by
          by_contra hlt
          have : r1 = fi + 1 := by omega
          apply h2
          rw [this, hcc]; simp
        refine (h0 r1 fj (Or.inr ⟨(hocc _ _).2 ⟨by omega, le_rfl, le_rfl, hc⟩, r1 - 1, fj,
          (hocc _ _).2 ⟨by omega, by omega, le_rfl, hc⟩, by omega, ?_⟩)).2.1
        unfold Touch; omega
      · refine (h0 r1 c1 (Or.inr ⟨(hocc _ _).2 ⟨by omega, le_rfl, hc, le_rfl⟩, r1 - 1, c1,
          (hocc _ _).2 ⟨by omega, by omega, hc, le_rfl⟩, by omega, ?_⟩)).2.1
        unfold Touch; omega
  have hcol : (c1 : ℤ) ≤ r.2.2 := by
    by_cases hcc : c1 = fj
    · omega
    · by_cases hrr : r1 = fi
      · have hbig : fj + 2 ≤ c1 := by
          by_contra hlt
          have : c1 = fj + 1 := by omega
          apply h2
          rw [this, hrr]; simp
        refine (h0 fi c1 (Or.inr ⟨(hocc _ _).2 ⟨le_rfl, hr, by omega, le_rfl⟩, fi, c1 - 1,
          (hocc _ _).2 ⟨le_rfl, hr, by omega, by omega⟩, by omega, ?_⟩)).2.2.2
        unfold Touch; omega
      · refine (h0 r1 c1 (Or.inr ⟨(hocc _ _).2 ⟨hr, le_rfl, by omega, le_rfl⟩, r1, c1 - 1,
          (hocc _ _).2 ⟨hr, le_rfl, by omega, by omega⟩, by omega, ?_⟩)).2.2.2
        unfold Touch; omega
  have : r = (((fi : ℤ), (r1 : ℤ)), ((fj : ℤ), (c1 : ℤ))) := by
    refine Prod.ext (Prod.ext ?_ ?_) (Prod.ext ?_ ?_) <;> simp only <;> omega
  rw [← this]
  exact hrd

/-- **C101, the part that fails** A code that fills exactly two cells: its ranges are those of the first cell only; the second
cell is missing. -/
theorem C101_pair_false (a : CodeArray) (h : Plain2 a) (d : List (List Char × Range2)) (hd : «where» a = .ok d) (c : List Char)
    (r0 r1 c0 c1 : Nat) (hf : Fills a c r0 r1 c0 c1) (h2 : (r1 - r0 + 1) * (c1 - c0 + 1) = 2) :
    (c, (((r0 : ℤ), (r0 : ℤ)), ((c0 : ℤ), (c0 : ℤ)))) ∈ d := by
  obtain ⟨d', hd', -, hk, hw⟩ := C101_where a h
  rw [hd] at hd'
  cases hd'
  obtain ⟨hr, hc, hocc⟩ := hf
  have hcase : (r1 = r0 ∧ c1 = c0 + 1) ∨ (r1 = r0 + 1 ∧ c1 = c0) := by
    have h3 : r1 - r0 = 0 ∨ r1 - r0 = 1 := by
      by_contra hlt
      have : 3 ≤ r1 - r0 + 1 := by omega
      have : 3 ≤ (r1 - r0 + 1) * (c1 - c0 + 1) := le_trans this (Nat.le_mul_of_pos_right _ (by omega))
      omega
    rcases h3 with h3 | h3
    · rw [h3] at h2; omega
    · rw [h3] at h2; omega
  have h00 : Occurs a c r0 c0 := (hocc _ _).2 ⟨le_rfl, hr, le_rfl, hc⟩
  obtain ⟨r, hrd⟩ := (hk c).2 ⟨r0, c0, h00⟩
  obtain ⟨fi, fj, ⟨hfo, hff⟩, h0, ⟨i1, j1, s1, e1⟩, ⟨i2, j2, s2, e2⟩, ⟨i3, j3, s3, e3⟩, ⟨i4, j4, s4, e4⟩⟩ := hw c r hrd
  have hfr := (hocc _ _).1 hfo
  have hf0 := hff r0 c0 h00
  have hfi : fi = r0 := by omega
  have hfj : fj = c0 := by omega
  subst hfi; subst hfj
  have key : ∀ i j, ((i = fi ∧ j = fj) ∨ (Occurs a c i j ∧ ∃ i' j', Occurs a c i' j' ∧ ¬ (i' = fi ∧ j' = fj) ∧
      Touch i' j' i j)) → i = fi ∧ j = fj := by
    rintro i j (h | ⟨ho, i', j', ho', hne, ht⟩)
    · exact h
    · have g1 := (hocc _ _).1 ho
      have g2 := (hocc _ _).1 ho'
      unfold Touch at ht
      omega
  have b1 := key _ _ s1
  have b2 := key _ _ s2
  have b3 := key _ _ s3
  have b4 := key _ _ s4
  have : r = (((fi : ℤ), (fi : ℤ)), ((fj : ℤ), (fj : ℤ))) := by
    refine Prod.ext (Prod.ext ?_ ?_) (Prod.ext ?_ ?_) <;> simp only <;> omega
  rw [← this]
  exact hrd

/-- **C101** Arrays that are not arrays of codes of two dimensions, contiguous, of at most 12 characters, are refused. -/
theorem C101_refused (a : CodeArray)
    (h : a.contiguous = false ∨ a.ndim ≠ 2 ∨ a.bytes = false ∨ 12 < a.strides.2) : «where» a = .error .exn := by
  have : getInfo2 a = .error .exn := by
    unfold getInfo2
    by_cases h1 : a.contiguous = false
    · rw [h1]; rfl
    · rw [Bool.not_eq_false] at h1
      rw [h1]
      simp only [Bool.not_true, Bool.false_eq_true, if_false]
      by_cases h2 : a.ndim ≠ 2
      · rw [if_pos h2]
      · rw [if_neg h2]
        by_cases h3 : a.strides.1 ≠ a.shape.2 * a.strides.2 ∨ a.bytes = false
        · rw [if_pos h3]
        · rw [if_neg h3]
          rw [if_pos]
          rcases h with h | h | h | h
          · rw [h1] at h; cases h
          · exact absurd h h2
          · exact absurd (Or.inr h) h3
          · exact h
  unfold «where»
  rw [this]; rfl

/-- An array of two rows: 'b' in the first two columns, 'c' in the third, 'd' twice. -/
def sample : CodeArray where
  contiguous := true
  ndim := 2
  bytes := true
  shape := (2, 5)
  strides := (5, 1)
  itemsize := 1
  mem := ['b', 'b', 'c', 'd', 'd', 'b', 'b', 'c', 'e', 'e']

/-- The hypotheses are met: 'b' fills two rows and two columns, 'c' two rows (a pair), 'd' a pair. -/
example : Plain2 sample ∧ Fills sample ['b'] 0 1 0 1 ∧ Fills sample ['c'] 0 1 2 2 ∧
    «where» sample = .ok [(['b'], ((0, 1), (0, 1))), (['c'], ((0, 0), (2, 2))), (['d'], ((0, 0), (3, 3))),
      (['e'], ((1, 1), (3, 3)))] := by
  have hfill : ∀ c r0 r1 c0 c1, (∀ i < 2, ∀ j < 5, elem2 sample i j = c ↔ (r0 ≤ i ∧ i ≤ r1 ∧ c0 ≤ j ∧ j ≤ c1)) → r0 ≤ r1 →
      c0 ≤ c1 → r1 < 2 → c1 < 5 → Fills sample c r0 r1 c0 c1 := by
    intro c r0 r1 c0 c1 h1 h2 h3 h4 h5
    refine ⟨h2, h3, fun i j => ?_⟩
    constructor
    · rintro ⟨hi, hj, he⟩
      exact (h1 i hi j hj).1 he
    · intro hh
      have hi : i < 2 := by omega
      have hj : j < 5 := by omega
      exact ⟨hi, hj, (h1 i hi j hj).2 hh⟩
  refine ⟨⟨rfl, rfl, rfl, rfl, rfl, by decide⟩, ?_, ?_, by decide⟩
  · exact hfill _ _ _ _ _ (by decide) (by decide) (by decide) (by decide) (by decide)
  · exact hfill _ _ _ _ _ (by decide) (by decide) (by decide) (by decide) (by decide)

end Pyinterp.Geohash
