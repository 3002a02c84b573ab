import Mathlib.Tactic.Linarith
import Mathlib.Tactic.Ring
import Mathlib.Tactic.FieldSimp
import Verif.Model.GaussSeidel
import Verif.Lemmas.Thread

namespace Pyinterp.GaussSeidel
set_option linter.unusedSectionVars false
set_option linter.unusedVariables false
set_option linter.unusedSimpArgs false

/-! ### Interleavings -/

section
variable {α : Type}

theorem drain_proj (p : List (List α)) (off k : Nat) :
    (((p.mapIdx fun i l => l.map fun a => (off + i, a)).flatten.filter fun op =>
      decide (op.1 = off + k)).map (·.2)) = p.getD k [] := by
  induction p generalizing off k with
  | nil => simp
  | cons l p ih =>
    rw [List.mapIdx_cons, List.flatten_cons, List.filter_append, List.map_append]
    have e : (fun i (l : List α) => List.map (fun a => (off + (i + 1), a)) l) =
        fun i l => List.map (fun a => ((off + 1) + i, a)) l := by
      funext i l; congr 1; funext a; congr 1; omega
    rw [e]
    cases k with
    | zero =>
      have h2 : ((p.mapIdx fun i l => l.map fun a => (off + 1 + i, a)).flatten.filter fun op =>
          decide (op.1 = off + 0)) = [] := by
        rw [List.filter_eq_nil_iff]
        intro op hop
        rw [List.mem_flatten] at hop
        obtain ⟨l', hl', hop⟩ := hop
        rw [List.mem_mapIdx] at hl'
        obtain ⟨i, hi, rfl⟩ := hl'
        rw [List.mem_map] at hop
        obtain ⟨a, _, rfl⟩ := hop
        simp only [decide_eq_true_eq]
        omega
      rw [h2]
      simp [List.filter_map, Function.comp_def]
    | succ k =>
      have := ih (off + 1) k
      rw [show off + (k + 1) = off + 1 + k by omega, this]
      have h1 : (List.map (fun a => (off + 0, a)) l).filter (fun op => decide (op.1 = off + 1 + k)) = [] := by
        rw [List.filter_eq_nil_iff]
        intro op hop
        rw [List.mem_map] at hop
        obtain ⟨a, _, rfl⟩ := hop
        simp only [decide_eq_true_eq]
        omega
      rw [h1]
      simp [List.getD]

/-- Every execution makes the operations of each thread, in their order. -/
theorem interleave_proj (s : List Nat) (p : List (List α)) (k : Nat) :
    ((interleave p s).filter fun op => decide (op.1 = k)).map (·.2) = p.getD k [] := by
  induction s generalizing p with
  | nil =>
    have := drain_proj p 0 k
    simpa [interleave] using this
  | cons j s ih =>
    unfold interleave
    split
    · rename_i a rest h
      obtain ⟨hj, hj'⟩ := List.getElem?_eq_some_iff.1 h
      by_cases hjk : j = k
      · subst hjk
        rw [List.filter_cons_of_pos (by simp), List.map_cons, ih]
        simp [List.getD, List.getElem?_set, hj, h, hj']
      · rw [List.filter_cons_of_neg (by simpa using hjk), ih]
        simp [List.getD, List.getElem?_set, hjk]
    · exact ih p

theorem interleave_thread (s : List Nat) (p : List (List α)) (op : Nat × α)
    (h : op ∈ interleave p s) : op.1 < p.length ∧ op.2 ∈ p.getD op.1 [] := by
  have h1 : op.2 ∈ p.getD op.1 [] := by
    rw [← interleave_proj s p op.1]
    exact List.mem_map.2 ⟨op, List.mem_filter.2 ⟨h, by simp⟩, rfl⟩
  refine ⟨?_, h1⟩
  by_contra hn
  rw [List.getD, List.getElem?_eq_none (by omega)] at h1
  simp at h1

theorem interleave_mem (s : List Nat) (p : List (List α)) (a : α) :
    a ∈ (interleave p s).map (·.2) ↔ a ∈ p.flatten := by
  constructor
  · intro h
    obtain ⟨op, hop, rfl⟩ := List.mem_map.1 h
    obtain ⟨h1, h2⟩ := interleave_thread s p op hop
    rw [List.getD, List.getElem?_eq_getElem h1] at h2
    exact List.mem_flatten.2 ⟨_, List.getElem_mem h1, by simpa using h2⟩
  · intro h
    obtain ⟨l, hl, ha⟩ := List.mem_flatten.1 h
    obtain ⟨k, hk, rfl⟩ := List.getElem_of_mem hl
    have := interleave_proj s p k
    rw [List.getD, List.getElem?_eq_getElem hk] at this
    have h2 : a ∈ ((interleave p s).filter fun op => decide (op.1 = k)).map (·.2) := by
      rw [this]; simpa using ha
    obtain ⟨op, hop, e⟩ := List.mem_map.1 h2
    exact List.mem_map.2 ⟨op, (List.mem_filter.1 hop).1, e⟩

end

/-! ### The bands of the threads -/

theorem flatten_disjoint {α : Type} {p : List (List α)} (h : p.flatten.Nodup) {i j : Nat}
    (hi : i < p.length) (hj : j < p.length) {a : α} (ha : a ∈ p[i]) (ha' : a ∈ p[j]) : i = j := by
  rw [List.nodup_flatten] at h
  by_contra hne
  rcases Nat.lt_or_gt_of_ne hne with hlt | hlt
  · exact (List.pairwise_iff_getElem.1 h.2 i j hi hj hlt) ha ha'
  · exact (List.pairwise_iff_getElem.1 h.2 j i hj hi hlt) ha' ha

/-- The thread of a row. -/
theorem slices_owner {hw size n : Nat} {sl : List (Nat × Nat)} (h : Thread.slices hw size n = .ok sl) :
    (∀ y, y < size → ∃ k, ∃ hk : k < sl.length, sl[k].1 ≤ y ∧ y < sl[k].2) ∧
    (∀ y i j (hi : i < sl.length) (hj : j < sl.length), sl[i].1 ≤ y → y < sl[i].2 → sl[j].1 ≤ y →
      y < sl[j].2 → i = j) ∧
    (∀ s ∈ sl, ∀ y, s.1 ≤ y → y < s.2 → y < size) := by
  have hf := Thread.slices_flatten h
  refine ⟨?_, ?_, ?_⟩
  · intro y hy
    have : y ∈ (sl.map fun s => List.range' s.1 (s.2 - s.1)).flatten := by
      rw [hf]; exact List.mem_range.2 hy
    obtain ⟨l, hl, hyl⟩ := List.mem_flatten.1 this
    obtain ⟨s, hs, rfl⟩ := List.mem_map.1 hl
    obtain ⟨k, hk, rfl⟩ := List.getElem_of_mem hs
    rw [List.mem_range'_1] at hyl
    exact ⟨k, hk, by omega, by omega⟩
  · intro y i j hi hj a b c d
    have hn : (sl.map fun s => List.range' s.1 (s.2 - s.1)).flatten.Nodup := by
      rw [hf]; exact List.nodup_range
    refine flatten_disjoint hn (i := i) (j := j) (by simpa using hi) (by simpa using hj) (a := y) ?_ ?_
    · rw [List.getElem_map, List.mem_range'_1]; omega
    · rw [List.getElem_map, List.mem_range'_1]; omega
  · intro s hs y a b
    have : y ∈ (sl.map fun s => List.range' s.1 (s.2 - s.1)).flatten :=
      List.mem_flatten.2 ⟨_, List.mem_map.2 ⟨s, hs, rfl⟩, by rw [List.mem_range'_1]; omega⟩
    rw [hf] at this
    exact List.mem_range.1 this

theorem mem_cells {rows : Nat} {mask : Nat → Nat → Bool} {rb : Nat} {s : Nat × Nat} {c : Nat × Nat} :
    c ∈ cells rows mask rb s ↔ c.1 < rows ∧ s.1 ≤ c.2 ∧ c.2 < s.2 ∧ mask c.1 c.2 = true ∧
      (c.1 + c.2) % 2 = rb := by
  unfold cells
  rw [List.mem_flatMap]
  constructor
  · rintro ⟨ix, hix, h⟩
    rw [List.mem_map] at h
    obtain ⟨iy, hiy, rfl⟩ := h
    rw [List.mem_filter, List.mem_range'_1] at hiy
    rw [List.mem_range] at hix
    obtain ⟨h1, h2⟩ := hiy
    simp only [Bool.and_eq_true, decide_eq_true_eq] at h2
    exact ⟨hix, by omega, by omega, h2.1, h2.2⟩
  · rintro ⟨h1, h2, h3, h4, h5⟩
    refine ⟨c.1, List.mem_range.2 h1, List.mem_map.2 ⟨c.2, ?_, rfl⟩⟩
    rw [List.mem_filter, List.mem_range'_1]
    refine ⟨by omega, by simp [h4, h5]⟩

/-- The cells of the row `y` in the order of a worker whose band contains it. -/
def rowCells (rows : Nat) (mask : Nat → Nat → Bool) (rb y : Nat) : List (Nat × Nat) :=
  (List.range rows).flatMap fun ix =>
    if mask ix y && decide ((ix + y) % 2 = rb) then [(ix, y)] else []

theorem filter_range'_eq (a n y : Nat) (q : Nat → Bool) (h0 : a ≤ y) (h1 : y < a + n) :
    ((List.range' a n).filter fun i => q i && decide (i = y)) = if q y then [y] else [] := by
  induction n generalizing a with
  | zero => omega
  | succ n ih =>
    rw [List.range'_succ]
    by_cases hay : a = y
    · subst hay
      have hnil : ((List.range' (a + 1) n).filter fun i => q i && decide (i = a)) = [] := by
        rw [List.filter_eq_nil_iff]
        intro i hi
        rw [List.mem_range'_1] at hi
        simp only [Bool.and_eq_true, decide_eq_true_eq, not_and]
        omega
      cases hq : q a <;> simp [List.filter_cons, hq, hnil]
    · rw [List.filter_cons_of_neg (by simp [hay]), ih (a + 1) (by omega) (by omega)]

theorem cells_row {rows : Nat} {mask : Nat → Nat → Bool} {rb : Nat} {s : Nat × Nat} {y : Nat}
    (h0 : s.1 ≤ y) (h1 : y < s.2) :
    (cells rows mask rb s).filter (fun c => decide (c.2 = y)) = rowCells rows mask rb y := by
  unfold cells rowCells
  rw [List.filter_flatMap]
  congr 1
  funext ix
  rw [List.filter_map]
  have : ((fun c : Nat × Nat => decide (c.2 = y)) ∘ fun iy => (ix, iy)) = fun iy => decide (iy = y) := rfl
  rw [this, List.filter_filter]
  have e := filter_range'_eq s.1 (s.2 - s.1) y (fun iy => mask ix iy && decide ((ix + iy) % 2 = rb))
    h0 (by omega)
  have e2 : (fun a => decide (a = y) && (mask ix a && decide ((ix + a) % 2 = rb))) =
      fun i => (mask ix i && decide ((ix + i) % 2 = rb)) && decide (i = y) := by
    funext a; rw [Bool.and_comm]
  rw [e2, e]
  split <;> simp

theorem row_proj {hw rows cols n rb : Nat} {mask : Nat → Nat → Bool} {sl : List (Nat × Nat)}
    (h : Thread.slices hw cols n = .ok sl) (sched : List Nat) (y : Nat) (hy : y < cols) :
    ((interleave (sl.map (cells rows mask rb)) sched).map (·.2)).filter (fun c => decide (c.2 = y)) =
      rowCells rows mask rb y := by
  obtain ⟨o1, o2, o3⟩ := slices_owner h
  obtain ⟨k, hk, a, b⟩ := o1 y hy
  have hp := interleave_proj sched (sl.map (cells rows mask rb)) k
  rw [List.getD, List.getElem?_map, List.getElem?_eq_getElem hk] at hp
  simp only [Option.map_some, Option.getD_some] at hp
  rw [← cells_row a b, ← hp]
  generalize hops : interleave (sl.map (cells rows mask rb)) sched = ops at *
  have hmem : ∀ op ∈ ops, op.2.2 = y → op.1 = k := by
    intro op hop hy'
    rw [← hops] at hop
    obtain ⟨t1, t2⟩ := interleave_thread sched _ op hop
    rw [List.length_map] at t1
    rw [List.getD, List.getElem?_map, List.getElem?_eq_getElem t1] at t2
    simp only [Option.map_some, Option.getD_some] at t2
    obtain ⟨-, c1, c2, -⟩ := mem_cells.1 t2
    exact o2 y op.1 k t1 hk (hy' ▸ c1) (hy' ▸ c2) a b
  clear hops hp
  induction ops with
  | nil => rfl
  | cons op ops ih =>
    have ih' := ih (fun o ho => hmem o (by simp [ho]))
    have hm := hmem op (by simp)
    by_cases hy' : op.2.2 = y
    · simp [List.filter_cons, hy', hm hy', ih']
    · by_cases hk' : op.1 = k <;> simp [List.filter_cons, hy', hk', ih']

/-! ### One update -/

variable {K : Type} [Field K] [LinearOrder K] [IsStrictOrderedRing K]

/-- Sizes for which the updates never read outside of the grid. -/
def SizesOk (rows cols : Nat) (circle : Bool) : Prop := (circle = true ∨ 2 ≤ rows) ∧ 2 ≤ cols

def wx (circle : Bool) (rows ix : Nat) : Nat := (xNeighbours circle rows ix).1.toNat
def ex (circle : Bool) (rows ix : Nat) : Nat := (xNeighbours circle rows ix).2.toNat
def sy (cols iy : Nat) : Nat := (yNeighbours cols iy).1.toNat
def ny (cols iy : Nat) : Nat := (yNeighbours cols iy).2.toNat

/-- The residual of a cell, without the checks. -/
def resid (rows cols : Nat) (circle : Bool) (relaxation : K) (g : Val K) (c : Nat × Nat) : Option K :=
  residual relaxation (g (wx circle rows c.1) c.2) (g (ex circle rows c.1) c.2)
    (g c.1 (sy cols c.2)) (g c.1 (ny cols c.2)) (g c.1 c.2)

def upd (rows cols : Nat) (circle : Bool) (relaxation : K) (g : Val K) (c : Nat × Nat) : Val K :=
  put g c.1 c.2 (do some ((← g c.1 c.2) + (← resid rows cols circle relaxation g c)))

theorem neighbours_bounds {rows cols : Nat} {circle : Bool} (h : SizesOk rows cols circle) {x y : Nat}
    (hx : x < rows) (hy : y < cols) :
    (0 ≤ (xNeighbours circle rows x).1 ∧ (xNeighbours circle rows x).1 < rows) ∧
    (0 ≤ (xNeighbours circle rows x).2 ∧ (xNeighbours circle rows x).2 < rows) ∧
    (0 ≤ (yNeighbours cols y).1 ∧ (yNeighbours cols y).1 < cols) ∧
    (0 ≤ (yNeighbours cols y).2 ∧ (yNeighbours cols y).2 < cols) := by
  obtain ⟨h1, h2⟩ := h
  unfold xNeighbours yNeighbours
  refine ⟨?_, ?_, ?_, ?_⟩ <;> dsimp only <;> split
  · cases circle
    · simp only [Bool.false_eq_true, false_or] at h1
      simp only [Bool.false_eq_true, if_false]; omega
    · simp only [if_true]; omega
  · omega
  · cases circle
    · simp only [Bool.false_eq_true, false_or] at h1
      simp only [Bool.false_eq_true, if_false]; omega
    · simp only [if_true]; omega
  · omega
  · omega
  · omega
  · omega
  · omega

theorem cellFill_ok {rows cols : Nat} {circle : Bool} (h : SizesOk rows cols circle) (relaxation : K)
    (g : Val K) {c : Nat × Nat} (hx : c.1 < rows) (hy : c.2 < cols) :
    cellFill rows cols circle relaxation g c =
      .ok (upd rows cols circle relaxation g c, resid rows cols circle relaxation g c) := by
  obtain ⟨⟨a1, a2⟩, ⟨a3, a4⟩, ⟨a5, a6⟩, ⟨a7, a8⟩⟩ := neighbours_bounds h hx hy
  unfold cellFill
  have r0 : rd2 rows cols g (c.1 : Int) (c.2 : Int) = .ok (g c.1 c.2) := by
    unfold rd2; rw [if_pos (by omega)]; simp
  have r1 : rd2 rows cols g (xNeighbours circle rows c.1).1 (c.2 : Int) = .ok (g (wx circle rows c.1) c.2) := by
    unfold rd2; rw [if_pos (by omega)]; simp [wx]
  have r2 : rd2 rows cols g (xNeighbours circle rows c.1).2 (c.2 : Int) = .ok (g (ex circle rows c.1) c.2) := by
    unfold rd2; rw [if_pos (by omega)]; simp [ex]
  have r3 : rd2 rows cols g (c.1 : Int) (yNeighbours cols c.2).1 = .ok (g c.1 (sy cols c.2)) := by
    unfold rd2; rw [if_pos (by omega)]; simp [sy]
  have r4 : rd2 rows cols g (c.1 : Int) (yNeighbours cols c.2).2 = .ok (g c.1 (ny cols c.2)) := by
    unfold rd2; rw [if_pos (by omega)]; simp [ny]
  simp only [r0, r1, r2, r3, r4, bind, Except.bind]
  rfl

theorem y_parity {cols y x : Nat} (h2 : 2 ≤ cols) (hy : y < cols) :
    (x + sy cols y) % 2 ≠ (x + y) % 2 ∧ (x + ny cols y) % 2 ≠ (x + y) % 2 ∧
    sy cols y ≠ y ∧ ny cols y ≠ y := by
  unfold sy ny yNeighbours
  dsimp only
  refine ⟨?_, ?_, ?_, ?_⟩ <;> split <;> omega

/-- Two grids with the same row `y` and the same values of the other colour. -/
def Agree (rb y : Nat) (g g' : Val K) : Prop :=
  (∀ i, g i y = g' i y) ∧ ∀ i j, (i + j) % 2 ≠ rb → g i j = g' i j

theorem agree_resid {rows cols rb : Nat} {circle : Bool} {relaxation : K} {g g' : Val K} {c : Nat × Nat}
    (h : Agree rb c.2 g g') (h2 : 2 ≤ cols) (hy : c.2 < cols) (hc : (c.1 + c.2) % 2 = rb) :
    resid rows cols circle relaxation g c = resid rows cols circle relaxation g' c := by
  obtain ⟨p1, p2, -, -⟩ := y_parity (x := c.1) h2 hy
  unfold resid
  rw [h.1, h.1, h.1, h.2 _ _ (by rw [← hc]; exact p1), h.2 _ _ (by rw [← hc]; exact p2)]

theorem agree_upd {rows cols rb : Nat} {circle : Bool} {relaxation : K} {g g' : Val K} {c : Nat × Nat}
    (h : Agree rb c.2 g g') (h2 : 2 ≤ cols) (hy : c.2 < cols) (hc : (c.1 + c.2) % 2 = rb) :
    Agree rb c.2 (upd rows cols circle relaxation g c) (upd rows cols circle relaxation g' c) := by
  have hr := agree_resid (rows := rows) (circle := circle) (relaxation := relaxation) h h2 hy hc
  unfold upd put
  constructor
  · intro i
    dsimp only
    split
    · rw [hr, h.1]
    · exact h.1 i
  · intro i j hij
    dsimp only
    rw [if_neg (by rintro ⟨rfl, rfl⟩; exact hij hc), if_neg (by rintro ⟨rfl, rfl⟩; exact hij hc)]
    exact h.2 i j hij

theorem agree_other {rows cols rb y : Nat} {circle : Bool} {relaxation : K} {g g' : Val K} {c : Nat × Nat}
    (h : Agree rb y g g') (hy : c.2 ≠ y) (hc : (c.1 + c.2) % 2 = rb) :
    Agree rb y (upd rows cols circle relaxation g c) g' := by
  unfold upd put
  constructor
  · intro i
    dsimp only
    rw [if_neg (by rintro ⟨rfl, rfl⟩; exact hy rfl)]
    exact h.1 i
  · intro i j hij
    dsimp only
    rw [if_neg (by rintro ⟨rfl, rfl⟩; exact hij hc)]
    exact h.2 i j hij

/-- The residuals of a sequence of updates. -/
def resids (rows cols : Nat) (circle : Bool) (relaxation : K) :
    Val K → List (Nat × Nat) → List ((Nat × Nat) × Option K)
  | _, [] => []
  | g, c :: l => (c, resid rows cols circle relaxation g c) ::
      resids rows cols circle relaxation (upd rows cols circle relaxation g c) l

theorem row_independent {rows cols rb : Nat} {circle : Bool} {relaxation : K} (h2 : 2 ≤ cols) (y : Nat)
    (l : List (Nat × Nat)) (hl : ∀ c ∈ l, c.2 < cols ∧ (c.1 + c.2) % 2 = rb) (g g' : Val K)
    (h : Agree rb y g g') :
    Agree rb y (l.foldl (upd rows cols circle relaxation) g)
      ((l.filter fun c => decide (c.2 = y)).foldl (upd rows cols circle relaxation) g') ∧
    (resids rows cols circle relaxation g l).filter (fun p => decide (p.1.2 = y)) =
      resids rows cols circle relaxation g' (l.filter fun c => decide (c.2 = y)) := by
  induction l generalizing g g' with
  | nil => exact ⟨h, rfl⟩
  | cons c l ih =>
    obtain ⟨hc1, hc2⟩ := hl c (by simp)
    have hl' : ∀ c ∈ l, c.2 < cols ∧ (c.1 + c.2) % 2 = rb := fun d hd => hl d (by simp [hd])
    by_cases hy : c.2 = y
    · subst hy
      have hA := agree_upd (rows := rows) (circle := circle) (relaxation := relaxation) h h2 hc1 hc2
      have hR := agree_resid (rows := rows) (circle := circle) (relaxation := relaxation) h h2 hc1 hc2
      obtain ⟨i1, i2⟩ := ih hl' _ _ hA
      rw [List.filter_cons_of_pos (by simp), List.foldl_cons, List.foldl_cons]
      refine ⟨i1, ?_⟩
      simp only [resids]
      rw [List.filter_cons_of_pos (by simp), i2, hR]
    · have hA := agree_other (rows := rows) (cols := cols) (circle := circle) (relaxation := relaxation) h hy hc2
      obtain ⟨i1, i2⟩ := ih hl' _ _ hA
      rw [List.filter_cons_of_neg (by simpa using hy), List.foldl_cons]
      refine ⟨i1, ?_⟩
      simp only [resids]
      rw [List.filter_cons_of_neg (by simpa using hy), i2]

theorem agree_refl (rb y : Nat) (g : Val K) : Agree rb y g g := ⟨fun _ => rfl, fun _ _ _ => rfl⟩

theorem foldl_upd_out {rows cols : Nat} {circle : Bool} {relaxation : K} (l : List (Nat × Nat))
    (g : Val K) {i j : Nat} (h : ∀ c ∈ l, c ≠ (i, j)) :
    l.foldl (upd rows cols circle relaxation) g i j = g i j := by
  induction l generalizing g with
  | nil => rfl
  | cons c l ih =>
    rw [List.foldl_cons, ih _ (fun d hd => h d (by simp [hd]))]
    unfold upd put
    rw [if_neg]
    rintro ⟨rfl, rfl⟩
    exact h c (by simp) rfl

theorem same_rows {rows cols rb : Nat} {circle : Bool} {relaxation : K} (h2 : 2 ≤ cols)
    (l l' : List (Nat × Nat)) (hl : ∀ c ∈ l, c.2 < cols ∧ (c.1 + c.2) % 2 = rb)
    (hl' : ∀ c ∈ l', c.2 < cols ∧ (c.1 + c.2) % 2 = rb)
    (h : ∀ y, y < cols → (l.filter fun c => decide (c.2 = y)) = l'.filter fun c => decide (c.2 = y))
    (g : Val K) :
    l.foldl (upd rows cols circle relaxation) g = l'.foldl (upd rows cols circle relaxation) g ∧
    ∀ p, p ∈ resids rows cols circle relaxation g l ↔ p ∈ resids rows cols circle relaxation g l' := by
  have hnil : ∀ (L : List (Nat × Nat)) (hL : ∀ c ∈ L, c.2 < cols ∧ (c.1 + c.2) % 2 = rb) y, ¬ y < cols →
      (L.filter fun c => decide (c.2 = y)) = [] := by
    intro L hL y hy
    rw [List.filter_eq_nil_iff]
    intro c hc
    have := (hL c hc).1
    simp only [decide_eq_true_eq]
    omega
  have h' : ∀ y, (l.filter fun c => decide (c.2 = y)) = l'.filter fun c => decide (c.2 = y) := by
    intro y
    by_cases hy : y < cols
    · exact h y hy
    · rw [hnil l hl y hy, hnil l' hl' y hy]
  constructor
  · funext i j
    rw [(row_independent h2 j l hl g g (agree_refl rb j g)).1.1 i, h' j,
      ← (row_independent h2 j l' hl' g g (agree_refl rb j g)).1.1 i]
  · intro p
    have a := (row_independent (rows := rows) (circle := circle) (relaxation := relaxation) h2 p.1.2 l hl g g
      (agree_refl rb _ g)).2
    have b := (row_independent (rows := rows) (circle := circle) (relaxation := relaxation) h2 p.1.2 l' hl' g g
      (agree_refl rb _ g)).2
    have c : (resids rows cols circle relaxation g l).filter (fun q => decide (q.1.2 = p.1.2)) =
        (resids rows cols circle relaxation g l').filter (fun q => decide (q.1.2 = p.1.2)) := by
      rw [a, b, h']
    constructor
    · intro hp
      have : p ∈ (resids rows cols circle relaxation g l).filter (fun q => decide (q.1.2 = p.1.2)) :=
        List.mem_filter.2 ⟨hp, by simp⟩
      rw [c] at this
      exact (List.mem_filter.1 this).1
    · intro hp
      have : p ∈ (resids rows cols circle relaxation g l').filter (fun q => decide (q.1.2 = p.1.2)) :=
        List.mem_filter.2 ⟨hp, by simp⟩
      rw [← c] at this
      exact (List.mem_filter.1 this).1

/-! ### The maximum residual -/

theorem maxRes_le {m b : K} {r : Option K} : maxRes m r ≤ b ↔ m ≤ b ∧ ∀ v, r = some v → |v| ≤ b := by
  cases r with
  | none => simp [maxRes]
  | some r =>
    simp only [maxRes, Option.some.injEq, forall_eq']
    split
    · rename_i h
      exact ⟨fun h' => ⟨h.le.trans h', h'⟩, fun h' => h'.2⟩
    · rename_i h
      exact ⟨fun h' => ⟨h', (not_lt.1 h).trans h'⟩, fun h' => h'.1⟩

theorem foldl_max_le (l : List K) (a b : K) : l.foldl max a ≤ b ↔ a ≤ b ∧ ∀ v ∈ l, v ≤ b := by
  induction l generalizing a with
  | nil => simp
  | cons x l ih =>
    rw [List.foldl_cons, ih, max_le_iff]
    simp only [List.mem_cons, forall_eq_or_imp]
    tauto

theorem modify_bound (ms : List K) (k : Nat) (hk : k < ms.length) (r : Option K) (b : K) :
    (∀ v ∈ ms.modify k (fun m => maxRes m r), v ≤ b) ↔ (∀ v ∈ ms, v ≤ b) ∧ ∀ v, r = some v → |v| ≤ b := by
  induction ms generalizing k with
  | nil => simp at hk
  | cons m ms ih =>
    cases k with
    | zero =>
      simp only [List.modify_zero_cons, List.mem_cons, forall_eq_or_imp, maxRes_le]
      tauto
    | succ k =>
      simp only [List.modify_succ_cons, List.mem_cons, forall_eq_or_imp]
      rw [ih k (by simpa using hk)]
      tauto

/-- Effect of a sequence of operations. -/
theorem apply_fold {rows cols : Nat} {circle : Bool} (h : SizesOk rows cols circle) (relaxation : K)
    (ops : List (Nat × (Nat × Nat))) (g : Val K) (ms : List K)
    (hin : ∀ op ∈ ops, op.1 < ms.length ∧ op.2.1 < rows ∧ op.2.2 < cols) :
    ∃ ms', ops.foldlM (apply rows cols circle relaxation) (g, ms) =
        .ok ((ops.map (·.2)).foldl (upd rows cols circle relaxation) g, ms') ∧
      ∀ b, (∀ v ∈ ms', v ≤ b) ↔ (∀ v ∈ ms, v ≤ b) ∧
        ∀ p ∈ resids rows cols circle relaxation g (ops.map (·.2)), ∀ v, p.2 = some v → |v| ≤ b := by
  induction ops generalizing g ms with
  | nil => exact ⟨ms, rfl, by simp [resids]⟩
  | cons op ops ih =>
    obtain ⟨h1, h2, h3⟩ := hin op (by simp)
    have hlen : (ms.modify op.1 fun m => maxRes m (resid rows cols circle relaxation g op.2)).length =
        ms.length := by simp
    obtain ⟨ms', e, hb⟩ := ih (upd rows cols circle relaxation g op.2)
      (ms.modify op.1 fun m => maxRes m (resid rows cols circle relaxation g op.2))
      (by rw [hlen]; exact fun o ho => hin o (by simp [ho]))
    refine ⟨ms', ?_, ?_⟩
    · rw [List.foldlM_cons]
      unfold apply at e ⊢
      simp only [cellFill_ok h relaxation g h2 h3, bind, Except.bind]
      simp only [bind, Except.bind] at e
      rw [e]
      rfl
    · intro b
      rw [hb b, modify_bound _ _ h1]
      simp only [List.map_cons, resids, List.mem_cons, forall_eq_or_imp]
      tauto

theorem calculate_eq {rows cols : Nat} {circle : Bool} (h : SizesOk rows cols circle) (relaxation : K)
    (mask : Nat → Nat → Bool) (n : Nat) (hn : 1 ≤ n) (sched : List Nat) (rb : Nat) (g : Val K) :
    ∃ l m, calculate rows cols circle relaxation mask n sched rb g =
        .ok (l.foldl (upd rows cols circle relaxation) g, m) ∧
      (∀ c, c ∈ l ↔ c.1 < rows ∧ c.2 < cols ∧ mask c.1 c.2 = true ∧ (c.1 + c.2) % 2 = rb) ∧
      (∀ y, y < cols → (l.filter fun c => decide (c.2 = y)) = rowCells rows mask rb y) ∧
      ∀ b, m ≤ b ↔ 0 ≤ b ∧ ∀ p ∈ resids rows cols circle relaxation g l, ∀ v, p.2 = some v → |v| ≤ b := by
  have hsl : ∃ sl, Thread.slices 0 cols n = .ok sl := by
    unfold Thread.slices
    by_cases h1 : n = 1
    · exact ⟨_, by rw [if_pos h1]⟩
    · rw [if_neg h1]
      simp only
      rw [if_neg (by omega : ¬ n = 0), if_neg (by omega)]
      exact ⟨_, rfl⟩
  obtain ⟨sl, hsl⟩ := hsl
  obtain ⟨o1, o2, o3⟩ := slices_owner hsl
  set ops := interleave (sl.map (cells rows mask rb)) sched with hops
  have hmem : ∀ c, c ∈ ops.map (·.2) ↔ c.1 < rows ∧ c.2 < cols ∧ mask c.1 c.2 = true ∧ (c.1 + c.2) % 2 = rb := by
    intro c
    rw [hops, interleave_mem, List.mem_flatten]
    constructor
    · rintro ⟨l, hl, hc⟩
      obtain ⟨s, hs, rfl⟩ := List.mem_map.1 hl
      obtain ⟨c1, c2, c3, c4, c5⟩ := mem_cells.1 hc
      exact ⟨c1, o3 s hs _ c2 c3, c4, c5⟩
    · rintro ⟨c1, c2, c3, c4⟩
      obtain ⟨k, hk, a, b⟩ := o1 c.2 c2
      exact ⟨_, List.mem_map.2 ⟨sl[k], List.getElem_mem _, rfl⟩, mem_cells.2 ⟨c1, a, b, c3, c4⟩⟩
  have hin : ∀ op ∈ ops, op.1 < (List.replicate sl.length (0 : K)).length ∧ op.2.1 < rows ∧ op.2.2 < cols := by
    intro op hop
    have t := (interleave_thread sched _ op hop).1
    rw [List.length_map] at t
    rw [List.length_replicate]
    obtain ⟨a, b, -, -⟩ := (hmem op.2).1 (List.mem_map.2 ⟨op, hop, rfl⟩)
    exact ⟨t, a, b⟩
  obtain ⟨ms', e, hb⟩ := apply_fold h relaxation ops g (List.replicate sl.length 0) hin
  refine ⟨ops.map (·.2), ms'.foldl max 0, ?_, hmem, fun y hy => row_proj hsl sched y hy, ?_⟩
  · unfold calculate
    simp only [hsl, bind, Except.bind, ← hops]
    rw [e]
  · intro b
    rw [foldl_max_le, hb b]
    constructor
    · rintro ⟨h0, -, h1⟩; exact ⟨h0, h1⟩
    · rintro ⟨h0, h1⟩
      refine ⟨h0, ?_, h1⟩
      intro v hv
      rw [(List.mem_replicate.1 hv).2]; exact h0

/-- One pass does not depend on the threads nor on their schedule. -/
theorem calculate_schedule {rows cols : Nat} {circle : Bool} (h : SizesOk rows cols circle) (relaxation : K)
    (mask : Nat → Nat → Bool) (n n' : Nat) (hn : 1 ≤ n) (hn' : 1 ≤ n') (sched sched' : List Nat)
    (rb : Nat) (g : Val K) :
    calculate rows cols circle relaxation mask n sched rb g =
      calculate rows cols circle relaxation mask n' sched' rb g := by
  obtain ⟨l, m, e, h1, h2, h3⟩ := calculate_eq h relaxation mask n hn sched rb g
  obtain ⟨l', m', e', h1', h2', h3'⟩ := calculate_eq h relaxation mask n' hn' sched' rb g
  obtain ⟨a, b⟩ := same_rows (rows := rows) (rb := rb) (circle := circle) (relaxation := relaxation) h.2 l l'
    (fun c hc => ⟨((h1 c).1 hc).2.1, ((h1 c).1 hc).2.2.2⟩)
    (fun c hc => ⟨((h1' c).1 hc).2.1, ((h1' c).1 hc).2.2.2⟩)
    (fun y hy => by rw [h2 y hy, h2' y hy]) g
  have : m = m' := by
    apply le_antisymm
    · rw [h3]
      obtain ⟨c, d⟩ := (h3' m').1 (le_refl _)
      exact ⟨c, fun p hp => d p ((b p).1 hp)⟩
    · rw [h3']
      obtain ⟨c, d⟩ := (h3 m).1 (le_refl _)
      exact ⟨c, fun p hp => d p ((b p).2 hp)⟩
  rw [e, e', a, this]

/-! ### Zonal average -/

theorem zonal_fold (rows : Nat) (mask : Nat → Nat → Bool) (L : List (Nat × Nat)) (g : Val K) (i j : Nat) :
    L.foldl (fun g op => zonalColumn rows mask g op.2) g i j =
      if j ∈ L.map (·.2) ∧ i < rows ∧ mask i j = true then some (firstGuess rows mask g j) else g i j := by
  have hcol : ∀ (g g' : Val K), (∀ i j, mask i j = false → g i j = g' i j) → ∀ j,
      firstGuess rows mask g j = firstGuess rows mask g' j := by
    intro g g' h j
    have : columnValues rows mask g j = columnValues rows mask g' j := by
      unfold columnValues
      congr 1
      funext ix
      cases hm : mask ix j
      · simp [h ix j hm]
      · simp
    unfold firstGuess
    rw [this]
  induction L generalizing g with
  | nil => simp
  | cons op L ih =>
    rw [List.foldl_cons, ih]
    have hg : ∀ i j, mask i j = false → zonalColumn rows mask g op.2 i j = g i j := by
      intro i j hm
      unfold zonalColumn
      rw [if_neg (by simp [hm])]
    rw [hcol _ g hg j]
    simp only [List.map_cons, List.mem_cons]
    by_cases hj : j ∈ L.map (·.2) ∧ i < rows ∧ mask i j = true
    · rw [if_pos hj, if_pos ⟨Or.inr hj.1, hj.2⟩]
    · rw [if_neg hj]
      unfold zonalColumn
      by_cases hj' : j = op.2 ∧ i < rows ∧ mask i j = true
      · rw [if_pos hj', if_pos ⟨Or.inl hj'.1, hj'.2⟩, hj'.1]
      · rw [if_neg hj', if_neg]
        rintro ⟨h1 | h1, h2⟩
        · exact hj' ⟨h1, h2⟩
        · exact hj ⟨h1, h2⟩

theorem setZonalAverage_eq (rows cols : Nat) (mask : Nat → Nat → Bool) (n : Nat) (hn : 1 ≤ n)
    (sched : List Nat) (g : Val K) : setZonalAverage rows cols mask n sched g =
      .ok (fun i j => if j < cols ∧ i < rows ∧ mask i j = true then some (firstGuess rows mask g j)
        else g i j) := by
  have hsl : ∃ sl, Thread.slices 0 cols n = .ok sl := by
    unfold Thread.slices
    by_cases h1 : n = 1
    · exact ⟨_, by rw [if_pos h1]⟩
    · rw [if_neg h1]
      simp only
      rw [if_neg (by omega : ¬ n = 0), if_neg (by omega)]
      exact ⟨_, rfl⟩
  obtain ⟨sl, hsl⟩ := hsl
  unfold setZonalAverage
  simp only [hsl, bind, Except.bind]
  congr 1
  funext i j
  have hm : j ∈ (interleave (sl.map fun s => List.range' s.1 (s.2 - s.1)) sched).map (·.2) ↔ j < cols := by
    rw [interleave_mem, Thread.slices_flatten hsl, List.mem_range]
  rw [zonal_fold]
  simp only [hm]

end Pyinterp.GaussSeidel
