import Verif.Model.BinArrays
import Mathlib.Algebra.BigOperators.Group.List.Lemmas
import Mathlib.Tactic.Ring

/-
C129: the arrays of bins returned to Python.
-/
namespace Pyinterp.BinArrays

open Streaming

variable {K : Type}

/-- The element `jx` of the row of a histogram in the array that a user expects: its bin `jx`, or
(NaN, 0) beyond its last bin. -/
def expected [Zero K] (c : List (Bin K)) (jx : Nat) : Option K × K :=
  match c[jx]? with
  | some b => (some b.value, b.weight)
  | none => (none, 0)

/-- the row of a histogram -/
def row [Zero K] (width : Nat) (c : List (Bin K)) : Memory K :=
  c.map (fun b => some (some b.value, b.weight)) ++ List.replicate (width - c.length) (some (none, 0))

theorem row_length [Zero K] {width : Nat} {c : List (Bin K)} (h : c.length ≤ width) :
    (row width c).length = width := by
  simp [row]; omega

theorem row_get [Zero K] {width : Nat} {c : List (Bin K)} (jx : Nat) (hj : jx < width) :
    (row width c)[jx]? = some (some (expected c jx)) := by
  unfold row expected
  by_cases hc : jx < c.length
  · rw [List.getElem?_append_left (by simpa using hc)]
    simp [hc]
  · rw [List.getElem?_append_right (by simpa using hc), List.length_map,
      List.getElem?_replicate_of_lt (by omega), List.getElem?_eq_none (by omega)]

theorem store_append (pre : Memory K) (x : Option (Option K × K)) (suf : Memory K) (b : Option K × K) :
    store (pre ++ x :: suf) pre.length b = .ok (pre ++ some b :: suf) := by
  unfold store
  rw [if_pos (by simp)]
  simp

theorem copyBins_spec (shift : Nat) : ∀ (bins : List (Bin K)) (jx : Nat) (pre suf : Memory K),
    pre.length = shift + jx → bins.length ≤ suf.length →
    copyBins shift bins jx (pre ++ suf) =
      .ok (pre ++ bins.map (fun b => some (some b.value, b.weight)) ++ suf.drop bins.length) := by
  intro bins
  induction bins with
  | nil => intro jx pre suf _ _; simp [copyBins]
  | cons b bins ih =>
    intro jx pre suf hp hs
    cases suf with
    | nil => simp at hs
    | cons x suf =>
      unfold copyBins
      rw [← hp, store_append]
      simp only [bind, Except.bind]
      have := ih (jx + 1) (pre ++ [some (some b.value, b.weight)]) suf (by simp; omega)
        (by simpa using hs)
      rw [List.append_assoc] at this
      simp only [List.singleton_append] at this
      rw [this]
      simp

theorem padRow_spec [Zero K] (shift : Nat) : ∀ (left jx : Nat) (pre suf : Memory K),
    pre.length = shift + jx → left ≤ suf.length →
    padRow shift left jx (pre ++ suf) =
      .ok (pre ++ List.replicate left (some (none, 0)) ++ suf.drop left) := by
  intro left
  induction left with
  | zero => intro jx pre suf _ _; simp [padRow]
  | succ left ih =>
    intro jx pre suf hp hs
    cases suf with
    | nil => simp at hs
    | cons x suf =>
      unfold padRow
      rw [← hp, store_append]
      simp only [bind, Except.bind]
      have := ih (jx + 1) (pre ++ [some (none, 0)]) suf (by simp; omega) (by simpa using hs)
      rw [List.append_assoc] at this
      simp only [List.singleton_append] at this
      rw [this]
      simp [List.replicate_succ]

/-- one row: the two loops -/
theorem fillRow_spec [Zero K] (shift width : Nat) (c : List (Bin K)) (hc : c.length ≤ width)
    (pre suf : Memory K) (hp : pre.length = shift) (hs : width ≤ suf.length) :
    ∃ mem, copyBins shift c 0 (pre ++ suf) = .ok mem ∧
      padRow shift (width - c.length) c.length mem = .ok (pre ++ row width c ++ suf.drop width) := by
  refine ⟨_, copyBins_spec shift c 0 pre suf (by omega) (by omega), ?_⟩
  rw [padRow_spec shift _ _ (pre ++ c.map _) _ (by simp [hp]) (by simp; omega)]
  congr 1
  simp only [row, List.append_assoc, List.drop_drop]
  congr 3
  congr 1
  omega

theorem rowsLoop_spec [Zero K] (width : Nat) : ∀ (cells : List (List (Bin K))) (ix : Nat)
    (pre suf : Memory K), (∀ c ∈ cells, c.length ≤ width) → pre.length = ix * width →
    suf.length = cells.length * width →
    rowsLoop width cells ix (pre ++ suf) = .ok (pre ++ cells.flatMap (row width)) := by
  intro cells
  induction cells with
  | nil =>
    intro ix pre suf _ _ hs
    have : suf = [] := by simpa using hs
    simp [rowsLoop, this]
  | cons c cells ih =>
    intro ix pre suf hc hp hs
    simp only [List.length_cons, Nat.succ_mul] at hs
    obtain ⟨mem, e1, e2⟩ := fillRow_spec (ix * width) width c (hc c (by simp)) pre suf hp (by omega)
    unfold rowsLoop
    simp only [e1, e2, bind, Except.bind]
    rw [ih (ix + 1) (pre ++ row width c) _ (fun c' h => hc c' (by simp [h]))
      (by rw [List.length_append, row_length (hc c (by simp)), hp]; ring)
      (by simp; omega)]
    simp

theorem maxSize_from (cells : List (List (Bin K))) : ∀ s : Nat,
    s ≤ cells.foldl (fun s c => max s c.length) s ∧
    (∀ c ∈ cells, c.length ≤ cells.foldl (fun s c => max s c.length) s) ∧
    (cells.foldl (fun s c => max s c.length) s = s ∨
      ∃ c ∈ cells, c.length = cells.foldl (fun s c => max s c.length) s) := by
  induction cells with
  | nil => intro s; simp
  | cons c cells ih =>
    intro s
    obtain ⟨h1, h2, h3⟩ := ih (max s c.length)
    simp only [List.foldl_cons]
    refine ⟨by omega, ?_, ?_⟩
    · intro d hd
      rcases List.mem_cons.1 hd with rfl | hd
      · omega
      · exact h2 d hd
    · rcases h3 with h | ⟨d, hd, h⟩
      · rw [h]
        by_cases hsc : s ≤ c.length
        · exact Or.inr ⟨c, by simp, by omega⟩
        · exact Or.inl (by omega)
      · exact Or.inr ⟨d, by simp [hd], h⟩

/-- The largest number of bins of the histograms. -/
def IsWidth (cells : List (List (Bin K))) (w : Nat) : Prop :=
  (∀ c ∈ cells, c.length ≤ w) ∧ (w = 0 ∨ ∃ c ∈ cells, c.length = w)

theorem maxSize_isWidth (cells : List (List (Bin K))) : IsWidth cells (maxSize cells) := by
  obtain ⟨_, h2, h3⟩ := maxSize_from cells 0
  exact ⟨h2, h3⟩

theorem flatMap_rows_get [Zero K] {w : Nat} : ∀ (cells : List (List (Bin K))),
    (∀ c ∈ cells, c.length ≤ w) → ∀ (ix jx : Nat) (hx : ix < cells.length), jx < w →
    (cells.flatMap (row w))[ix * w + jx]? = some (some (expected cells[ix] jx)) := by
  intro cells
  induction cells with
  | nil => intro _ ix jx hx; simp at hx
  | cons c cells ih =>
    intro hc ix jx hx hj
    have hl : (row w c).length = w := row_length (hc c (by simp))
    rw [List.flatMap_cons]
    cases ix with
    | zero =>
      rw [List.getElem?_append_left (by rw [hl]; omega)]
      simpa using row_get (c := c) jx hj
    | succ ix =>
      rw [Nat.succ_mul, List.getElem?_append_right (by rw [hl]; omega), hl,
        show ix * w + w + jx - w = ix * w + jx by omega]
      simpa using ih (fun c' h => hc c' (by simp [h])) ix jx (by simpa using hx) hj

theorem flatMap_rows_length [Zero K] {w : Nat} : ∀ (cells : List (List (Bin K))),
    (∀ c ∈ cells, c.length ≤ w) → (cells.flatMap (row w)).length = cells.length * w := by
  intro cells
  induction cells with
  | nil => intro _; simp
  | cons c cells ih =>
    intro hc
    rw [List.flatMap_cons, List.length_append, row_length (hc c (by simp)),
      ih fun c' h => hc c' (by simp [h])]
    simp only [List.length_cons]; ring

/-- C129, `StreamingHistogram.bins()`: no store outside the array; the last dimension is the
largest number of bins; the row of the histogram `ix` holds its bins in order, then (NaN, 0), and
no element is left uninitialised. -/
theorem C129_bins [Zero K] (shape : List Nat) (cells : List (List (Bin K)))
    (hn : shape.prod = cells.length) :
    ∃ w mem, bins shape cells = .ok (shape ++ [w], mem) ∧ IsWidth cells w ∧
      mem.length = (shape ++ [w]).prod ∧
      ∀ (ix jx : Nat) (hx : ix < cells.length), jx < w →
        mem[ix * w + jx]? = some (some (expected cells[ix] jx)) := by
  have hw := maxSize_isWidth cells
  refine ⟨maxSize cells, cells.flatMap (row (maxSize cells)), ?_, hw, ?_, ?_⟩
  · unfold bins
    have := rowsLoop_spec (maxSize cells) cells 0 [] (List.replicate (shape.prod * maxSize cells) none)
      hw.1 (by simp) (by simp [hn])
    simp only [List.nil_append] at this
    simp only [this, bind, Except.bind]
  · rw [flatMap_rows_length cells hw.1, List.prod_append, hn]; simp
  · exact flatMap_rows_get cells hw.1

theorem copyBins3_eq (ny nz ix iy : Nat) : ∀ (l : List (Bin K)) (iz : Nat) (mem : Memory K),
    copyBins3 ny nz ix iy l iz mem = copyBins ((ix * ny + iy) * nz) l iz mem := by
  intro l
  induction l with
  | nil => intro iz mem; rfl
  | cons b l ih => intro iz mem; simp only [copyBins3, copyBins, flat, ih]

theorem padRow3_eq [Zero K] (ny nz ix iy : Nat) : ∀ (left iz : Nat) (mem : Memory K),
    padRow3 ny nz ix iy left iz mem = padRow ((ix * ny + iy) * nz) left iz mem := by
  intro left
  induction left with
  | zero => intro iz mem; rfl
  | succ left ih => intro iz mem; simp only [padRow3, padRow, flat, ih]

theorem columns3_eq [Zero K] (cell : Nat → Nat → List (Bin K)) (ny nz ix : Nat) :
    ∀ (left iy : Nat) (mem : Memory K), columns3 cell ny nz ix left iy mem =
      rowsLoop nz ((List.range' iy left).map (cell ix)) (ix * ny + iy) mem := by
  intro left
  induction left with
  | zero => intro iy mem; rfl
  | succ left ih =>
    intro iy mem
    rw [List.range'_succ, List.map_cons]
    simp only [columns3, rowsLoop, copyBins3_eq, padRow3_eq, ih, Nat.add_assoc]

theorem rowsLoop_append [Zero K] (width : Nat) : ∀ (l m : List (List (Bin K))) (ix : Nat)
    (mem : Memory K), rowsLoop width (l ++ m) ix mem =
      rowsLoop width l ix mem >>= rowsLoop width m (ix + l.length) := by
  intro l
  induction l with
  | nil => intro m ix mem; rfl
  | cons c l ih =>
    intro m ix mem
    simp only [List.cons_append, rowsLoop, bind, Except.bind, List.length_cons]
    split
    · rfl
    · split
      · rfl
      · rw [ih]
        simp only [bind, Except.bind]
        rw [show ix + 1 + l.length = ix + (l.length + 1) by omega]

theorem rows3_eq [Zero K] (cell : Nat → Nat → List (Bin K)) (ny nz : Nat) :
    ∀ (left ix : Nat) (mem : Memory K), rows3 cell ny nz left ix mem =
      rowsLoop nz ((List.range' ix left).flatMap fun i => (List.range ny).map (cell i)) (ix * ny) mem := by
  intro left
  induction left with
  | zero => intro ix mem; rfl
  | succ left ih =>
    intro ix mem
    rw [List.range'_succ, List.flatMap_cons, rowsLoop_append]
    simp only [rows3, columns3_eq, Nat.add_zero, List.length_map, List.range_eq_range']
    congr 1
    funext mem'
    rw [ih, Nat.succ_mul, List.range_eq_range', List.length_range']

/-- the cells of a grid in the order of the array -/
def gridCells (nx ny : Nat) (cell : Nat → Nat → List (Bin K)) : List (List (Bin K)) :=
  (List.range nx).flatMap fun ix => (List.range ny).map fun iy => cell ix iy

theorem gridCells_length (nx ny : Nat) (cell : Nat → Nat → List (Bin K)) :
    (gridCells nx ny cell).length = nx * ny := by
  unfold gridCells
  induction nx with
  | zero => simp
  | succ n ih =>
    rw [List.range_succ, List.flatMap_append, List.length_append, ih]
    simp [Nat.succ_mul]

theorem gridCells_get (ny : Nat) (cell : Nat → Nat → List (Bin K)) : ∀ (nx ix iy : Nat),
    ix < nx → iy < ny → (gridCells nx ny cell)[ix * ny + iy]? = some (cell ix iy) := by
  intro nx
  induction nx with
  | zero => intro ix iy h; omega
  | succ n ih =>
    intro ix iy hx hy
    have hs : gridCells (n + 1) ny cell = gridCells n ny cell ++ (List.range ny).map (cell n) := by
      unfold gridCells
      rw [List.range_succ, List.flatMap_append]
      simp
    rw [hs]
    by_cases h : ix < n
    · have hlt : ix * ny + iy < n * ny := by
        have : (ix + 1) * ny ≤ n * ny := Nat.mul_le_mul_right _ h
        rw [Nat.succ_mul] at this; omega
      rw [List.getElem?_append_left (by rw [gridCells_length]; exact hlt)]
      exact ih ix iy h hy
    · have : ix = n := by omega
      subst this
      rw [List.getElem?_append_right (by rw [gridCells_length]; omega), gridCells_length,
        show ix * ny + iy - ix * ny = iy by omega]
      simp [hy]

theorem mem_gridCells {nx ny : Nat} {cell : Nat → Nat → List (Bin K)} {c : List (Bin K)} :
    c ∈ gridCells nx ny cell ↔ ∃ ix iy, ix < nx ∧ iy < ny ∧ cell ix iy = c := by
  simp only [gridCells, List.mem_flatMap, List.mem_range, List.mem_map]
  constructor
  · rintro ⟨i, hi, j, hj, rfl⟩; exact ⟨i, j, hi, hj, rfl⟩
  · rintro ⟨i, j, hi, hj, rfl⟩; exact ⟨i, hi, j, hj, rfl⟩

/-- C129, `Histogram2D.histograms()`: no store outside the array of shape `(nx, ny, nz)`, where
`nz` is the largest number of bins of the cells; the element `(ix, iy, iz)` is the bin `iz` of the
cell `(ix, iy)`, or (NaN, 0) beyond its last bin. -/
theorem C129_histograms [Zero K] (nx ny : Nat) (cell : Nat → Nat → List (Bin K)) :
    ∃ nz mem, histograms nx ny cell = .ok ([nx, ny, nz], mem) ∧ mem.length = nx * ny * nz ∧
      (∀ ix iy, ix < nx → iy < ny → (cell ix iy).length ≤ nz) ∧
      (nz = 0 ∨ ∃ ix iy, ix < nx ∧ iy < ny ∧ (cell ix iy).length = nz) ∧
      ∀ ix iy iz, ix < nx → iy < ny → iz < nz →
        mem[(ix * ny + iy) * nz + iz]? = some (some (expected (cell ix iy) iz)) := by
  have hw := maxSize_isWidth (gridCells nx ny cell)
  have hl := gridCells_length nx ny cell
  refine ⟨maxSize (gridCells nx ny cell),
    (gridCells nx ny cell).flatMap (row (maxSize (gridCells nx ny cell))), ?_, ?_, ?_, ?_, ?_⟩
  · unfold histograms
    have := rowsLoop_spec (maxSize (gridCells nx ny cell)) (gridCells nx ny cell) 0 []
      (List.replicate (nx * ny * maxSize (gridCells nx ny cell)) none)
      hw.1 (by simp) (by simp [hl])
    simp only [List.nil_append] at this
    rw [show ((List.range nx).flatMap fun ix => (List.range ny).map fun iy => cell ix iy) =
      gridCells nx ny cell from rfl]
    simp only
    rw [rows3_eq, ← List.range_eq_range', show ((List.range nx).flatMap fun i => (List.range ny).map (cell i)) =
      gridCells nx ny cell from rfl, Nat.zero_mul]
    simp only [this, bind, Except.bind]
  · rw [flatMap_rows_length _ hw.1, hl]
  · exact fun ix iy hx hy => hw.1 _ (mem_gridCells.2 ⟨ix, iy, hx, hy, rfl⟩)
  · rcases hw.2 with h | ⟨c, hc, h⟩
    · exact Or.inl h
    · obtain ⟨ix, iy, hx, hy, rfl⟩ := mem_gridCells.1 hc
      exact Or.inr ⟨ix, iy, hx, hy, h⟩
  · intro ix iy iz hx hy hz
    have hg := gridCells_get ny cell nx ix iy hx hy
    obtain ⟨hlt, hge⟩ := List.getElem?_eq_some_iff.1 hg
    have := flatMap_rows_get _ hw.1 (ix * ny + iy) iz hlt hz
    rwa [hge] at this

/-- the elements of a row -/
def readRow (mem : Memory K) (w ix : Nat) : List (Option K × K) :=
  (List.range w).filterMap fun jx => (mem[ix * w + jx]?).join

theorem expected_list [Zero K] (c : List (Bin K)) : ∀ (w : Nat), c.length ≤ w →
    (List.range w).map (expected c) =
      c.map (fun b => (some b.value, b.weight)) ++ List.replicate (w - c.length) (none, 0) := by
  intro w hc
  apply List.ext_getElem?
  intro i
  by_cases hi : i < w
  · rw [List.getElem?_map, List.getElem?_range hi]
    unfold expected
    by_cases h : i < c.length
    · rw [List.getElem?_append_left (by simpa using h)]
      simp [h]
    · rw [List.getElem?_append_right (by simpa using h), List.length_map,
        List.getElem?_replicate_of_lt (by omega)]
      have hn : c[i]? = none := List.getElem?_eq_none (by omega)
      simp only [Option.map_some, hn]
  · rw [List.getElem?_eq_none (by simp; omega), List.getElem?_eq_none (by simp; omega)]

/-- C129: nothing is lost: the elements of a row whose value is a number are the bins of the
histogram, in order, and the sum of the weights of the row is the sum of the weights of its bins. -/
theorem C129_recover [AddCommMonoid K] (shape : List Nat) (cells : List (List (Bin K)))
    (hn : shape.prod = cells.length) (ix : Nat) (hx : ix < cells.length) :
    ∃ w mem, bins shape cells = .ok (shape ++ [w], mem) ∧
      (readRow mem w ix).filterMap (fun e => e.1.map fun v => (⟨v, e.2⟩ : Bin K)) = cells[ix] ∧
      ((readRow mem w ix).map (·.2)).sum = (cells[ix].map (·.weight)).sum := by
  obtain ⟨w, mem, e, hw, _, hg⟩ := C129_bins shape cells hn
  have hr : readRow mem w ix = (List.range w).map (expected cells[ix]) := by
    unfold readRow
    rw [← List.filterMap_eq_map]
    apply List.filterMap_congr
    intro jx hj
    rw [hg ix jx hx (by simpa using hj)]
    rfl
  rw [expected_list _ _ (hw.1 _ (List.getElem_mem hx))] at hr
  refine ⟨w, mem, e, ?_, ?_⟩
  · rw [hr, List.filterMap_append, List.filterMap_map]
    have h1 : List.filterMap ((fun e : Option K × K => e.1.map fun v => (⟨v, e.2⟩ : Bin K)) ∘
        fun b : Bin K => (some b.value, b.weight)) cells[ix] = cells[ix] := by
      have : ((fun e : Option K × K => e.1.map fun v => (⟨v, e.2⟩ : Bin K)) ∘
        fun b : Bin K => (some b.value, b.weight)) = some := by funext b; rfl
      rw [this, List.filterMap_some]
    rw [h1]
    simp
  · rw [hr]
    simp [List.map_append, List.sum_append, Function.comp_def]

/-! ### Non-vacuity -/

example : bins [2] [[⟨(1 : ℤ), 4⟩, ⟨2, 5⟩], [⟨7, 1⟩]] =
    .ok ([2, 2], [some (some 1, 4), some (some 2, 5), some (some 7, 1), some (none, 0)]) := by decide

example : histograms 2 1 (fun ix _ => if ix = 0 then [] else [⟨(3 : ℤ), 2⟩]) =
    .ok ([2, 1, 1], [some (none, 0), some (some 3, 2)]) := by decide

example : [2].prod = [[(⟨(1 : ℤ), 4⟩ : Bin ℤ), ⟨2, 5⟩], [⟨7, 1⟩]].length := by decide

end Pyinterp.BinArrays
