import Verif.Model.SelfMerge
import Mathlib.Tactic.NormNum

/-
C128: the operator `+=` when an object is added to itself.
-/
namespace Pyinterp.Alias

open Stats Streaming

variable {P : Type} [DecidableEq P] {K : Type} [Field K] [LinearOrder K]

theorem write_self {A : Type} (m : P → A) (p : P) (v : A) : write m p v p = v := by simp [write]

theorem write_ne {A : Type} (m : P → A) {p q : P} (v : A) (h : q ≠ p) : write m p v q = m q := by
  simp [write, h]

theorem write_write {A : Type} (m : P → A) (p : P) (u v : A) :
    write (write m p u) p v = write m p v := by
  funext q; unfold write; split <;> rfl

theorem write_same {A : Type} (m : P → A) (p : P) : write m p (m p) = m := by
  funext q; unfold write; split
  · next h => rw [h]
  · rfl

/-- C128, accumulators: `a += b` writes in `a` the merge of the two values held before the
operator, and changes nothing else, `b` being another object or `a` itself. -/
theorem C128_statistics (m : P → Acc K) (a b : P) :
    statsAdd m a b = (Stats.merge (m a) (m b)).map (write m a) := by
  by_cases hab : b = a
  · subst hab
    unfold statsAdd Stats.merge
    simp only [lt_irrefl, if_false]
    split
    · rfl
    · simp only [write_self, write_write, Except.map]
  · unfold statsAdd Stats.merge
    by_cases hmin : (m b).min < (m a).min <;> by_cases hmax : (m a).max < (m b).max <;>
      by_cases hw : (m a).sumOfWeights + (m b).sumOfWeights = 0 <;>
      simp [hmin, hmax, hw, write_self, write_write, write_ne _ _ hab, Except.map]

theorem binsLoop_ne (m : P → Hist K) {a b : P} (hab : a ≠ b) : ∀ (left i : Nat) (m' : P → Hist K),
    (∀ q, q ≠ a → m' q = m q) → i + left = (m b).bins.length →
    binsLoop m' a b left i =
      (((m b).bins.drop i).foldlM (fun bins x => updateBins bins x.value x.weight) (m' a).bins).map
        (fun bins => write m' a { m' a with bins := bins }) := by
  intro left
  induction left with
  | zero =>
    intro i m' hm' hi
    rw [List.drop_eq_nil_of_le (by omega)]
    simp only [binsLoop, List.foldlM_nil, pure, Except.pure, Except.map]
    rw [write_same]
  | succ left ih =>
    intro i m' hm' hi
    have hlt : i < (m b).bins.length := by omega
    unfold binsLoop
    rw [hm' b (Ne.symm hab), List.getElem?_eq_getElem hlt, List.drop_eq_getElem_cons hlt]
    simp only [List.foldlM_cons, bind, Except.bind]
    cases e : updateBins (m' a).bins (m b).bins[i].value (m b).bins[i].weight with
    | error x => simp [Except.map]
    | ok bins =>
      simp only [hab, false_and, if_false]
      rw [ih (i + 1) _ (fun q hq => by rw [write_ne _ _ hq, hm' q hq]) (by omega)]
      simp only [write_self, write_write]

/-- C128, histograms: when `b` is another object, `a += b` writes in `a` the merge of the two
values, and changes nothing else. -/
theorem C128_histogram (num : Numeric K) (m : P → Hist K) {a b : P} (hab : a ≠ b) :
    histAdd num m a b = (Streaming.merge num (m a) (m b)).map (write m a) := by
  have hba : b ≠ a := Ne.symm hab
  unfold histAdd Streaming.merge
  by_cases hmin : (m b).min < (m a).min <;> by_cases hmax : (m a).max < (m b).max <;>
    simp only [hmin, hmax, write_self, write_write, write_ne _ _ hba, if_true, if_false] <;>
    rw [binsLoop_ne m hab _ 0 _ (fun q hq => by first | rfl | rw [write_ne _ _ hq]) (by omega)] <;>
    simp only [List.drop_zero, write_self, write_write, bind, Except.bind] <;>
    (cases e : List.foldlM (fun bins (x : Bin K) => updateBins bins x.value x.weight) (m a).bins
      (m b).bins with
    | error x => simp [Except.map]
    | ok bins =>
      simp only [Except.map, write_self]
      split <;> simp_all [write_write])

/-- C128 is false for histograms: `a += a` has no defined behaviour as soon as `a` has a bin (it
inserts in the bins on which it iterates). -/
theorem C128_histogram_false (num : Numeric K) (m : P → Hist K) (a : P) (hne : (m a).bins ≠ []) :
    histAdd num m a a = .error .ub := by
  unfold histAdd
  simp only [lt_irrefl, if_false, write_self, write_write]
  obtain ⟨x, l, hx⟩ := List.exists_cons_of_ne_nil hne
  rw [hx]
  simp only [List.length_cons, binsLoop, write_self, hx, List.getElem?_cons_zero, updateBins,
    le_refl, if_true, bind, Except.bind]
  simp

/-- C128: an empty histogram added to itself is unchanged. -/
theorem C128_histogram_empty (num : Numeric K) (m : P → Hist K) (a : P) (he : (m a).bins = [])
    (hc : (m a).count = 0) : histAdd num m a a = .ok m := by
  unfold histAdd
  simp only [lt_irrefl, if_false, write_self, write_write, he, List.length_nil, binsLoop, bind,
    Except.bind, trim, Nat.zero_sub, trimLoop, pure, Except.pure, hc, Nat.add_zero]
  have : write m a { m a with count := 0, bins := [] } = m := by
    have h : ({ m a with count := 0, bins := [] } : Hist K) = m a := by rw [← he, ← hc]
    rw [h, write_same]
  simpa [he, hc] using this

section cells
variable {A : Type}

/-- a loop that combines one cell after the other -/
theorem cells_spec (op : (Nat × Nat → A) → Nat × Nat → Nat × Nat → Out (Nat × Nat → A))
    (f : A → A → Out A) (a b : Nat)
    (hop : ∀ m k, op m (a, k) (b, k) = (f (m (a, k)) (m (b, k))).map (write m (a, k))) :
    ∀ (left k : Nat) (m : Nat × Nat → A),
    (∀ m', cells op a b left k m = .ok m' →
      (∀ i, k ≤ i → i < k + left → f (m (a, i)) (m (b, i)) = .ok (m' (a, i))) ∧
      (∀ q, (∀ i, k ≤ i → i < k + left → q ≠ (a, i)) → m' q = m q)) ∧
    (∀ e, cells op a b left k m = .error e →
      ∃ i, k ≤ i ∧ i < k + left ∧ f (m (a, i)) (m (b, i)) = .error e) := by
  intro left
  induction left with
  | zero =>
    intro k m
    refine ⟨?_, ?_⟩
    · intro m' h
      cases h
      exact ⟨fun i h1 h2 => by omega, fun _ _ => rfl⟩
    · intro e h; cases h
  | succ left ih =>
    intro k m
    unfold cells
    simp only [hop, bind, Except.bind]
    cases ef : f (m (a, k)) (m (b, k)) with
    | error x =>
      simp only [Except.map]
      refine ⟨fun m' h => (by cases h), fun e h => ⟨k, le_refl _, by omega, ?_⟩⟩
      cases h; exact ef
    | ok c =>
      simp only [Except.map]
      obtain ⟨ih1, ih2⟩ := ih (k + 1) (write m (a, k) c)
      have hne : ∀ (x i : Nat), i ≠ k → write m (a, k) c (x, i) = m (x, i) := fun x i hi =>
        write_ne _ _ (by simp [hi])
      refine ⟨?_, ?_⟩
      · intro m' h
        obtain ⟨h1, h2⟩ := ih1 m' h
        refine ⟨?_, ?_⟩
        · intro i hi1 hi2
          by_cases hik : i = k
          · subst hik
            rw [h2 (a, i) (fun j hj _ => by simp; omega), write_self]
            exact ef
          · have := h1 i (by omega) (by omega)
            rwa [hne _ _ hik, hne _ _ hik] at this
        · intro q hq
          rw [h2 q (fun i hi1 hi2 => hq i (by omega) (by omega)),
            write_ne _ _ (hq k (le_refl _) (by omega))]
      · intro e h
        obtain ⟨i, hi1, hi2, hi3⟩ := ih2 e h
        rw [hne _ _ (by omega), hne _ _ (by omega)] at hi3
        exact ⟨i, by omega, by omega, hi3⟩

end cells

/-- The outcome `r` of `a += b` is that of an operator that combines the values of the cells: if it
completes, the cell `k` of `a` holds `f` of the two values held before by the cells `k` and nothing
else has changed; if it fails, one of these `f` fails so. -/
def Combines {A : Type} (f : A → A → Out A) (n a b : Nat) (m : Nat × Nat → A)
    (r : Out (Nat × Nat → A)) : Prop :=
  (∀ m', r = .ok m' → (∀ k, k < n → f (m (a, k)) (m (b, k)) = .ok (m' (a, k))) ∧
    ∀ q : Nat × Nat, q.1 ≠ a ∨ n ≤ q.2 → m' q = m q) ∧
  (∀ e, r = .error e → ∃ k, k < n ∧ f (m (a, k)) (m (b, k)) = .error e)

theorem combines_of_spec {A : Type}
    {op : (Nat × Nat → A) → Nat × Nat → Nat × Nat → Out (Nat × Nat → A)} {f : A → A → Out A}
    {a b : Nat}
    (hop : ∀ m k, op m (a, k) (b, k) = (f (m (a, k)) (m (b, k))).map (write m (a, k)))
    (n : Nat) (m : Nat × Nat → A) : Combines f n a b m (cells op a b n 0 m) := by
  obtain ⟨h1, h2⟩ := cells_spec op f a b hop n 0 m
  refine ⟨fun m' h => ?_, fun e h => ?_⟩
  · obtain ⟨h3, h4⟩ := h1 m' h
    refine ⟨fun k hk => h3 k (by omega) (by omega), fun q hq => h4 q fun i _ hi => ?_⟩
    rintro rfl
    rcases hq with hq | hq
    · exact hq rfl
    · simp at hq; omega
  · obtain ⟨i, _, hi, h3⟩ := h2 e h
    exact ⟨i, by omega, h3⟩

/-- C128, `DescriptiveStatistics`: `a += b` combines the values of the accumulators, `b` being
another object or `a` itself. -/
theorem C128_statistics_arrays (n a b : Nat) (m : Nat × Nat → Acc K) :
    Combines Stats.merge n a b m (statisticsAdd n a b m) :=
  combines_of_spec (fun m k => C128_statistics m (a, k) (b, k)) n m

theorem binningCell_eq (m : P → Acc K) (a b : P) :
    binningCell m a b = (Bin2D.mergeCell (m a) (m b)).map (write m a) := by
  unfold binningCell Bin2D.mergeCell
  split
  · rfl
  · split
    · exact C128_statistics m a b
    · simp [Except.map, write_same]

/-- C128, `Binning2D` and `Binning1D`: `a += b` combines the values of the cells, `b` being another
object or `a` itself. -/
theorem C128_binning (n a b : Nat) (m : Nat × Nat → Acc K) :
    Combines Bin2D.mergeCell n a b m (binningAdd n a b m) :=
  combines_of_spec (fun m k => binningCell_eq m (a, k) (b, k)) n m

/-- C128, `StreamingHistogram`: when `b` is another object, `a += b` combines the values. -/
theorem C128_streaming (num : Numeric K) (n : Nat) {a b : Nat} (hab : a ≠ b)
    (m : Nat × Nat → Hist K) :
    Combines (Streaming.merge num) n a b m (streamingAdd num n a b m) :=
  combines_of_spec (fun m k => C128_histogram num m (by simp [hab])) n m

theorem histogramCell_eq (num : Numeric K) (m : P → Hist K) {a b : P} (hab : a ≠ b) :
    histogramCell num m a b = (Bin2D.Histogram.mergeCell num (m a) (m b)).map (write m a) := by
  unfold histogramCell Bin2D.Histogram.mergeCell
  split
  · rfl
  · split
    · exact C128_histogram num m hab
    · simp [Except.map, write_same]

/-- C128, `Histogram2D`: when `b` is another object, `a += b` combines the values of the cells. -/
theorem C128_histogram2d (num : Numeric K) (n : Nat) {a b : Nat} (hab : a ≠ b)
    (m : Nat × Nat → Hist K) :
    Combines (Bin2D.Histogram.mergeCell num) n a b m (histogramAdd num n a b m) :=
  combines_of_spec (fun m k => histogramCell_eq num m (by simp [hab])) n m

/-- a loop that fails on some cells and changes nothing on the others -/
theorem cells_ub {A : Type} (op : (Nat × Nat → A) → Nat × Nat → Nat × Nat → Out (Nat × Nat → A))
    (a b : Nat) (m : Nat × Nat → A) (bad : Nat → Prop)
    (h1 : ∀ k, bad k → op m (a, k) (b, k) = .error .ub)
    (h2 : ∀ k, ¬ bad k → op m (a, k) (b, k) = .ok m) : ∀ (left k : Nat),
    ((∃ i, k ≤ i ∧ i < k + left ∧ bad i) → cells op a b left k m = .error .ub) ∧
    ((∀ i, k ≤ i → i < k + left → ¬ bad i) → cells op a b left k m = .ok m) := by
  intro left
  induction left with
  | zero =>
    intro k
    exact ⟨fun ⟨i, h1, h2, _⟩ => by omega, fun _ => rfl⟩
  | succ left ih =>
    intro k
    unfold cells
    by_cases hk : bad k
    · rw [h1 k hk]
      exact ⟨fun _ => rfl, fun h => absurd hk (h k (le_refl _) (by omega))⟩
    · rw [h2 k hk]
      obtain ⟨i1, i2⟩ := ih (k + 1)
      refine ⟨fun ⟨i, ha, hb, hc⟩ => i1 ⟨i, ?_, by omega, hc⟩, fun h => i2 fun i ha hb =>
        h i (by omega) (by omega)⟩
      by_contra hlt
      exact hk (by rwa [show k = i by omega])

/-- C128 is false for `Histogram2D`: `h += h`, and `h + h` of the Python class, have no defined
behaviour as soon as a cell holds a bin. Otherwise they change nothing. -/
theorem C128_histogram2d_false (num : Numeric K) (n a : Nat) (m : Nat × Nat → Hist K) :
    ((∃ k, k < n ∧ (m (a, k)).bins ≠ []) → histogramAdd num n a a m = .error .ub) ∧
    ((∀ k, k < n → (m (a, k)).bins = []) → histogramAdd num n a a m = .ok m) := by
  obtain ⟨h1, h2⟩ := cells_ub (histogramCell num) a a m (fun k => (m (a, k)).bins ≠ [])
    (fun k hk => by
      unfold histogramCell
      have : (m (a, k)).bins.length ≠ 0 := by simpa using hk
      simp only [this, false_and, if_false, ne_eq, not_false_eq_true, and_self, if_true]
      exact C128_histogram_false num m (a, k) hk)
    (fun k hk => by
      unfold histogramCell
      have : (m (a, k)).bins.length = 0 := by simpa using hk
      simp [this]) n 0
  exact ⟨fun ⟨k, hk, hb⟩ => h1 ⟨k, by omega, by omega, hb⟩,
    fun h => h2 fun i _ hi => by simpa using h i (by omega)⟩

/-- C128 is false for `StreamingHistogram`: `h += h` has no defined behaviour as soon as one of the
histograms holds a bin. -/
theorem C128_streaming_false (num : Numeric K) (n a : Nat) (m : Nat × Nat → Hist K)
    (hc : ∀ k, (m (a, k)).bins = [] → (m (a, k)).count = 0) :
    ((∃ k, k < n ∧ (m (a, k)).bins ≠ []) → streamingAdd num n a a m = .error .ub) ∧
    ((∀ k, k < n → (m (a, k)).bins = []) → streamingAdd num n a a m = .ok m) := by
  obtain ⟨h1, h2⟩ := cells_ub (histAdd num) a a m (fun k => (m (a, k)).bins ≠ [])
    (fun k hk => C128_histogram_false num m (a, k) hk)
    (fun k hk => C128_histogram_empty num m (a, k) (by simpa using hk) (hc k (by simpa using hk))) n 0
  exact ⟨fun ⟨k, hk, hb⟩ => h1 ⟨k, by omega, by omega, hb⟩,
    fun h => h2 fun i _ hi => by simpa using h i (by omega)⟩

/-! ### Non-vacuity -/

/-- two values, pushed in an accumulator that is added to itself: 4 values, of the same mean and
of twice the second moment -/
example : ((statisticsAdd 1 0 0 (fun _ => Stats.ofValues [(1 : ℚ), 3])).map fun m =>
    ((m (0, 0)).count, (m (0, 0)).mean, (m (0, 0)).mom2, (m (1, 0)).count)) = .ok (4, 2, 4, 2) := by
  decide +kernel

/-- the histograms of one value -/
def exHist : Hist ℚ := ⟨false, 3, 1, 5, 5, [⟨5, 1⟩]⟩

example : exHist.bins ≠ [] := by decide

example (num : Numeric ℚ) :
    histogramAdd num 2 0 0 (fun q => if q.2 = 1 then exHist else ⟨false, 3, 0, 9, 0, []⟩) =
      .error .ub :=
  (C128_histogram2d_false num 2 0 _).1 ⟨1, by decide, by decide⟩

example (num : Numeric ℚ) : streamingAdd num 1 0 0 (fun _ => exHist) = .error .ub :=
  (C128_streaming_false num 1 0 (fun _ => exHist) (fun _ h => by simp [exHist] at h)).1
    ⟨0, by decide, by decide⟩

example : ((histogramAdd ⟨1000, 1, id⟩ 1 0 1
    (fun q => if q.1 = 1 then exHist else ⟨false, 3, 1, 7, 7, [⟨7, 1⟩]⟩)).map fun m =>
    ((m (0, 0)).bins.map (·.value), (m (0, 0)).count)) = .ok ([5, 7], 2) := by
  decide +kernel

end Pyinterp.Alias
