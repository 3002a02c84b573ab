import Verif.Lemmas.DoubleStats

/-
C124: descriptive statistics with the rounding of every operation.
-/
namespace Pyinterp.Double

open Spec

/-- The values of a history are doubles, its weights are doubles of at least `lo`. -/
def Hist.Weights (lo : ℚ) : Hist → Prop
  | .new => True
  | .push h x => h.Weights lo ∧ IsDouble x
  | .pushW h x w => h.Weights lo ∧ IsDouble x ∧ IsDouble w ∧ lo ≤ w
  | .merge h r => h.Weights lo ∧ r.Weights lo

/-- No value is pushed without a weight. -/
def Hist.AllWeighted : Hist → Prop
  | .new => True
  | .push _ _ => False
  | .pushW h _ _ => h.AllWeighted
  | .merge h r => h.AllWeighted ∧ r.AllWeighted

/-- What is kept by the operations. -/
structure Sound (acc : Acc) : Prop where
  mean : IsDouble acc.mean
  weight : 0 ≤ acc.sumOfWeights
  mom2 : 0 ≤ acc.mom2

theorem Sound.single {v w : ℚ} (hv : IsDouble v) (hw : 0 ≤ w) : Sound (Acc.single v w) := ⟨hv, hw, le_rfl⟩

theorem Sound.push {acc : Acc} (s : Sound acc) (h1 : acc.sumOfWeights = 0 ∨ 1 ≤ acc.sumOfWeights) {v : ℚ}
    (hv : IsDouble v) : Sound (acc.push v) := by
  unfold Acc.push
  by_cases h0 : acc.sumOfWeights = 0
  · simp only [if_pos h0]
    exact Sound.single hv zero_le_one
  · simp only [if_neg h0]
    have hr := h1.resolve_left h0
    have hw : 2 ≤ add acc.sumOfWeights 1 := le_fl_of_double (isDouble_int (n := 2) (by norm_num)) (by linarith)
    refine ⟨isDouble_fl _, by linarith, ?_⟩
    exact fl_nonneg (add_nonneg s.mom2 (mom2_nonneg s.mean hv hw))

theorem Sound.merge {acc rhs acc' : Acc} (s : Sound acc) (r : Sound rhs) (h : acc.merge rhs = some acc') : Sound acc' := by
  unfold Acc.merge at h
  simp only at h
  split at h
  · cases h
  · cases h
    have hw : 0 ≤ add acc.sumOfWeights rhs.sumOfWeights := fl_nonneg (add_nonneg s.weight r.weight)
    refine ⟨isDouble_fl _, hw, ?_⟩
    have ww : 0 ≤ mul acc.sumOfWeights rhs.sumOfWeights := fl_nonneg (mul_nonneg s.weight r.weight)
    refine fl_nonneg (add_nonneg s.mom2 (fl_nonneg (add_nonneg r.mom2 (fl_nonneg ?_))))
    rcases le_total 0 (sub rhs.mean acc.mean) with hd | hd
    · exact mul_nonneg (fl_nonneg (mul_nonneg ww hd)) (fl_nonneg (div_nonneg hd hw))
    · exact mul_nonneg_of_nonpos_of_nonpos (fl_nonpos (mul_nonpos_of_nonneg_of_nonpos ww hd))
        (fl_nonpos (div_nonpos_of_nonpos_of_nonneg hd hw))

theorem merge_weight {acc rhs acc' : Acc} (h : acc.merge rhs = some acc') :
    acc'.sumOfWeights = add acc.sumOfWeights rhs.sumOfWeights := by
  unfold Acc.merge at h
  simp only at h
  split at h
  · cases h
  · cases h; rfl

theorem push_weight (acc : Acc) (v : ℚ) :
    (acc.push v).sumOfWeights = if acc.sumOfWeights = 0 then 1 else add acc.sumOfWeights 1 := by
  unfold Acc.push
  by_cases h0 : acc.sumOfWeights = 0
  · simp only [if_pos h0]; rfl
  · simp only [if_neg h0]

/-- **C124**: the variance is never negative, whatever the rounding: for every history of values pushed with positive weights
and of accumulators added, and for every history where values are also pushed without weight if the weights are at least 1. -/
theorem C124_variance (h : Hist) {acc : Acc} (hr : h.run = some acc) (ddof : ℤ)
    (hh : (h.AllWeighted ∧ h.Weights 0) ∨ h.Weights 1) :
    0 ≤ acc.mom2 ∧ ∀ v, acc.variance ddof = some v → 0 ≤ v := by
  have main : ∀ (h : Hist) (acc : Acc), h.run = some acc → (h.AllWeighted ∧ h.Weights 0) ∨ h.Weights 1 →
      Sound acc ∧ (h.Weights 1 → acc.sumOfWeights = 0 ∨ 1 ≤ acc.sumOfWeights) := by
    intro h
    induction h with
    | new =>
      intro acc hr _
      cases hr
      exact ⟨⟨isDouble_zero, le_rfl, le_rfl⟩, fun _ => Or.inl rfl⟩
    | push h x ih =>
      intro acc hr hh
      obtain ⟨a, ha, rfl⟩ := Option.map_eq_some_iff.1 hr
      have hh' : (Hist.push h x).Weights 1 := hh.resolve_left (fun hw => hw.1)
      obtain ⟨s, s1⟩ := ih a ha (Or.inr hh'.1)
      refine ⟨s.push (s1 hh'.1) hh'.2, fun _ => Or.inr ?_⟩
      rw [push_weight]
      split
      · exact le_rfl
      · exact le_fl_of_double isDouble_one (by linarith [s.weight])
    | pushW h x w ih =>
      intro acc hr hh
      obtain ⟨a, ha, hp⟩ := Option.bind_eq_some_iff.1 hr
      have hx : IsDouble x := by rcases hh with ⟨-, h1⟩ | h1 <;> exact h1.2.1
      have hw : 0 ≤ w := by
        rcases hh with ⟨-, h1⟩ | h1
        · exact h1.2.2.2
        · exact zero_le_one.trans h1.2.2.2
      obtain ⟨s, s1⟩ := ih a ha (hh.imp (fun h => ⟨h.1, h.2.1⟩) (fun h => h.1))
      unfold Acc.pushW at hp
      split at hp
      · cases hp
        exact ⟨Sound.single hx hw, fun h => Or.inr h.2.2.2⟩
      · refine ⟨s.merge (Sound.single hx hw) hp, fun h => Or.inr ?_⟩
        rw [merge_weight hp]
        have : (1 : ℚ) ≤ w := h.2.2.2
        exact le_fl_of_double isDouble_one (by
          change 1 ≤ a.sumOfWeights + w
          linarith [s.weight])
    | merge h r ih ihr =>
      intro acc hrun hh
      obtain ⟨a, ha, hp⟩ := Option.bind_eq_some_iff.1 hrun
      obtain ⟨b, hb, hp⟩ := Option.bind_eq_some_iff.1 hp
      obtain ⟨s, s1⟩ := ih a ha (hh.imp (fun h => ⟨h.1.1, h.2.1⟩) (fun h => h.1))
      obtain ⟨t, t1⟩ := ihr b hb (hh.imp (fun h => ⟨h.1.2, h.2.2⟩) (fun h => h.2))
      refine ⟨s.merge t hp, fun h => ?_⟩
      rw [merge_weight hp]
      rcases s1 h.1 with e | e
      · rcases t1 h.2 with e' | e'
        · left; rw [e, e']; unfold add; rw [add_zero, fl_zero]
        · right; exact le_fl_of_double isDouble_one (by linarith)
      · right; exact le_fl_of_double isDouble_one (by linarith [t.weight])
  obtain ⟨s, -⟩ := main h acc hr hh
  refine ⟨s.mom2, ?_⟩
  intro v hv
  unfold Acc.variance at hv
  simp only at hv
  split at hv
  · cases hv
  · cases hv
    exact fl_nonneg (div_nonneg s.mom2 (by linarith))

/- A history with weights and a merge. -/
example : ∃ h : Hist, ((h.AllWeighted ∧ h.Weights 0) ∨ h.Weights 1) ∧
    (h.run.bind (·.variance 0)) = some (1 / 4) :=
  ⟨.merge (.pushW .new 1 2) (.pushW .new 2 2),
    Or.inl ⟨⟨trivial, trivial⟩, ⟨trivial, isDouble_one, isDouble_int (n := 2) (by norm_num), by norm_num⟩,
      ⟨trivial, isDouble_int (n := 2) (by norm_num), isDouble_int (n := 2) (by norm_num), by norm_num⟩⟩, by decide +kernel⟩

/-- **C124, what is false**: a small weight then a value without weight give a negative variance and a mean greater than the
greatest value. Witness: -4.7 with the weight 1e-20, then 0.4: the mean is 0.40000000000000036. -/
theorem C124_mixed_false :
    ∃ acc, (Hist.push (.pushW .new (fl (-4.7)) (fl 1e-20)) (fl 0.4)).run = some acc ∧
      (∃ v, acc.variance 0 = some v ∧ v < 0) ∧ acc.max = fl 0.4 ∧ acc.max < acc.mean := by
  refine ⟨(Acc.single (fl (-4.7)) (fl 1e-20)).push (fl 0.4), ?_,
    ⟨div ((Acc.single (fl (-4.7)) (fl 1e-20)).push (fl 0.4)).mom2 1, ?_, ?_⟩, ?_, ?_⟩ <;> decide +kernel

/-- **C124, what is false**: with weights only, the mean can be greater than the greatest value. -/
theorem C124_weighted_mean_false :
    ∃ acc, (Hist.pushW (.pushW .new (fl (-4.7)) (fl 1e-20)) (fl 0.4) 1).run = some acc ∧
      acc.max = fl 0.4 ∧ acc.max < acc.mean := by
  refine ⟨((Acc.single (fl (-4.7)) (fl 1e-20)).merge (Acc.single (fl 0.4) 1)).getD Acc.zero, ?_, ?_, ?_⟩ <;> decide +kernel

/-- The accumulator after the values of a list. -/
def pushAll (xs : List ℚ) : Acc := xs.foldl Acc.push Acc.zero

theorem pushAll_append (xs : List ℚ) (x : ℚ) : pushAll (xs ++ [x]) = (pushAll xs).push x := by
  unfold pushAll
  rw [List.foldl_append]
  rfl

theorem nat_double {n : ℕ} (h : n ≤ 2 ^ 53) : IsDouble (n : ℚ) := by
  have := isDouble_int (n := (n : ℤ)) (by rw [abs_of_nonneg (by positivity)]; exact_mod_cast h)
  exact_mod_cast this

theorem push_first {acc : Acc} (h : acc.sumOfWeights = 0) {x : ℚ} (hx : IsDouble x) :
    acc.push x = ⟨1, 1, x, x, x, x, 0, 0, 0⟩ := by
  unfold Acc.push
  simp only [if_pos h]
  unfold Acc.single
  have : mul 1 x = x := by unfold mul; rw [one_mul, fl_double hx]
  rw [this]

/-- **C124**: for every list of doubles (less than 2^53 values) pushed without weight, the number of values and the sum of the
weights are exact, so are the minimum and the maximum, and the mean lies between them. -/
theorem C124_mean_between {xs : List ℚ} (hx : ∀ x ∈ xs, IsDouble x) (hne : xs ≠ []) (hn : xs.length ≤ 2 ^ 53) :
    let acc := pushAll xs
    acc.count = xs.length ∧ acc.sumOfWeights = xs.length ∧
    (acc.min ∈ xs ∧ ∀ x ∈ xs, acc.min ≤ x) ∧ (acc.max ∈ xs ∧ ∀ x ∈ xs, x ≤ acc.max) ∧
    acc.min ≤ acc.mean ∧ acc.mean ≤ acc.max ∧ 0 ≤ acc.mom2 := by
  suffices h : IsDouble (pushAll xs).mean ∧ (pushAll xs).count = xs.length ∧ (pushAll xs).sumOfWeights = xs.length ∧
      ((pushAll xs).min ∈ xs ∧ ∀ x ∈ xs, (pushAll xs).min ≤ x) ∧ ((pushAll xs).max ∈ xs ∧ ∀ x ∈ xs, x ≤ (pushAll xs).max) ∧
      (pushAll xs).min ≤ (pushAll xs).mean ∧ (pushAll xs).mean ≤ (pushAll xs).max ∧ 0 ≤ (pushAll xs).mom2 from h.2
  induction xs using List.reverseRecOn with
  | nil => exact absurd rfl hne
  | append_singleton xs x ih =>
    rw [pushAll_append]
    have hxx : IsDouble x := hx x (by simp)
    by_cases hxs : xs = []
    · subst hxs
      rw [push_first (acc := pushAll []) rfl hxx]
      simp [hxx]
    · obtain ⟨i0, i1, i2, ⟨i3, i4⟩, ⟨i5, i6⟩, i7, i8, i9⟩ := ih (fun y hy => hx y (by simp [hy])) hxs
        (by simp at hn; omega)
      set acc := pushAll xs with hacc
      have hlen : 1 ≤ xs.length := List.length_pos_iff.2 hxs
      have hlq : (1 : ℚ) ≤ xs.length := by exact_mod_cast hlen
      have hne0 : acc.sumOfWeights ≠ 0 := by rw [i2]; linarith
      have hw : add acc.sumOfWeights 1 = ((xs ++ [x]).length : ℚ) := by
        rw [i2]
        have : (xs.length : ℚ) + 1 = ((xs ++ [x]).length : ℚ) := by simp
        unfold add
        rw [this]
        exact fl_double (nat_double hn)
      have hw2 : 2 ≤ add acc.sumOfWeights 1 := by
        rw [hw]
        simp only [List.length_append, List.length_singleton]
        push_cast
        linarith
      obtain ⟨b1, b2⟩ := mean_between i0 hxx hw2
      have hm := mom2_nonneg i0 hxx hw2
      unfold Acc.push
      simp only [if_neg hne0]
      refine ⟨isDouble_fl _, by simp [i1], hw, ⟨?_, ?_⟩, ⟨?_, ?_⟩, ?_, ?_, fl_nonneg (add_nonneg i9 hm)⟩
      · split
        · simp
        · simp [i3]
      · intro y hy
        rcases List.mem_append.1 hy with hy | hy
        · split
          · linarith [i4 y hy]
          · exact i4 y hy
        · rw [List.mem_singleton.1 hy]
          split
          · exact le_rfl
          · linarith
      · split
        · simp [i5]
        · split
          · simp
          · simp [i5]
      · have hmm : acc.min ≤ acc.max := i4 _ i5
        intro y hy
        rcases List.mem_append.1 hy with hy | hy
        · split
          · exact i6 y hy
          · split
            · linarith [i6 y hy]
            · exact i6 y hy
        · rw [List.mem_singleton.1 hy]
          split
          · linarith
          · split
            · exact le_rfl
            · linarith
      · rcases le_total acc.mean x with h | h
        · obtain ⟨c1, c2⟩ := b1 h
          split <;> linarith
        · obtain ⟨c1, c2⟩ := b2 h
          split <;> linarith
      · rcases le_total acc.mean x with h | h
        · obtain ⟨c1, c2⟩ := b1 h
          split
          · linarith
          · split <;> linarith
        · obtain ⟨c1, c2⟩ := b2 h
          split
          · linarith
          · split <;> linarith

theorem push_next {acc : Acc} (h : acc.sumOfWeights ≠ 0) (x : ℚ) :
    (acc.push x).mean = add acc.mean (mul (sub x acc.mean) (div 1 (add acc.sumOfWeights 1))) ∧
    (acc.push x).sum = add acc.sum x := by
  unfold Acc.push
  simp only [if_neg h, and_self]

theorem abs_sum_le {xs : List ℚ} {M : ℚ} (h : ∀ x ∈ xs, |x| ≤ M) : |xs.sum| ≤ xs.length * M := by
  induction xs with
  | nil => simp
  | cons x xs ih =>
    rw [List.sum_cons, List.length_cons]
    have h1 := h x (by simp)
    have h2 := ih (fun y hy => h y (by simp [hy]))
    push_cast
    linarith [abs_add_le x xs.sum]

/-- **C124**: for every list of `n` doubles (`n` not greater than 2^53) of absolute value not greater than `M`, the mean computed
differs from the mean of the values by at most `(n + 9) M 2^-53`, and the sum computed from their sum by at most
`n (n + 1) M 2^-53`. -/
theorem C124_mean_error {xs : List ℚ} (hx : ∀ x ∈ xs, IsDouble x) (hne : xs ≠ []) (hn : xs.length ≤ 2 ^ 53)
    {M : ℚ} (hM : 2 ^ (-900 : ℤ) ≤ M) (hxM : ∀ x ∈ xs, |x| ≤ M) :
    |(pushAll xs).mean - xs.sum / xs.length| ≤ (xs.length + 9) * M * 2 ^ (-53 : ℤ) ∧
    |(pushAll xs).sum - xs.sum| ≤ xs.length * (xs.length + 1) * M * 2 ^ (-53 : ℤ) := by
  suffices h : |(pushAll xs).mean * xs.length - xs.sum| ≤ xs.length * (xs.length + 9) * (M * 2 ^ (-53 : ℤ)) ∧
      |(pushAll xs).sum - xs.sum| ≤ xs.length * (xs.length + 1) * (M * 2 ^ (-53 : ℤ)) by
    have hl : (0 : ℚ) < xs.length := by exact_mod_cast List.length_pos_iff.2 hne
    refine ⟨?_, by rw [mul_assoc _ M]; exact h.2⟩
    have e : (pushAll xs).mean - xs.sum / xs.length = ((pushAll xs).mean * xs.length - xs.sum) / xs.length := by
      field_simp
    rw [e, abs_div, abs_of_pos hl, div_le_iff₀ hl]
    calc _ ≤ _ := h.1
      _ = _ := by ring
  have hM0 : 0 < M := lt_of_lt_of_le (two_zpow_pos _) hM
  induction xs using List.reverseRecOn with
  | nil => exact absurd rfl hne
  | append_singleton xs x ih =>
    rw [pushAll_append]
    have hxx : IsDouble x := hx x (by simp)
    by_cases hxs : xs = []
    · subst hxs
      rw [push_first (acc := pushAll []) rfl hxx]
      have : 0 ≤ M * (2 : ℚ) ^ (-53 : ℤ) := mul_nonneg hM0.le (two_zpow_pos _).le
      simp only [List.nil_append, List.length_singleton, List.sum_singleton, Nat.cast_one, mul_one, sub_self, abs_zero]
      constructor <;> linarith
    · have hn' : xs.length ≤ 2 ^ 53 := by simp at hn; omega
      have hx' : ∀ y ∈ xs, IsDouble y := fun y hy => hx y (by simp [hy])
      have hM' : ∀ y ∈ xs, |y| ≤ M := fun y hy => hxM y (by simp [hy])
      obtain ⟨i1, i2⟩ := ih hx' hxs hn' hM'
      obtain ⟨-, j2, ⟨j3, -⟩, ⟨j4, -⟩, j5, j6, -⟩ := C124_mean_between hx' hxs hn'
      set acc := pushAll xs with hacc
      have hlen : 1 ≤ xs.length := List.length_pos_iff.2 hxs
      have hlq : (1 : ℚ) ≤ xs.length := by exact_mod_cast hlen
      have hne0 : acc.sumOfWeights ≠ 0 := by rw [j2]; linarith
      have hw : add acc.sumOfWeights 1 = ((xs ++ [x]).length : ℚ) := by
        rw [j2]
        have : (xs.length : ℚ) + 1 = ((xs ++ [x]).length : ℚ) := by simp
        unfold add
        rw [this]
        exact fl_double (nat_double hn)
      obtain ⟨p1, p2⟩ := push_next hne0 x
      rw [p1, p2, hw]
      have hmM : |acc.mean| ≤ M := by
        have a := abs_le.1 (hM' _ j3)
        have b := abs_le.1 (hM' _ j4)
        exact abs_le.2 ⟨by linarith, by linarith⟩
      have hxm := hxM x (by simp)
      have hnq : ((xs ++ [x]).length : ℚ) = xs.length + 1 := by simp
      have hnb : (xs.length : ℚ) + 1 ≤ 2 ^ 53 := by rw [← hnq]; exact_mod_cast hn
      rw [hnq, List.sum_append, List.sum_singleton]
      obtain ⟨q1, q2⟩ := And.intro (mean_step hM hmM hxm (n := xs.length + 1) (by linarith) hnb)
        (sum_step (M := M) hM (s := acc.sum) (S := xs.sum) (x := x) (n := xs.length) hlq hnb
          (abs_sum_le hM') hxm i2)
      refine ⟨?_, q2⟩
      generalize add acc.mean (mul (sub x acc.mean) (div 1 ((xs.length : ℚ) + 1))) = m' at *
      set n : ℚ := (xs.length : ℚ)
      generalize M * (2 : ℚ) ^ (-53 : ℤ) = U at *
      have e : m' * (n + 1) - (xs.sum + x)
          = (m' - (acc.mean + (x - acc.mean) / (n + 1))) * (n + 1) + (acc.mean * n - xs.sum) := by
        have : n + 1 ≠ 0 := by linarith
        field_simp
        ring
      rw [e]
      refine (abs_add_le _ _).trans ?_
      rw [abs_mul, abs_of_pos (by linarith : (0 : ℚ) < n + 1)]
      have t : |m' - (acc.mean + (x - acc.mean) / (n + 1))| * (n + 1) ≤ (2 * (n + 1) + 8) * U := by
        calc _ ≤ ((2 + 8 / (n + 1)) * U) * (n + 1) := mul_le_mul_of_nonneg_right q1 (by linarith)
          _ = _ := by
            have : n + 1 ≠ 0 := by linarith
            field_simp
      calc _ ≤ (2 * (n + 1) + 8) * U + n * (n + 9) * U := add_le_add t i1
        _ = _ := by ring

/- Values of absolute value at most 2: the bound is not zero and the error is not zero. -/
example : (2 : ℚ) ^ (-900 : ℤ) ≤ 2 ∧ (∀ x ∈ ([1, 1, 2] : List ℚ), IsDouble x ∧ |x| ≤ 2) ∧
    0 < |(pushAll [1, 1, 2]).mean - 4 / 3| := by
  refine ⟨le_trans (zpow_le_one_of_nonpos₀ (by norm_num) (by norm_num)) (by norm_num), ?_, by decide +kernel⟩
  have h2 : IsDouble (2 : ℚ) := isDouble_int (n := 2) (by norm_num)
  intro x hx
  simp only [List.mem_cons, List.not_mem_nil, or_false] at hx
  rcases hx with rfl | rfl | rfl
  · exact ⟨isDouble_one, by norm_num⟩
  · exact ⟨isDouble_one, by norm_num⟩
  · exact ⟨h2, by norm_num⟩

/- Three values, the rounded mean of which is not exact. -/
example : pushAll [1, 1, 2] = pushAll [1, 1, 2] ∧ (pushAll [1, 1, 2]).mean ≠ 4 / 3 ∧ (pushAll [1, 1, 2]).min = 1 ∧
    (pushAll [1, 1, 2]).max = 2 := by decide +kernel

/-- The sum of the squares of the deviations from the mean. -/
def devSq (xs : List ℚ) : ℚ := (xs.map (fun x => (x - xs.sum / xs.length) ^ 2)).sum

theorem sum_sq_shift (xs : List ℚ) (c : ℚ) :
    (xs.map (fun x => (x - c) ^ 2)).sum = (xs.map (fun x => x ^ 2)).sum - 2 * c * xs.sum + xs.length * c ^ 2 := by
  induction xs with
  | nil => simp
  | cons x l ih => simp only [List.map_cons, List.sum_cons, ih, List.length_cons]; push_cast; ring

theorem devSq_append {xs : List ℚ} (h : xs ≠ []) (x : ℚ) :
    devSq (xs ++ [x]) = devSq xs +
      (x - xs.sum / xs.length) * (x - (xs ++ [x]).sum / (xs ++ [x]).length) := by
  have hl : (0 : ℚ) < xs.length := by exact_mod_cast List.length_pos_iff.2 h
  unfold devSq
  rw [sum_sq_shift, sum_sq_shift]
  simp only [List.map_append, List.sum_append, List.map_cons, List.map_nil, List.sum_cons, List.sum_nil, List.length_append,
    List.length_singleton, add_zero]
  push_cast
  generalize (xs.map (fun x => x ^ 2)).sum = Q
  generalize xs.sum = S
  generalize (xs.length : ℚ) = n at *
  have h1 : n + 1 ≠ 0 := by linarith
  field_simp
  ring

theorem push_mom2 {acc : Acc} (h : acc.sumOfWeights ≠ 0) (x : ℚ) :
    (acc.push x).mom2 = add acc.mom2 (mul (sub x acc.mean) (sub x (acc.push x).mean)) := by
  unfold Acc.push
  simp only [if_neg h]

theorem abs_mean_le {xs : List ℚ} {M : ℚ} (h : ∀ x ∈ xs, |x| ≤ M) (hne : xs ≠ []) : |xs.sum / xs.length| ≤ M := by
  have hl : (0 : ℚ) < xs.length := by exact_mod_cast List.length_pos_iff.2 hne
  rw [abs_div, abs_of_pos hl, div_le_iff₀ hl, mul_comm]
  exact abs_sum_le h

/-- One step of the sum of squares: `k` values before. -/
theorem mom2_step {M ma ma' me me' x q Q k : ℚ} (hM : 2 ^ (-450 : ℤ) ≤ M) (hk : 1 ≤ k) (hk2 : k + 1 ≤ 2 ^ 50)
    (e : |ma - me| ≤ (k + 9) * (M * 2 ^ (-53 : ℤ))) (e' : |ma' - me'| ≤ (k + 1 + 9) * (M * 2 ^ (-53 : ℤ)))
    (bm : |ma| ≤ M) (bm' : |ma'| ≤ M) (be : |me| ≤ M) (be' : |me'| ≤ M) (bx : |x| ≤ M) (bQ : |Q| ≤ 4 * k * M ^ 2)
    (hq : |q - Q| ≤ (8 * k ^ 2 + 80 * k) * (M ^ 2 * 2 ^ (-53 : ℤ))) :
    |add q (mul (sub x ma) (sub x ma')) - (Q + (x - me) * (x - me'))| ≤
      (8 * (k + 1) ^ 2 + 80 * (k + 1)) * (M ^ 2 * 2 ^ (-53 : ℤ)) ∧
    |Q + (x - me) * (x - me')| ≤ 4 * (k + 1) * M ^ 2 := by
  have hM0 : 0 < M := lt_of_lt_of_le (two_zpow_pos _) hM
  have tri : ∀ {a b : ℚ}, |a| ≤ M → |b| ≤ M → |a - b| ≤ 2 * M := by
    intro a b ha hb
    have := abs_sub a b
    linarith
  have hMM : (2 : ℚ) ^ (-900 : ℤ) ≤ M ^ 2 := by
    have : (2 : ℚ) ^ (-900 : ℤ) = (2 ^ (-450 : ℤ)) ^ 2 := by rw [← zpow_natCast, ← zpow_mul]; norm_num
    rw [this]
    exact pow_le_pow_left₀ (two_zpow_pos _).le hM 2
  have s1 : (2 : ℚ) ^ (-1022 : ℤ) ≤ 2 ^ (-900 : ℤ) := zpow_le_zpow_right₀ (by norm_num) (by norm_num)
  have s2 : (2 : ℚ) ^ (-1022 : ℤ) ≤ 2 ^ (-450 : ℤ) := zpow_le_zpow_right₀ (by norm_num) (by norm_num)
  have f1 : |sub x ma - (x - ma)| ≤ 2 * M * 2 ^ (-53 : ℤ) := fl_rel (tri bx bm) (by linarith)
  have f2 : |sub x ma' - (x - ma')| ≤ 2 * M * 2 ^ (-53 : ℤ) := fl_rel (tri bx bm') (by linarith)
  have u53 : (2 : ℚ) ^ (-53 : ℤ) = 1 / 9007199254740992 := by norm_num
  set u : ℚ := 2 ^ (-53 : ℤ) with hu
  have hu0 : 0 < u := two_zpow_pos _
  have hku : (k + 1) * u ≤ 1 / 8 := by
    rw [u53]; norm_num at hk2 ⊢; linarith
  set d := sub x ma
  set b := sub x ma'
  have d1 : |d - (x - me)| ≤ (k + 11) * (M * u) := by
    calc |d - (x - me)| = |(d - (x - ma)) + -(ma - me)| := by ring_nf
      _ ≤ _ := abs_add_le _ _
      _ ≤ 2 * M * u + (k + 9) * (M * u) := by rw [abs_neg]; exact add_le_add f1 e
      _ = _ := by ring
  have b1 : |b - (x - me')| ≤ (k + 12) * (M * u) := by
    calc |b - (x - me')| = |(b - (x - ma')) + -(ma' - me')| := by ring_nf
      _ ≤ _ := abs_add_le _ _
      _ ≤ 2 * M * u + (k + 1 + 9) * (M * u) := by rw [abs_neg]; exact add_le_add f2 e'
      _ = _ := by ring
  have d2 : |d| ≤ 2 * M * (1 + u) := by
    calc |d| = |(d - (x - ma)) + (x - ma)| := by ring_nf
      _ ≤ _ := abs_add_le _ _
      _ ≤ 2 * M * u + 2 * M := add_le_add f1 (tri bx bm)
      _ = _ := by ring
  have b2 : |b| ≤ 2 * M * (1 + u) := by
    calc |b| = |(b - (x - ma')) + (x - ma')| := by ring_nf
      _ ≤ _ := abs_add_le _ _
      _ ≤ 2 * M * u + 2 * M := add_le_add f2 (tri bx bm')
      _ = _ := by ring
  have hMu : 0 ≤ M ^ 2 * u := by positivity
  have hMM0 : 0 ≤ M ^ 2 := sq_nonneg M
  have pd : |d * b - (x - me) * (x - me')| ≤ (4 * k + 49) * (M ^ 2 * u) := by
    have : d * b - (x - me) * (x - me') = d * (b - (x - me')) + (x - me') * (d - (x - me)) := by ring
    rw [this]
    refine (abs_add_le _ _).trans ?_
    rw [abs_mul, abs_mul]
    have t1 : |d| * |b - (x - me')| ≤ (2 * M * (1 + u)) * ((k + 12) * (M * u)) :=
      mul_le_mul d2 b1 (abs_nonneg _) (by positivity)
    have t2 : |x - me'| * |d - (x - me)| ≤ (2 * M) * ((k + 11) * (M * u)) :=
      mul_le_mul (tri bx be') d1 (abs_nonneg _) (by positivity)
    have t3 : (2 * M * (1 + u)) * ((k + 12) * (M * u)) + (2 * M) * ((k + 11) * (M * u))
        = (4 * k + 46 + 2 * ((k + 12) * u)) * (M ^ 2 * u) := by ring
    have t4 : (k + 12) * u ≤ 3 / 2 := by rw [u53] at hku ⊢; linarith
    calc _ ≤ _ := add_le_add t1 t2
      _ = _ := t3
      _ ≤ _ := mul_le_mul_of_nonneg_right (by clear_value u; linarith) hMu
  have bd : |d * b| ≤ 5 * M ^ 2 := by
    rw [abs_mul]
    calc |d| * |b| ≤ (2 * M * (1 + u)) * (2 * M * (1 + u)) := mul_le_mul d2 b2 (abs_nonneg _) (by positivity)
      _ = (4 * (1 + u) ^ 2) * M ^ 2 := by ring
      _ ≤ _ := mul_le_mul_of_nonneg_right (by rw [u53]; norm_num) (by positivity)
  have fp : |mul d b - d * b| ≤ 5 * M ^ 2 * u := fl_rel bd (by linarith)
  have pp : |mul d b - (x - me) * (x - me')| ≤ (4 * k + 54) * (M ^ 2 * u) := by
    calc |mul d b - (x - me) * (x - me')| = |(mul d b - d * b) + (d * b - (x - me) * (x - me'))| := by ring_nf
      _ ≤ _ := abs_add_le _ _
      _ ≤ 5 * M ^ 2 * u + (4 * k + 49) * (M ^ 2 * u) := add_le_add fp pd
      _ = _ := by ring
  have ex : |(x - me) * (x - me')| ≤ 4 * M ^ 2 := by
    rw [abs_mul]
    calc _ ≤ (2 * M) * (2 * M) := mul_le_mul (tri bx be) (tri bx be') (abs_nonneg _) (by positivity)
      _ = _ := by ring
  have exQ : |Q + (x - me) * (x - me')| ≤ 4 * (k + 1) * M ^ 2 := by
    calc _ ≤ _ := abs_add_le _ _
      _ ≤ 4 * k * M ^ 2 + 4 * M ^ 2 := add_le_add bQ ex
      _ = _ := by ring
  refine ⟨?_, exQ⟩
  -- the sum before rounding
  set T := Q + (x - me) * (x - me') with hT
  have sm : |q + mul d b - T| ≤ (8 * k ^ 2 + 84 * k + 54) * (M ^ 2 * u) := by
    calc |q + mul d b - T| = |(q - Q) + (mul d b - (x - me) * (x - me'))| := by rw [hT]; ring_nf
      _ ≤ _ := abs_add_le _ _
      _ ≤ (8 * k ^ 2 + 80 * k) * (M ^ 2 * u) + (4 * k + 54) * (M ^ 2 * u) := add_le_add hq pp
      _ = _ := by ring
  have sb : |q + mul d b| ≤ (5 * k + 20) * M ^ 2 := by
    calc |q + mul d b| = |(q + mul d b - T) + T| := by ring_nf
      _ ≤ _ := abs_add_le _ _
      _ ≤ (8 * k ^ 2 + 84 * k + 54) * (M ^ 2 * u) + 4 * (k + 1) * M ^ 2 := add_le_add sm exQ
      _ = ((8 * k + 76) * ((k + 1) * u) - 22 * u + 4 * (k + 1)) * M ^ 2 := by ring
      _ ≤ _ := by
        apply mul_le_mul_of_nonneg_right _ (by positivity)
        have : (8 * k + 76) * ((k + 1) * u) ≤ (8 * k + 76) * (1 / 8) := mul_le_mul_of_nonneg_left hku (by linarith)
        clear_value u
        linarith
  have fs : |add q (mul d b) - (q + mul d b)| ≤ (5 * k + 20) * M ^ 2 * u := by
    refine fl_rel sb ?_
    have : M ^ 2 ≤ (5 * k + 20) * M ^ 2 := by nlinarith [sq_nonneg M]
    linarith
  calc |add q (mul d b) - T| = |(add q (mul d b) - (q + mul d b)) + (q + mul d b - T)| := by ring_nf
    _ ≤ _ := abs_add_le _ _
    _ ≤ (5 * k + 20) * M ^ 2 * u + (8 * k ^ 2 + 84 * k + 54) * (M ^ 2 * u) := add_le_add fs sm
    _ = (8 * k ^ 2 + 89 * k + 74) * (M ^ 2 * u) := by ring
    _ ≤ _ := mul_le_mul_of_nonneg_right (by nlinarith) hMu

/-- **C124**: the sum of the squares of the deviations of `n` doubles, at most `M` in absolute value, is computed up to
`(8 n^2 + 80 n) M^2 2^-53`, and the variance up to `(8 n + 86) M^2 2^-53`. -/
theorem C124_variance_error {xs : List ℚ} (hx : ∀ x ∈ xs, IsDouble x) (hne : xs ≠ []) (hn : xs.length ≤ 2 ^ 50)
    {M : ℚ} (hM : 2 ^ (-450 : ℤ) ≤ M) (hxM : ∀ x ∈ xs, |x| ≤ M) :
    |(pushAll xs).mom2 - devSq xs| ≤ (8 * (xs.length : ℚ) ^ 2 + 80 * xs.length) * (M ^ 2 * 2 ^ (-53 : ℤ)) ∧
    ∃ v, (pushAll xs).variance 0 = some v ∧
      |v - devSq xs / xs.length| ≤ (8 * (xs.length : ℚ) + 86) * (M ^ 2 * 2 ^ (-53 : ℤ)) := by
  have hM0 : 0 < M := lt_of_lt_of_le (two_zpow_pos _) hM
  have hM9 : (2 : ℚ) ^ (-900 : ℤ) ≤ M := (zpow_le_zpow_right₀ (by norm_num) (by norm_num)).trans hM
  have main : ∀ xs : List ℚ, (∀ x ∈ xs, IsDouble x) → xs ≠ [] → xs.length ≤ 2 ^ 50 → (∀ x ∈ xs, |x| ≤ M) →
      |(pushAll xs).mom2 - devSq xs| ≤ (8 * (xs.length : ℚ) ^ 2 + 80 * xs.length) * (M ^ 2 * 2 ^ (-53 : ℤ)) ∧
      |devSq xs| ≤ 4 * xs.length * M ^ 2 := by
    intro xs
    induction xs using List.reverseRecOn with
    | nil => intro _ h; exact absurd rfl h
    | append_singleton xs x ih =>
      intro hx _ hn hxM
      have hxx : IsDouble x := hx x (by simp)
      by_cases hxs : xs = []
      · subst hxs
        rw [pushAll_append, push_first (acc := pushAll []) rfl hxx]
        have : devSq ([] ++ [x]) = 0 := by simp [devSq]
        rw [this]
        simp only [sub_self, abs_zero]
        constructor <;> positivity
      · have hn' : xs.length ≤ 2 ^ 50 := by simp at hn; omega
        have h53 : (xs ++ [x]).length ≤ 2 ^ 53 := hn.trans (by norm_num)
        have hx' : ∀ y ∈ xs, IsDouble y := fun y hy => hx y (by simp [hy])
        have hM' : ∀ y ∈ xs, |y| ≤ M := fun y hy => hxM y (by simp [hy])
        obtain ⟨i1, i2⟩ := ih hx' hxs hn' hM'
        have hne' : xs ++ [x] ≠ [] := by simp
        have mb : ∀ l : List ℚ, (∀ y ∈ l, IsDouble y) → l ≠ [] → l.length ≤ 2 ^ 53 → (∀ y ∈ l, |y| ≤ M) →
            |(pushAll l).mean| ≤ M := by
          intro l h1 h2 h3 h4
          obtain ⟨-, -, ⟨j3, -⟩, ⟨j4, -⟩, j5, j6, -⟩ := C124_mean_between h1 h2 h3
          have a := abs_le.1 (h4 _ j3)
          have b := abs_le.1 (h4 _ j4)
          exact abs_le.2 ⟨by linarith, by linarith⟩
        have hlen : (1 : ℚ) ≤ xs.length := by exact_mod_cast List.length_pos_iff.2 hxs
        have hnq : ((xs ++ [x]).length : ℚ) = xs.length + 1 := by simp
        have h50 : (xs.length : ℚ) + 1 ≤ 2 ^ 50 := by rw [← hnq]; exact_mod_cast hn
        have ne0 : (pushAll xs).sumOfWeights ≠ 0 := by
          rw [(C124_mean_between hx' hxs (hn'.trans (by norm_num))).2.1]; linarith
        have err := (C124_mean_error hx' hxs (hn'.trans (by norm_num)) hM9 hM').1
        have err' := (C124_mean_error hx hne' h53 hM9 hxM).1
        have b' := mb _ hx hne' h53 hxM
        rw [mul_assoc] at err err'
        rw [hnq] at err'
        rw [pushAll_append] at err' b' ⊢
        rw [push_mom2 ne0, devSq_append hxs, hnq]
        exact mom2_step hM hlen h50 err err' (mb _ hx' hxs (hn'.trans (by norm_num)) hM') b'
          (abs_mean_le hM' hxs) (by have := abs_mean_le hxM hne'; rwa [hnq] at this) (hxM x (by simp)) i2 i1
  obtain ⟨m1, m2⟩ := main xs hx hne hn hxM
  refine ⟨m1, ?_⟩
  have hw := (C124_mean_between hx hne (hn.trans (by norm_num))).2.1
  have hl : (1 : ℚ) ≤ xs.length := by exact_mod_cast List.length_pos_iff.2 hne
  have hcard : sub (pushAll xs).sumOfWeights ((0 : ℤ) : ℚ) = xs.length := by
    unfold sub
    rw [hw]
    simp only [Int.cast_zero, sub_zero]
    exact fl_double (nat_double (hn.trans (by norm_num)))
  refine ⟨div (pushAll xs).mom2 xs.length, ?_, ?_⟩
  · unfold Acc.variance
    simp only [hcard]
    rw [if_neg (by linarith)]
  · have hb : (xs.length : ℚ) ≤ 2 ^ 50 := by exact_mod_cast hn
    set n : ℚ := (xs.length : ℚ) with hn0
    set q := (pushAll xs).mom2
    set u : ℚ := 2 ^ (-53 : ℤ) with hu
    have u53 : u = 1 / 9007199254740992 := by rw [hu]; norm_num
    have hu0 : 0 < u := two_zpow_pos _
    have hn0' : (0 : ℚ) < n := by linarith
    have e1 : |q / n - devSq xs / n| ≤ (8 * n + 80) * (M ^ 2 * u) := by
      rw [← sub_div, abs_div, abs_of_pos hn0', div_le_iff₀ hn0']
      calc _ ≤ _ := m1
        _ = _ := by ring
    have e2 : |q / n| ≤ 6 * M ^ 2 := by
      have t : |devSq xs / n| ≤ 4 * M ^ 2 := by
        rw [abs_div, abs_of_pos hn0', div_le_iff₀ hn0']
        calc _ ≤ _ := m2
          _ = _ := by ring
      calc |q / n| = |(q / n - devSq xs / n) + devSq xs / n| := by ring_nf
        _ ≤ _ := abs_add_le _ _
        _ ≤ (8 * n + 80) * (M ^ 2 * u) + 4 * M ^ 2 := add_le_add e1 t
        _ = ((8 * n + 80) * u + 4) * M ^ 2 := by ring
        _ ≤ _ := mul_le_mul_of_nonneg_right (by rw [u53]; norm_num at hb; linarith) (by positivity)
    have hMM : (2 : ℚ) ^ (-900 : ℤ) ≤ M ^ 2 := by
      have : (2 : ℚ) ^ (-900 : ℤ) = (2 ^ (-450 : ℤ)) ^ 2 := by rw [← zpow_natCast, ← zpow_mul]; norm_num
      rw [this]
      exact pow_le_pow_left₀ (two_zpow_pos _).le hM 2
    have s1 : (2 : ℚ) ^ (-1022 : ℤ) ≤ 2 ^ (-900 : ℤ) := zpow_le_zpow_right₀ (by norm_num) (by norm_num)
    have f : |div q n - q / n| ≤ 6 * M ^ 2 * u := fl_rel e2 (by linarith [sq_nonneg M])
    calc |div q n - devSq xs / n| = |(div q n - q / n) + (q / n - devSq xs / n)| := by ring_nf
      _ ≤ _ := abs_add_le _ _
      _ ≤ 6 * M ^ 2 * u + (8 * n + 80) * (M ^ 2 * u) := add_le_add f e1
      _ = _ := by ring

/- The bounds are met by a list, and the error is not zero. -/
example : (2 : ℚ) ^ (-450 : ℤ) ≤ 2 ∧ devSq [1, 1, 2] = 2 / 3 ∧ (pushAll [1, 1, 2]).mom2 ≠ 2 / 3 := by
  refine ⟨le_trans (zpow_le_one_of_nonpos₀ (by norm_num) (by norm_num)) (by norm_num), by norm_num [devSq], by decide +kernel⟩

/- Where no rounding occurs, the moments are those of the exact arithmetic: values without weight, then with weights, then two
accumulators added. -/
example : pushAll [1, 3, 2, 6] = ([1, 3, 2, 6] : List ℚ).foldl Stats.push Stats.empty ∧
    (pushAll [1, 3, 2, 6]).mom3 = 18 ∧ (pushAll [1, 3, 2, 6]).mom4 = 98 := by
  decide +kernel

example : (match (Acc.single 0 1).merge (Acc.single 4 3), (Acc.single 1 3).merge (Acc.single 25 1) with
    | some a, some b => (match a.merge b, b.merge a with
      | some c, some d => [c, d]
      | _, _ => [])
    | _, _ => []) =
    [⟨4, 8, 5, 0, 25, 40, 476, 7680, 161396⟩, ⟨4, 8, 5, 0, 25, 40, 476, 7680, 161396⟩] := by
  decide +kernel

/-- **C124**: the variance of values pushed without weight is NaN exactly if there are not more of them than `ddof`. -/
theorem C124_variance_nan {xs : List ℚ} (hx : ∀ x ∈ xs, IsDouble x) (hne : xs ≠ []) (hn : xs.length ≤ 2 ^ 52) {ddof : ℤ}
    (h0 : 0 ≤ ddof) (h1 : ddof ≤ 2 ^ 52) : (pushAll xs).variance ddof = none ↔ (xs.length : ℤ) ≤ ddof := by
  obtain ⟨-, hw, -⟩ := C124_mean_between hx hne (hn.trans (by norm_num))
  have hs : sub (pushAll xs).sumOfWeights (ddof : ℚ) = (((xs.length : ℤ) - ddof : ℤ) : ℚ) := by
    rw [hw]
    have : ((xs.length : ℚ)) - (ddof : ℚ) = (((xs.length : ℤ) - ddof : ℤ) : ℚ) := by push_cast; rfl
    unfold sub
    rw [this]
    exact fl_double (isDouble_int (by rw [abs_le]; constructor <;> omega))
  unfold Acc.variance
  simp only [hs]
  rw [ite_eq_left_iff]
  simp only [reduceCtorEq, imp_false, not_not]
  norm_cast
  omega

/- The variances of one and of two values, with `ddof` 0 and 1. -/
example : (pushAll [3]).variance 0 = some 0 ∧ (pushAll [3]).variance 1 = none ∧ (pushAll [3, 5]).variance 1 = some 2 ∧
    (pushAll [3, 5]).variance 2 = none := by
  refine ⟨?_, ?_, ?_, ?_⟩ <;> decide +kernel

end Pyinterp.Double
