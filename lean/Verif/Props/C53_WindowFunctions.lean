import Mathlib.Analysis.SpecialFunctions.Trigonometric.Bounds
import Verif.Model.WindowFunctions

/-
C53. Every window function used to weight neighbours is 0 beyond its radius, and within the
radius non-negative with maximum at distance 0.

Proved except for: `parzen` and `parzen_swot`, which are negative beyond the radius
(`C53_parzen_false`); `flat_top`, which is negative near the radius (`C53_flat_top_false`);
`lanczos`, whose radius is `arg * r`, and which is identically 0 (or NaN) when the Python user
leaves out its argument (`C53_lanczos_default_false`).
-/
set_option linter.unusedVariables false
namespace Pyinterp.WindowFunctions
open Real

/-- The distance beyond which the weight has to be 0: `arg` lobes of size `r` for Lanczos, the
radius for the others. -/
noncomputable def reach (f : Fn) (r arg : ℝ) : ℝ := match f with
  | .lanczos => arg * r
  | _ => r

/-- The argument of the function is meaningful (what `RTree.window_function` demands from its
argument when it is given). -/
def ArgOk (f : Fn) (arg : ℝ) : Prop := match f with
  | .gaussian => arg ≠ 0
  | .lanczos => 1 ≤ arg
  | .parzen => 0 ≤ arg
  | _ => True

/-- **C53** (support): the weight of a neighbour beyond the reach is 0. -/
theorem C53_support_partial (f : Fn) (d r arg : ℝ) (hf : f ≠ .parzen) (hf' : f ≠ .parzenSwot)
    (hd : reach f r arg < d) : weight f d r arg = some 0 := by
  cases f <;> simp_all [weight, reach, blackman, blackmanHarris, boxcar, flatTop, gaussian, hamming, lanczos, nuttall,
    not_le]

example : weight .hamming 3 2 0 = some 0 ∧ weight .lanczos 7 2 3 = some 0 :=
  ⟨C53_support_partial .hamming 3 2 0 (by decide) (by decide) (by norm_num [reach]),
   C53_support_partial .lanczos 7 2 3 (by decide) (by decide) (by norm_num [reach])⟩

/-- The reduced angle: `ratio = (d + r) / r` is `1 + d / r`. -/
theorem ratio_eq {d r : ℝ} (hr : 0 < r) : (d + r) / r = d / r + 1 := by
  rw [add_div, div_self hr.ne']

theorem cos1 (t : ℝ) : cos (π * (t + 1)) = - cos (π * t) := by
  rw [mul_add, mul_one, cos_add_pi]

theorem cos2 (t : ℝ) : cos (2 * π * (t + 1)) = 2 * cos (π * t) ^ 2 - 1 := by
  rw [← cos_two_mul, mul_add, mul_one, cos_add_two_pi]; ring_nf

theorem cos3 (t : ℝ) : cos (3 * π * (t + 1)) = - (4 * cos (π * t) ^ 3 - 3 * cos (π * t)) := by
  rw [← cos_three_mul, ← cos_add_pi]
  rw [← cos_add_two_pi (3 * (π * t) + π)]
  congr 1; ring

theorem cos4 (t : ℝ) : cos (4 * π * (t + 1)) = 2 * (2 * cos (π * t) ^ 2 - 1) ^ 2 - 1 := by
  have h : cos (4 * π * (t + 1)) = cos (2 * (2 * (π * t))) := by
    rw [← cos_add_nat_mul_two_pi (2 * (2 * (π * t))) 2]
    congr 1; push_cast; ring
  rw [h, cos_two_mul, cos_two_mul]

theorem quot_pos {a r : ℝ} (hr : 0 < r) : quot a r = some (a / r) := by
  simp [quot, hr.ne']

theorem sinc_abs_le (x : ℝ) : |sinc x| ≤ 1 := by
  unfold sinc
  split
  · simp
  · rename_i h
    rw [abs_div]
    have h0 : π * x ≠ 0 := mul_ne_zero pi_ne_zero h
    rw [div_le_one (abs_pos.2 h0)]
    exact abs_sin_le_abs

theorem sinc_nonneg {x : ℝ} (h0 : 0 ≤ x) (h1 : x ≤ 1) : 0 ≤ sinc x := by
  unfold sinc
  split
  · norm_num
  · refine div_nonneg (sin_nonneg_of_nonneg_of_le_pi (by positivity) ?_) (by positivity)
    nlinarith [pi_pos]

/-- **C53** (shape): within the radius the weight is a number, non-negative and at most the weight at the distance 0;
the latter is 1, except for `nuttall` (0.9893589). -/
theorem C53_shape_partial (f : Fn) (d r arg : ℝ) (hr : 0 < r) (h0 : 0 ≤ d) (h1 : d ≤ r) (ha : ArgOk f arg)
    (hf : f ≠ .flatTop) :
    ∃ w w0, weight f d r arg = some w ∧ weight f 0 r arg = some w0 ∧ 0 ≤ w ∧ w ≤ w0 ∧
      w0 = (if f = .nuttall then 0.9893589 else 1) := by
  have hc1 := cos_le_one (π * (d / r))
  have hc2 := neg_one_le_cos (π * (d / r))
  have t0 : 0 ≤ d / r := by positivity
  have t1 : d / r ≤ 1 := by rwa [div_le_one hr]
  have hz : (0 : ℝ) ≤ r := hr.le
  have hzr : (0 + r) / r = 1 := by rw [zero_add, div_self hr.ne']
  have e1 : cos (π * 1) = -1 := by simp
  have e2 : cos (2 * π * 1) = 1 := by simp
  have e3 : cos (3 * π * 1) = -1 := by
    have := cos3 0; simpa using this.trans (by norm_num)
  cases f with
  | flatTop => exact absurd rfl hf
  | blackman =>
    simp only [weight, blackman, if_pos h1, if_pos hz, quot_pos hr, Option.bind_eq_bind, Option.bind_some]
    refine ⟨_, _, rfl, rfl, ?_, ?_, ?_⟩
    · rw [ratio_eq hr, cos1, cos2]; nlinarith
    · rw [ratio_eq hr, cos1, cos2, hzr, e1, e2]; nlinarith
    · rw [hzr, e1, e2, if_neg (by decide)]; norm_num
  | blackmanHarris =>
    simp only [weight, blackmanHarris, if_pos h1, if_pos hz, quot_pos hr, Option.bind_eq_bind, Option.bind_some]
    generalize hc : cos (π * (d / r)) = c at *
    refine ⟨_, _, rfl, rfl, ?_, ?_, ?_⟩
    · rw [ratio_eq hr, cos1, cos2, cos3, hc]
      nlinarith [mul_nonneg (sub_nonneg.2 hc2) (sub_nonneg.2 hc2),
        mul_nonneg (mul_nonneg (sub_nonneg.2 hc2) (sub_nonneg.2 hc2)) (sub_nonneg.2 hc2)]
    · rw [ratio_eq hr, cos1, cos2, cos3, hzr, e1, e2, e3, hc]
      nlinarith [mul_nonneg (sub_nonneg.2 hc1) (sub_nonneg.2 hc2),
        mul_nonneg (mul_nonneg (sub_nonneg.2 hc1) (sub_nonneg.2 hc2)) (sub_nonneg.2 hc2)]
    · rw [hzr, e1, e2, e3, if_neg (by decide)]; norm_num
  | boxcar => exact ⟨1, 1, by simp [weight, boxcar, h1], by simp [weight, boxcar, hz], by norm_num, le_refl _, by simp⟩
  | gaussian =>
    have ha' : arg ≠ 0 := ha
    simp only [weight, gaussian, if_pos h1, if_pos hz, if_neg ha']
    refine ⟨_, _, rfl, rfl, (exp_pos _).le, ?_, by simp⟩
    apply exp_le_exp.2
    have := mul_self_nonneg (d / arg)
    rw [zero_div]
    nlinarith
  | hamming =>
    simp only [weight, hamming, if_pos h1, if_pos hz, quot_pos hr, Option.bind_eq_bind, Option.bind_some]
    refine ⟨_, _, rfl, rfl, ?_, ?_, ?_⟩
    · rw [mul_div_assoc, ratio_eq hr, cos1]; nlinarith
    · rw [mul_div_assoc, mul_div_assoc, ratio_eq hr, cos1, hzr, e1]; nlinarith
    · rw [mul_div_assoc, hzr, e1, if_neg (by decide)]; norm_num
  | lanczos =>
    have ha' : 1 ≤ arg := ha
    have hra : 0 < r * arg := by positivity
    have hle : d ≤ arg * r := by nlinarith
    have hle0 : (0 : ℝ) ≤ arg * r := by positivity
    simp only [weight, lanczos, if_pos hle, if_pos hle0, quot_pos hr, quot_pos hra, Option.bind_eq_bind,
      Option.bind_some]
    have s1 : d / (r * arg) ≤ 1 := by rw [div_le_one hra]; linarith
    refine ⟨_, _, rfl, rfl, ?_, ?_, by simp [sinc]⟩
    · exact mul_nonneg (sinc_nonneg t0 t1) (sinc_nonneg (by positivity) s1)
    · have : (sinc (0 / r) * sinc (0 / (r * arg)) : ℝ) = 1 := by simp [sinc]
      rw [this]
      have a1 := sinc_abs_le (d / r)
      have a2 := sinc_abs_le (d / (r * arg))
      calc sinc (d / r) * sinc (d / (r * arg)) ≤ |sinc (d / r) * sinc (d / (r * arg))| := le_abs_self _
        _ = |sinc (d / r)| * |sinc (d / (r * arg))| := abs_mul _ _
        _ ≤ 1 := by nlinarith [abs_nonneg (sinc (d / r)), abs_nonneg (sinc (d / (r * arg)))]
  | nuttall =>
    simp only [weight, nuttall, if_pos h1, if_pos hz, quot_pos hr, Option.bind_eq_bind, Option.bind_some]
    refine ⟨_, _, rfl, rfl, ?_, ?_, ?_⟩
    · rw [ratio_eq hr, cos1, cos2]
      nlinarith [sq_nonneg (cos (π * (d / r)) + 0.8953)]
    · rw [ratio_eq hr, cos1, cos2, hzr, e1, e2]; nlinarith
    · rw [hzr, e1, e2]; norm_num
  | parzen =>
    have ha' : 0 ≤ arg := ha
    have hq : (0 : ℝ) ≤ (2 * r + arg) / 4 := by positivity
    simp only [weight, parzen, quot_pos hr, Option.bind_eq_bind, Option.bind_some, if_pos hq]
    generalize hτ : d / r = τ at *
    by_cases hd : d ≤ (2 * r + arg) / 4
    · rw [if_pos hd]
      refine ⟨_, _, rfl, rfl, ?_, ?_, by simp⟩
      · nlinarith [sq_nonneg (3 * τ - 2), mul_nonneg t0 (sq_nonneg (3 * τ - 2))]
      · have : 0 ≤ 6 * τ ^ 2 * (1 - τ) := by have := sub_nonneg.2 t1; positivity
        simp only [zero_div]; linarith
    · rw [if_neg hd, if_pos (Or.inr (not_le.1 hd))]
      have hhalf : 1 / 2 ≤ τ := by
        rw [← hτ, le_div_iff₀ hr]; have := not_le.1 hd; linarith
      have hb := sub_nonneg.2 t1
      refine ⟨_, _, rfl, rfl, by positivity, ?_, by simp⟩
      have h2 : (1 - τ) ^ 3 ≤ (1 / 2) ^ 3 := pow_le_pow_left₀ hb (by linarith) 3
      simp only [zero_div]; linarith
  | parzenSwot =>
    have hq : (0 : ℝ) ≤ 2 * r / 4 := by positivity
    have h2r : 0 < 2 * r := by positivity
    simp only [weight, parzenSwot, quot_pos h2r, Option.bind_eq_bind, Option.bind_some, if_pos hq]
    rw [show 2 * d / (2 * r) = d / r from mul_div_mul_left d r two_ne_zero]
    generalize hτ : d / r = τ at *
    by_cases hd : d ≤ 2 * r / 4
    · rw [if_pos hd]
      refine ⟨_, _, rfl, rfl, ?_, ?_, by simp⟩
      · nlinarith [sq_nonneg (3 * τ - 2), mul_nonneg t0 (sq_nonneg (3 * τ - 2))]
      · have : 0 ≤ 6 * τ ^ 2 * (1 - τ) := by have := sub_nonneg.2 t1; positivity
        simp only [mul_zero, zero_div]; nlinarith
    · rw [if_neg hd, if_pos (Or.inr (not_le.1 hd))]
      have hhalf : 1 / 2 ≤ τ := by
        rw [← hτ, le_div_iff₀ hr]; have := not_le.1 hd; linarith
      have hb := sub_nonneg.2 t1
      refine ⟨_, _, rfl, rfl, by positivity, ?_, by simp⟩
      have h2 : (1 - τ) ^ 3 ≤ (1 / 2) ^ 3 := pow_le_pow_left₀ hb (by linarith) 3
      simp only [mul_zero, zero_div]; linarith

example : ∃ w w0, weight .parzen 3 4 1 = some w ∧ weight .parzen 0 4 1 = some w0 ∧ 0 ≤ w ∧ w ≤ w0 ∧ w0 = 1 :=
  C53_shape_partial .parzen 3 4 1 (by norm_num) (by norm_num) (by norm_num) (by norm_num [ArgOk]) (by decide)

example : weight .parzen 3 4 1 = some (1 / 32) := by norm_num [weight, parzen, quot]

theorem sinc_pos {x : ℝ} (h0 : 0 ≤ x) (h1 : x < 1) : 0 < sinc x := by
  unfold sinc
  split
  · norm_num
  · rename_i h
    have hx : 0 < x := lt_of_le_of_ne h0 (Ne.symm h)
    refine div_pos (sin_pos_of_pos_of_lt_pi (by positivity) ?_) (by positivity)
    nlinarith [pi_pos]

/-- **C53** (strict positivity): within the radius no weight vanishes, except for the neighbours exactly at the radius with
`lanczos`, `parzen` and `parzen_swot`. -/
theorem C53_positive (f : Fn) (d r arg : ℝ) (hr : 0 < r) (h0 : 0 ≤ d) (h1 : d ≤ r) (ha : ArgOk f arg)
    (hf : f ≠ .flatTop) (hlt : d < r ∨ (f ≠ .lanczos ∧ f ≠ .parzen ∧ f ≠ .parzenSwot)) :
    ∃ w, weight f d r arg = some w ∧ 0 < w := by
  have hc1 := cos_le_one (π * (d / r))
  have hc2 := neg_one_le_cos (π * (d / r))
  have t0 : 0 ≤ d / r := by positivity
  have t1 : d / r ≤ 1 := by rwa [div_le_one hr]
  have tl : d < r → d / r < 1 := fun h => by rwa [div_lt_one hr]
  cases f with
  | flatTop => exact absurd rfl hf
  | blackman =>
    simp only [weight, blackman, if_pos h1, quot_pos hr, Option.bind_eq_bind, Option.bind_some]
    refine ⟨_, rfl, ?_⟩
    rw [ratio_eq hr, cos1, cos2]; nlinarith
  | blackmanHarris =>
    simp only [weight, blackmanHarris, if_pos h1, quot_pos hr, Option.bind_eq_bind, Option.bind_some]
    generalize hc : cos (π * (d / r)) = c at *
    refine ⟨_, rfl, ?_⟩
    rw [ratio_eq hr, cos1, cos2, cos3, hc]
    nlinarith [mul_nonneg (sub_nonneg.2 hc2) (sub_nonneg.2 hc2),
      mul_nonneg (mul_nonneg (sub_nonneg.2 hc2) (sub_nonneg.2 hc2)) (sub_nonneg.2 hc2)]
  | boxcar => exact ⟨1, by simp [weight, boxcar, h1], by norm_num⟩
  | gaussian =>
    have ha' : arg ≠ 0 := ha
    simp only [weight, gaussian, if_pos h1, if_neg ha']
    exact ⟨_, rfl, exp_pos _⟩
  | hamming =>
    simp only [weight, hamming, if_pos h1, quot_pos hr, Option.bind_eq_bind, Option.bind_some]
    refine ⟨_, rfl, ?_⟩
    rw [mul_div_assoc, ratio_eq hr, cos1]; nlinarith
  | nuttall =>
    simp only [weight, nuttall, if_pos h1, quot_pos hr, Option.bind_eq_bind, Option.bind_some]
    refine ⟨_, rfl, ?_⟩
    rw [ratio_eq hr, cos1, cos2]
    nlinarith [sq_nonneg (cos (π * (d / r)) + 0.8953)]
  | lanczos =>
    have hd : d < r := by rcases hlt with h | h; exacts [h, absurd rfl h.1]
    have ha' : 1 ≤ arg := ha
    have hra : 0 < r * arg := by positivity
    have hle : d ≤ arg * r := by nlinarith
    simp only [weight, lanczos, if_pos hle, quot_pos hr, quot_pos hra, Option.bind_eq_bind, Option.bind_some]
    have s1 : d / (r * arg) < 1 := by rw [div_lt_one hra]; nlinarith
    exact ⟨_, rfl, mul_pos (sinc_pos t0 (tl hd)) (sinc_pos (by positivity) s1)⟩
  | parzen =>
    have hd : d < r := by rcases hlt with h | h; exacts [h, absurd rfl h.2.1]
    have := tl hd
    simp only [weight, parzen, quot_pos hr, Option.bind_eq_bind, Option.bind_some]
    generalize hτ : d / r = τ at *
    by_cases hd4 : d ≤ (2 * r + arg) / 4
    · rw [if_pos hd4]
      refine ⟨_, rfl, ?_⟩
      nlinarith [sq_nonneg (3 * τ - 2), mul_nonneg t0 (sq_nonneg (3 * τ - 2))]
    · rw [if_neg hd4, if_pos (Or.inr (not_le.1 hd4))]
      have : 0 < 1 - τ := by linarith
      exact ⟨_, rfl, by positivity⟩
  | parzenSwot =>
    have hd : d < r := by rcases hlt with h | h; exacts [h, absurd rfl h.2.2]
    have := tl hd
    have h2r : 0 < 2 * r := by positivity
    simp only [weight, parzenSwot, quot_pos h2r, Option.bind_eq_bind, Option.bind_some]
    rw [show 2 * d / (2 * r) = d / r from mul_div_mul_left d r two_ne_zero]
    generalize hτ : d / r = τ at *
    by_cases hd4 : d ≤ 2 * r / 4
    · rw [if_pos hd4]
      refine ⟨_, rfl, ?_⟩
      nlinarith [sq_nonneg (3 * τ - 2), mul_nonneg t0 (sq_nonneg (3 * τ - 2))]
    · rw [if_neg hd4, if_pos (Or.inr (not_le.1 hd4))]
      have : 0 < 1 - τ := by linarith
      exact ⟨_, rfl, by positivity⟩

example : ∃ w, weight .blackmanHarris 5 5 0 = some w ∧ 0 < w :=
  C53_positive .blackmanHarris 5 5 0 (by norm_num) (by norm_num) (by norm_num) trivial (by decide)
    (Or.inr (by decide))

/-- **C53** negation: the two Parzen windows are negative at every distance beyond the radius (with the default argument
of `parzen`). -/
theorem C53_parzen_false (d r : ℝ) (hr : 0 < r) (hd : r < d) :
    (∃ w, weight .parzen d r 0 = some w ∧ w < 0) ∧ ∃ w, weight .parzenSwot d r 0 = some w ∧ w < 0 := by
  have h2r : 0 < 2 * r := by positivity
  have h1 : 1 < d / r := by rwa [one_lt_div hr]
  have hneg : 2 * (1 - d / r) ^ 3 < 0 := by
    have : 0 < (d / r - 1) ^ 3 := pow_pos (by linarith) 3
    nlinarith
  constructor
  · have hn : ¬ d ≤ (2 * r + 0) / 4 := by intro h; linarith
    refine ⟨_, ?_, hneg⟩
    simp only [weight, parzen, quot_pos hr, Option.bind_eq_bind, Option.bind_some, if_neg hn,
      if_pos (show (2 * r + 0) / 2 ≤ d ∨ d > (2 * r + 0) / 4 from Or.inr (not_le.1 hn))]
  · have hn : ¬ d ≤ 2 * r / 4 := by intro h; linarith
    refine ⟨_, ?_, hneg⟩
    simp only [weight, parzenSwot, quot_pos h2r, Option.bind_eq_bind, Option.bind_some, if_neg hn,
      if_pos (show d ≤ 2 * r / 2 ∨ d > 2 * r / 4 from Or.inr (not_le.1 hn)),
      mul_div_mul_left d r (two_ne_zero)]

example : ∃ w, weight .parzen 3 2 0 = some w ∧ w < 0 := (C53_parzen_false 3 2 (by norm_num) (by norm_num)).1

/-- **C53** negation: the flat-top window is negative at the radius. -/
theorem C53_flat_top_false (r arg : ℝ) (hr : 0 < r) : ∃ w, weight .flatTop r r arg = some w ∧ w < 0 := by
  simp only [weight, flatTop, le_refl, if_true, quot_pos hr, Option.bind_eq_bind, Option.bind_some]
  refine ⟨_, rfl, ?_⟩
  rw [ratio_eq hr, div_self hr.ne', cos1, cos2, cos3, cos4, mul_one, cos_pi]
  norm_num

/-- **C53** negation: `window_function(…, wf='lanczos')` without an argument is accepted, and gives a weight to no
neighbour: 0 at every positive distance and NaN at the distance 0. -/
theorem C53_lanczos_default_false (r : ℝ) (hr : 0 < r) :
    coreWindowFunction (some "lanczos") none = .ok .lanczos ∧
    weight .lanczos 0 r (coreArg none) = none ∧
    ∀ d, 0 < d → weight .lanczos d r (coreArg none) = some 0 := by
  refine ⟨by simp [coreWindowFunction, fnOf, checkArg], ?_, fun d hd => ?_⟩
  · simp [weight, lanczos, coreArg, quot]
  · simp [weight, lanczos, coreArg, not_le.2 hd]

/-- The documented names of the window functions (rtree.py:341-378). -/
def wfDoc : List (String × Fn) :=
  [("blackman", .blackman), ("blackman_harris", .blackmanHarris), ("boxcar", .boxcar), ("flat_top", .flatTop),
   ("lanczos", .lanczos), ("gaussian", .gaussian), ("hamming", .hamming), ("nuttall", .nuttall), ("parzen", .parzen),
   ("parzen_swot", .parzenSwot)]

/-- **C53** Each documented name gives the function of that name, and every other text is refused. -/
theorem C53_table (s : String) (f : Fn) : fnOf s = some f ↔ (s, f) ∈ wfDoc := by
  constructor
  · intro h
    unfold fnOf at h
    repeat' split at h
    all_goals first
      | (cases h; subst_vars; decide)
      | (cases h)
  · intro h
    simp only [wfDoc, List.mem_cons, Prod.mk.injEq, List.not_mem_nil, or_false] at h
    rcases h with ⟨rfl, rfl⟩ | ⟨rfl, rfl⟩ | ⟨rfl, rfl⟩ | ⟨rfl, rfl⟩ | ⟨rfl, rfl⟩ | ⟨rfl, rfl⟩ | ⟨rfl, rfl⟩ | ⟨rfl, rfl⟩ |
      ⟨rfl, rfl⟩ | ⟨rfl, rfl⟩ <;> simp [fnOf]

/-- **C53** The functions that the Python interface accepts, with a meaningful argument (except for a null standard
deviation, and for `lanczos` without argument): the full list of the names. -/
theorem C53_names (s : String) (arg : Option ℝ) (f : Fn) (h : coreWindowFunction (some s) arg = .ok f) :
    ((s, f) ∈ wfDoc ∨ (s = "" ∧ f = .blackman)) ∧
    (f = .gaussian → arg ≠ none) ∧ (f = .lanczos → ∀ a, arg = some a → ArgOk f a) ∧
    (f = .parzen → ArgOk f (coreArg arg)) ∧
    (f ≠ .gaussian → f ≠ .lanczos → f ≠ .parzen → arg = none) := by
  have key : ∀ g, checkArg g arg = .ok f → g = f ∧
      (f = .gaussian → arg ≠ none) ∧ (f = .lanczos → ∀ a, arg = some a → ArgOk f a) ∧
      (f = .parzen → ArgOk f (coreArg arg)) ∧
      (f ≠ .gaussian → f ≠ .lanczos → f ≠ .parzen → arg = none) := by
    intro g h
    unfold checkArg at h
    cases arg with
    | none =>
      cases g <;> simp at h <;> (subst h; simp [coreArg, ArgOk])
    | some a =>
      cases g <;> simp at h <;> first
        | (subst h; simp)
        | (split at h
           · cases h
           · rename_i hn
             cases h
             simp [ArgOk, coreArg]
             linarith)
  unfold coreWindowFunction at h
  by_cases hs : s = ""
  · simp only [hs, if_true] at h
    have e : fnOf "blackman" = some .blackman := by simp [fnOf]
    rw [e] at h
    obtain ⟨k1, k2⟩ := key _ h
    exact ⟨Or.inr ⟨hs, k1.symm⟩, k2⟩
  · simp only [hs, if_false] at h
    cases hg : fnOf s with
    | none => rw [hg] at h; cases h
    | some g =>
      rw [hg] at h
      obtain ⟨k1, k2⟩ := key _ h
      exact ⟨Or.inl ((C53_table s f).1 (by rw [hg, k1])), k2⟩

example : coreWindowFunction (some "parzen") (some 2) = .ok .parzen ∧
    coreWindowFunction none none = .ok .blackman ∧ coreWindowFunction (some "hamming") (some 1) = .error .exn := by
  simp [coreWindowFunction, fnOf, checkArg]

end Pyinterp.WindowFunctions
