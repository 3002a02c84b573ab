import Verif.Props.C90_Crossover
import Verif.Props.C01_Angle

/-
C91, C92: the crossover of two half-orbits and the list of all their crossovers
(lib/geodetic/crossover.cpp, detail/geometry/crossover.hpp:123-196).
-/
namespace Pyinterp.Crossover

open Spec

set_option linter.unusedSectionVars false

variable {K : Type} [Field K] [LinearOrder K] [IsStrictOrderedRing K] [FloorRing K]

/-! ### nearest point -/

theorem sqDist_eq (p q : Pt K) : sqDist p q = d2 p q := by unfold sqDist d2; ring

theorem nearestLoop_spec (q : Pt K) : ∀ (l : Line K) (pre : Line K) (best : Option K) (index : Nat),
    (pre = [] → best = none) →
    (pre ≠ [] → ∃ p, best = some (sqDist p q) ∧ pre[index]? = some p ∧ (∀ r ∈ pre, d2 p q ≤ d2 r q) ∧
      (∀ j r, j < index → pre[j]? = some r → d2 p q < d2 r q)) →
    pre ++ l ≠ [] → FirstNearest (pre ++ l) q (nearestLoop q l pre.length best index) := by
  intro l
  induction l with
  | nil =>
    intro pre best index _ h2 hne
    simp only [List.append_nil] at hne ⊢
    obtain ⟨p, -, a, b, c⟩ := h2 hne
    exact ⟨p, a, b, c⟩
  | cons x l ih =>
    intro pre best index h1 h2 _
    have hpl : pre ++ x :: l = (pre ++ [x]) ++ l := by simp
    rw [hpl]
    unfold nearestLoop
    simp only
    have hlen : (pre ++ [x]).length = pre.length + 1 := by simp
    split
    · next hlt =>
      rw [← hlen]
      refine ih (pre ++ [x]) _ _ (by simp) (fun _ => ⟨x, rfl, by simp, ?_, ?_⟩) (by simp)
      · intro r hr
        rw [List.mem_append] at hr
        rcases hr with hr | hr
        · have hne : pre ≠ [] := List.ne_nil_of_mem hr
          obtain ⟨p, hb, -, hmin, -⟩ := h2 hne
          rw [hb] at hlt
          simp only [closer, decide_eq_true_eq, sqDist_eq] at hlt
          exact le_trans hlt.le (hmin r hr)
        · simp only [List.mem_singleton] at hr
          subst hr
          exact le_refl _
      · intro j r hj hr
        rw [List.getElem?_append_left hj] at hr
        have hm := List.mem_of_getElem? hr
        have hne : pre ≠ [] := List.ne_nil_of_mem hm
        obtain ⟨p, hb, -, hmin, -⟩ := h2 hne
        rw [hb] at hlt
        simp only [closer, decide_eq_true_eq, sqDist_eq] at hlt
        exact lt_of_lt_of_le hlt (hmin r hm)
    · next hlt =>
      have hne : pre ≠ [] := by
        intro h
        rw [h1 h] at hlt
        simp [closer] at hlt
      obtain ⟨p, hb, hi, hmin, hfirst⟩ := h2 hne
      rw [hb] at hlt
      simp only [closer, decide_eq_true_eq, sqDist_eq, not_lt] at hlt
      rw [← hlen]
      have hil : index < pre.length := (List.getElem?_eq_some_iff.1 hi).1
      refine ih (pre ++ [x]) _ _ (by simp) (fun _ => ⟨p, hb, ?_, ?_, ?_⟩) (by simp)
      · rw [List.getElem?_append_left hil]; exact hi
      · intro r hr
        rw [List.mem_append] at hr
        rcases hr with hr | hr
        · exact hmin r hr
        · simp only [List.mem_singleton] at hr
          subst hr
          exact hlt
      · intro j r hj hr
        rw [List.getElem?_append_left (by omega)] at hr
        exact hfirst j r hj hr

/-- C91: the measurement associated with a crossing point is the nearest one of the line, the first one
if several are at the same distance. -/
theorem C91_nearest (l : Line K) (q : Pt K) (h : l ≠ []) : FirstNearest l q (nearestPoint l q) := by
  have := nearestLoop_spec q l [] none 0 (fun _ => rfl) (fun h => absurd rfl h) (by simpa using h)
  simpa [nearestPoint] using this

example : FirstNearest ([(0, 0), (3, 1), (1, 1), (1, 1)] : Line ℚ) (1, 2) 2 := by
  have h := C91_nearest ([(0, 0), (3, 1), (1, 1), (1, 1)] : Line ℚ) (1, 2) (by simp)
  rwa [show nearestPoint ([(0, 0), (3, 1), (1, 1), (1, 1)] : Line ℚ) (1, 2) = 2 by decide +kernel] at h

theorem far_iff (d : Option K) (x : K) : far d x = true ↔ TooFar d x := by
  cases d with
  | none => simp [far, TooFar]
  | some v => simp [far, TooFar]

theorem rd_ok {T : Type} {l : List T} {i : Nat} {v : T} (h : l[i]? = some v) : rd l (i : Int) = .ok v := by
  unfold rd
  rw [if_neg (by omega)]
  simp [h]

theorem getElem?_isSome {T : Type} {l : List T} {i : Nat} (h : i < l.length) : ∃ v, l[i]? = some v :=
  ⟨l[i], List.getElem?_eq_getElem h⟩

/-- one point of the plane -/
theorem planePoint_spec (dist : Pt K → Pt K → Option K) (lon1 lat1 lon2 lat2 : List K) (limit : K) (L1 L2 : Line K)
    (q : Pt K) (h1 : lon1.length = lat1.length) (h2 : lon2.length = lat2.length) (hl1 : L1.length = lon1.length)
    (hl2 : L2.length = lon2.length) (n1 : L1 ≠ []) (n2 : L2 ≠ []) :
    ∃ r, planePoint dist lon1 lat1 lon2 lat2 limit L1 L2 q = .ok r ∧
      PlaneOutcome dist lon1 lat1 lon2 lat2 limit L1 L2 q r := by
  have f1 := C91_nearest L1 q n1
  have f2 := C91_nearest L2 q n2
  have b1 : nearestPoint L1 q < L1.length := by
    obtain ⟨p, h, -⟩ := f1; exact (List.getElem?_eq_some_iff.1 h).1
  have b2 : nearestPoint L2 q < L2.length := by
    obtain ⟨p, h, -⟩ := f2; exact (List.getElem?_eq_some_iff.1 h).1
  obtain ⟨x1, hx1⟩ := getElem?_isSome (l := lon1) (i := nearestPoint L1 q) (by omega)
  obtain ⟨y1, hy1⟩ := getElem?_isSome (l := lat1) (i := nearestPoint L1 q) (by omega)
  obtain ⟨x2, hx2⟩ := getElem?_isSome (l := lon2) (i := nearestPoint L2 q) (by omega)
  obtain ⟨y2, hy2⟩ := getElem?_isSome (l := lat2) (i := nearestPoint L2 q) (by omega)
  obtain ⟨a, b, k, hk⟩ := Math.C01_normalize_angle q.1 (-180) 360 (by norm_num)
  have hn : Normalized q (Math.normalizeAngleF q.1 (-180) 360, q.2) :=
    ⟨⟨k, hk⟩, a, by simp only; linarith, rfl⟩
  set p : Pt K := (Math.normalizeAngleF q.1 (-180) 360, q.2) with hp
  have hf1 : far (dist p (x1, y1)) limit = true ↔ _ := far_iff (dist p (x1, y1)) limit
  have hf2 : far (dist p (x2, y2)) limit = true ↔ _ := far_iff (dist p (x2, y2)) limit
  have he : planePoint dist lon1 lat1 lon2 lat2 limit L1 L2 q =
      .ok (if far (dist p (x1, y1)) limit then none
        else if far (dist p (x2, y2)) limit then none else some (p, nearestPoint L1 q, nearestPoint L2 q)) := by
    unfold planePoint
    simp only [rd_ok hx1, rd_ok hy1, rd_ok hx2, rd_ok hy2, bind, Except.bind, pure, Except.pure, ← hp]
    split
    · rfl
    · split <;> rfl
  refine ⟨_, he, p, _, _, x1, y1, x2, y2, hn, f1, f2, hx1, hy1, hx2, hy2, ?_, ?_⟩
  · rintro (h | h)
    · rw [if_pos (hf1.2 h)]
    · split
      · rfl
      · rw [if_pos (hf2.2 h)]
  · intro h h'
    rw [if_neg (fun c => h (hf1.1 c)), if_neg (fun c => h' (hf2.1 c))]

/-! ### search -/

theorem search_nil : search ([] : Line K) = .ok none := rfl

theorem dedup_length_one {l : Line K} {q : Pt K} (hne : l ≠ []) (h : ∀ x ∈ l, x = q) : (List.dedup l).length = 1 := by
  have hs : List.dedup l = [q] := by
    have hsub : ∀ x ∈ List.dedup l, x = q := fun x hx => h x (List.mem_dedup.1 hx)
    have hnd := List.nodup_dedup l
    match hd : List.dedup l with
    | [] => exact absurd ((List.dedup_eq_nil l).1 hd) hne
    | [a] => rw [hd] at hsub; rw [hsub a (by simp)]
    | a :: b :: t =>
      rw [hd] at hsub hnd
      have e1 := hsub a (by simp)
      have e2 := hsub b (by simp)
      simp [e1, e2] at hnd
  rw [hs]; rfl

/-- C91, the search among the points of the intersection: the common point, or an exception as soon as two
points differ. -/
theorem search_same {l : Line K} {q : Pt K} (hq : q ∈ l) (h : ∀ x ∈ l, x = q) : search l = .ok (some q) := by
  cases l with
  | nil => simp at hq
  | cons p rest =>
    have hp : p = q := h p (by simp)
    have hd := dedup_length_one (l := p :: rest) (by simp) h
    unfold search
    simp only [hd]
    subst hp
    split <;> simp

theorem search_diff {l : Line K} {a b : Pt K} (ha : a ∈ l) (hb : b ∈ l) (h : a ≠ b) : search l = .error .exn := by
  cases l with
  | nil => simp at ha
  | cons p rest =>
    have hr : rest.length + 1 ≠ 1 := by
      intro hr
      have : rest = [] := List.eq_nil_of_length_eq_zero (by omega)
      subst this
      simp at ha hb
      exact h (ha.trans hb.symm)
    have hd : (List.dedup (p :: rest)).length ≠ 1 := by
      intro hd
      obtain ⟨c, hc⟩ := List.length_eq_one_iff.1 hd
      have h1 : a ∈ List.dedup (p :: rest) := List.mem_dedup.2 ha
      have h2 : b ∈ List.dedup (p :: rest) := List.mem_dedup.2 hb
      rw [hc] at h1 h2
      simp at h1 h2
      exact h (h1.trans h2.symm)
    unfold search
    simp only
    rw [if_pos hr, if_pos hd]

/-! ### the half-orbits given to the search -/

theorem lineString_ok {lon lat : List K} (h : lon.length = lat.length) : lineString lon lat = .ok (lon.zip lat) := by
  unfold lineString Shapes.checkEigen
  simp [h, bind, Except.bind, pure, Except.pure]

theorem checkSize_ok {a b : Nat} (h : a = b) : Shapes.checkSize a b = .ok () := by
  unfold Shapes.checkSize; simp [h]

theorem zip_fst {lon lat : List K} (h : lon.length = lat.length) : (lon.zip lat).map Prod.fst = lon := by
  rw [List.map_fst_zip]; omega

theorem zip_snd {lon lat : List K} (h : lon.length = lat.length) : (lon.zip lat).map Prod.snd = lat := by
  rw [List.map_snd_zip]; omega

theorem line_eq_zip {l : Line K} {a b : List K} (h1 : l.map Prod.fst = a) (h2 : l.map Prod.snd = b) : l = a.zip b := by
  subst h1; subst h2
  exact (List.zip_of_prod rfl rfl)

/-- The lines used by the plane search, for tracks that together span less than one turn. -/
theorem plane_lines (w s1 s2 : K) (u1 u2 lon1 lat1 lon2 lat2 : List K) (h1 : lon1.length = lat1.length)
    (h2 : lon2.length = lat2.length) (r1 : Recorded w u1 lon1) (r2 : Recorded w u2 lon2) (t1 : Track u1) (t2 : Track u2)
    (n1 : 3 ≤ lon1.length) (n2 : 3 ≤ lon2.length) (p1 : Spans u1 s1) (p2 : Spans u2 s2) (hs : s1 + s2 < 360) :
    ∃ (k1 k2 : ℤ) (B : K),
      normalize (lon1.zip lat1) (lon2.zip lat2) =
        .ok ((u1.map fun t => t + (k1 : K) * 360).zip lat1, (u2.map fun t => t + (k2 : K) * 360).zip lat2) ∧
      (∀ t ∈ u1, B - 360 < t + (k1 : K) * 360 ∧ t + (k1 : K) * 360 ≤ B) ∧
      (∀ t ∈ u2, B - 360 < t + (k2 : K) * 360 ∧ t + (k2 : K) * 360 ≤ B) := by
  have z1 : (lon1.zip lat1).length = lon1.length := by simp [h1]
  have z2 : (lon2.zip lat2).length = lon2.length := by simp [h2]
  obtain ⟨k1, k2, B, l1', l2', he, a1, b1, a2, b2, hw⟩ := C90_unrolled w s1 s2 u1 u2 (lon1.zip lat1) (lon2.zip lat2)
    (by rwa [zip_fst h1]) (by rwa [zip_fst h2]) t1 t2 (by omega) (by omega) p1 p2 hs
  rw [zip_snd h1] at b1
  rw [zip_snd h2] at b2
  refine ⟨k1, k2, B, ?_, ?_, ?_⟩
  · rw [he, line_eq_zip a1 b1, line_eq_zip a2 b2]
  · intro t ht
    have : t + (k1 : K) * 360 ∈ l1'.map Prod.fst := by rw [a1]; exact List.mem_map.2 ⟨t, ht, rfl⟩
    obtain ⟨p, hp, hpe⟩ := List.mem_map.1 this
    rw [← hpe]
    exact hw p (List.mem_append.2 (Or.inl hp))
  · intro t ht
    have : t + (k2 : K) * 360 ∈ l2'.map Prod.fst := by rw [a2]; exact List.mem_map.2 ⟨t, ht, rfl⟩
    obtain ⟨p, hp, hpe⟩ := List.mem_map.1 this
    rw [← hpe]
    exact hw p (List.mem_append.2 (Or.inr hp))

/-- C91, plane search, end to end: for two half-orbits given by the recorded longitudes of tracks that
together span less than one turn, the crossing points are those of the continuous tracks (each shifted by
whole turns into a common window of one turn). None: the result is `None`. Two different ones: an
exception. Otherwise the point with its longitude in [-180, 180) and the indices of the nearest
measurements, unless one of these is farther than the limit. -/
theorem C91_crossover_plane (interP interG : Line K → Line K → Line K) (near : Line K → Pt K → Option Nat)
    (dist : Pt K → Pt K → Option K) (limit : K)
    (w s1 s2 : K) (u1 u2 lon1 lat1 lon2 lat2 : List K) (h1 : lon1.length = lat1.length)
    (h2 : lon2.length = lat2.length) (r1 : Recorded w u1 lon1) (r2 : Recorded w u2 lon2) (t1 : Track u1) (t2 : Track u2)
    (n1 : 3 ≤ lon1.length) (n2 : 3 ≤ lon2.length) (p1 : Spans u1 s1) (p2 : Spans u2 s2) (hs : s1 + s2 < 360) :
    ∃ (k1 k2 : ℤ) (B : K) (L1 L2 : Line K),
      L1 = (u1.map fun t => t + (k1 : K) * 360).zip lat1 ∧ L2 = (u2.map fun t => t + (k2 : K) * 360).zip lat2 ∧
      (∀ p ∈ L1 ++ L2, B - 360 < p.1 ∧ p.1 ≤ B) ∧
      (interP L1 L2 = [] → crossover interP interG near dist lon1 lat1 lon2 lat2 limit true = .ok none) ∧
      ((∃ a ∈ interP L1 L2, ∃ b ∈ interP L1 L2, a ≠ b) →
        crossover interP interG near dist lon1 lat1 lon2 lat2 limit true = .error .exn) ∧
      (∀ q ∈ interP L1 L2, (∀ q' ∈ interP L1 L2, q' = q) →
        ∃ r, crossover interP interG near dist lon1 lat1 lon2 lat2 limit true = .ok r ∧
          PlaneOutcome dist lon1 lat1 lon2 lat2 limit L1 L2 q r) := by
  obtain ⟨k1, k2, B, he, w1, w2⟩ := plane_lines w s1 s2 u1 u2 lon1 lat1 lon2 lat2 h1 h2 r1 r2 t1 t2 n1 n2 p1 p2 hs
  have hu1 : u1.length = lon1.length := List.Forall₂.length_eq r1
  have hu2 : u2.length = lon2.length := List.Forall₂.length_eq r2
  refine ⟨k1, k2, B, _, _, rfl, rfl, ?_, ?_, ?_, ?_⟩
  · intro p hp
    rw [List.mem_append] at hp
    rcases hp with hp | hp
    · have := (List.of_mem_zip (a := p.1) (b := p.2) hp).1
      obtain ⟨t, ht, hte⟩ := List.mem_map.1 this
      rw [← hte]; exact w1 t ht
    · have := (List.of_mem_zip (a := p.1) (b := p.2) hp).1
      obtain ⟨t, ht, hte⟩ := List.mem_map.1 this
      rw [← hte]; exact w2 t ht
  · intro hi
    unfold crossover
    simp only [checkSize_ok h1, checkSize_ok h2, lineString_ok h1, lineString_ok h2, he, bind, Except.bind, pure,
      Except.pure, if_true, hi, search_nil]
  · rintro ⟨a, ha, b, hb, hab⟩
    unfold crossover
    simp only [checkSize_ok h1, checkSize_ok h2, lineString_ok h1, lineString_ok h2, he, bind, Except.bind, pure,
      Except.pure, if_true, search_diff ha hb hab]
  · intro q hq hall
    have hs := search_same hq hall
    set L1 := (u1.map fun t => t + (k1 : K) * 360).zip lat1 with hL1
    set L2 := (u2.map fun t => t + (k2 : K) * 360).zip lat2 with hL2
    have lL1 : L1.length = lon1.length := by simp [hL1]; omega
    have lL2 : L2.length = lon2.length := by simp [hL2]; omega
    have hp := planePoint_spec dist lon1 lat1 lon2 lat2 limit L1 L2 q h1 h2 lL1 lL2
      (by intro h; rw [h] at lL1; simp at lL1; omega) (by intro h; rw [h] at lL2; simp at lL2; omega)
    have : crossover interP interG near dist lon1 lat1 lon2 lat2 limit true =
        planePoint dist lon1 lat1 lon2 lat2 limit L1 L2 q := by
      unfold crossover
      simp only [checkSize_ok h1, checkSize_ok h2, lineString_ok h1, lineString_ok h2, he, bind, Except.bind, pure,
        Except.pure, if_true, hs]
    rw [this]
    exact hp

/-- A toy intersection and a toy distance for the examples. -/
def exInter (l1 _l2 : Line ℚ) : Line ℚ := match l1 with | [] => [] | p :: _ => [(p.1 + 13, p.2 + 15)]
def exDist (p q : Pt ℚ) : Option ℚ := some (d2 p q)

example : crossover exInter exInter (fun _ _ => none) exDist [170, 175, -175, -170] [0, 10, 20, 30] [-165, -180, 165]
    [0, 15, 30] 1000 true = .ok (some ((-177, 15), 2, 1)) := by decide +kernel

example := C91_crossover_plane exInter exInter (fun _ _ => none) exDist 1000 (-180) 20 30 exTrack1 exTrack2
  [170, 175, -175, -170] [0, 10, 20, 30] [-165, -180, 165] [0, 15, 30] rfl rfl ex_recorded1 ex_recorded2 ex_track1
  ex_track2 (by decide) (by decide) ex_spans1 ex_spans2 (by norm_num)

end Pyinterp.Crossover
