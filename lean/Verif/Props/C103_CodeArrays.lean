import Verif.Lemmas.GeohashWindow
import Verif.Spec.GeohashArray
import Verif.Lemmas.GridPy

/-
C103. `geohash.encode` and `geohash.decode` of arrays, element by element.
-/
set_option linter.unusedSectionVars false
namespace Pyinterp.Geohash
open Pyinterp Spec GridPy

variable {K : Type} [Field K] [LinearOrder K] [IsStrictOrderedRing K] [FloorRing K]

theorem mapM_forall₂ {α β : Type} {f : α → Out β} {l : List α} {r : List β} :
    l.mapM f = .ok r ↔ List.Forall₂ (fun a b => f a = .ok b) l r := by
  induction l generalizing r with
  | nil =>
    rw [List.mapM_nil, List.forall₂_nil_left_iff]
    constructor
    · intro h; exact (Except.ok.inj h).symm
    · rintro rfl; rfl
  | cons a l ih =>
    rw [List.mapM_cons, List.forall₂_cons_left_iff]
    constructor
    · intro h
      obtain ⟨b, hb, h⟩ := bind_inv h
      obtain ⟨r', hr', h⟩ := bind_inv h
      exact ⟨b, r', hb, ih.1 hr', (Except.ok.inj h).symm⟩
    · rintro ⟨b, r', hb, hr', rfl⟩
      rw [hb, ih.2 hr']
      rfl

/-- **C103** `decode` of an array of one dimension, of codes of at most 12 bytes: it succeeds exactly when each element is
decoded, and the result holds, in the order, what each element is decoded to. -/
theorem C103_decode (cpu : Cpu) (a : CodeArray) (h : Plain1 a) (round : Bool) (out : List (Point K)) :
    decodeArray cpu a round = .ok out ↔
      out.length = a.shape.1 ∧ ∀ i p, out[i]? = some p → strDecode cpu (elem1 a i) round = .ok p := by
  have hinfo : getInfo1 a = .ok () := by
    unfold getInfo1
    rw [h.contiguous, h.dims, h.bytes, h.stride]
    have := h.short
    simp [Nat.not_lt.2 this]
  unfold decodeArray
  rw [hinfo]
  simp only [bind, Except.bind]
  rw [mapM_forall₂, List.forall₂_iff_get]
  have hread : ∀ i, a.read (i * a.strides.1) a.strides.1 = elem1 a i := by
    intro i
    unfold CodeArray.read elem1
    rw [h.stride]
  constructor
  · rintro ⟨hl, hg⟩
    rw [List.length_range] at hl
    refine ⟨hl.symm, fun i p hp => ?_⟩
    obtain ⟨hi, rfl⟩ := List.getElem?_eq_some_iff.1 hp
    have := hg i (by rw [List.length_range, hl]; exact hi) hi
    simp only [List.get_eq_getElem, List.getElem_range] at this
    rw [hread] at this
    exact this
  · rintro ⟨hl, hg⟩
    refine ⟨by rw [List.length_range, hl], fun i h1 h2 => ?_⟩
    simp only [List.get_eq_getElem, List.getElem_range]
    rw [hread]
    exact hg i _ (List.getElem?_eq_some_iff.2 ⟨h2, rfl⟩)

theorem decode32_nul {n : Nat} {t : List Char} (h : IsCode n t) (u : List Char) :
    decode32 (t ++ '\x00' :: u) = decode32 t := by
  unfold decode32
  rw [decode32Go_append _ _ _ _ h.2]
  cases hd : decode32Go t 0#64 0 with
  | error e => rfl
  | ok r =>
    simp only [bind, Except.bind]
    rw [decode32Go, if_pos rfl]

theorem strDecode_nul (cpu : Cpu) {n : Nat} {t : List Char} (h : IsCode n t) (u : List Char) (round : Bool) :
    (strDecode cpu (t ++ '\x00' :: u) round : Out (Point K)) = strDecode cpu t round := by
  unfold strDecode strBoundingBox
  rw [decode32_nul h]

/-- **C103** Decoding an array of codes (each may be shorter than the elements, which are then padded with NULs) never fails:
the i-th point is what the i-th code is decoded to. -/
theorem C103_decode_total (cpu : Cpu) (a : CodeArray) (h : Plain1 a) (round : Bool) (t : Nat → List Char)
    (hc : ∀ i < a.shape.1, (∃ n, 1 ≤ n ∧ IsCode n (t i)) ∧ (elem1 a i = t i ∨ ∃ u, elem1 a i = t i ++ '\x00' :: u)) :
    ∃ out : List (Point K), decodeArray cpu a round = .ok out ∧ out.length = a.shape.1 ∧
      ∀ i p, out[i]? = some p → strDecode cpu (t i) round = .ok p := by
  have hel : ∀ i < a.shape.1, (strDecode cpu (elem1 a i) round : Out (Point K)) = strDecode cpu (t i) round := by
    intro i hi
    obtain ⟨⟨n, hn1, ht⟩, he⟩ := hc i hi
    rcases he with he | ⟨u, he⟩
    · rw [he]
    · rw [he]
      exact strDecode_nul cpu ht u round
  have key : ∀ i, ∃ p : Point K, i < a.shape.1 → strDecode cpu (t i) round = .ok p := by
    intro i
    by_cases hi : i < a.shape.1
    · obtain ⟨⟨n, hn1, ht⟩, he⟩ := hc i hi
      have hlen : (elem1 a i).length ≤ 12 := by
        unfold elem1
        rw [List.length_take]
        have := h.short
        omega
      have hn : n ≤ 12 := by
        have := ht.1
        rcases he with he | ⟨u, he⟩
        · rw [he] at hlen; omega
        · rw [he, List.length_append] at hlen; omega
      obtain ⟨w, i', j', e1, e2, rfl, hi', hj', e3⟩ := strBoundingBox_code (K := K) cpu ht hn1 hn
      unfold strDecode
      rw [e3]
      exact ⟨_, fun _ => rfl⟩
    · exact ⟨⟨0, 0⟩, fun hh => absurd hh hi⟩
  choose f hf using key
  have hout : ∀ i (p : Point K), ((List.range a.shape.1).map f)[i]? = some p → strDecode cpu (t i) round = .ok p ∧ i < a.shape.1 := by
    intro i p hp
    obtain ⟨hi, rfl⟩ := List.getElem?_eq_some_iff.1 hp
    have hi' : i < a.shape.1 := by simpa using hi
    simp only [List.getElem_map, List.getElem_range]
    exact ⟨hf i hi', hi'⟩
  refine ⟨(List.range a.shape.1).map f, ?_, by simp, fun i p hp => (hout i p hp).1⟩
  rw [C103_decode cpu a h round]
  refine ⟨by simp, fun i p hp => ?_⟩
  obtain ⟨h1, h2⟩ := hout i p hp
  rw [hel i h2]
  exact h1

/-- **C103** `encode` of arrays: it succeeds for coordinates on the Earth (any longitude) exactly when the sizes are the same,
and the i-th code is that of the i-th point. -/
theorem C103_encode (cpu : Cpu) (lon lat : List K) (n : Nat) (hn1 : 1 ≤ n) (hn : n ≤ 12) (hlat : ∀ y ∈ lat, -90 ≤ y ∧ y ≤ 90) :
    (lon.length ≠ lat.length → encodeArray cpu lon lat n = .error .exn) ∧
    (lon.length = lat.length → ∃ out, encodeArray cpu lon lat n = .ok out ∧ out.length = lon.length ∧
      ∀ (i : ℕ) (x y : K), lon[i]? = some x → lat[i]? = some y → ∃ s, out[i]? = some s ∧ strEncodeLonLat cpu x y n = .ok s ∧ IsCode n s) := by
  refine ⟨fun h => by unfold encodeArray; rw [if_neg (by omega), if_pos h], fun h => ?_⟩
  have key : ∀ q : K × K, ∃ s, q.2 ∈ lat → strEncodeLonLat cpu q.1 q.2 n = .ok s ∧ IsCode n s := by
    intro q
    by_cases hq : q.2 ∈ lat
    · have hE : OnEarth (⟨Math.normalizeAngleF q.1 (-180) 360, q.2⟩ : Point K) := by
        obtain ⟨a1, a2, -⟩ := Math.C01_normalize_angle q.1 (-180 : K) 360 (by norm_num)
        exact ⟨a1, by simp only; linarith, (hlat _ hq).1, (hlat _ hq).2⟩
      obtain ⟨i, j, a, b⟩ := onEarth_lies (p := 5 * n) hE
      refine ⟨encode32 (mkHash (5 * n) i j) n, fun _ => ⟨?_, isCode_encode32 _ _⟩⟩
      unfold strEncodeLonLat strEncode
      rw [encode_of_lies cpu (by omega) (by omega) a b]
      rfl
    · exact ⟨[], fun hh => absurd hh hq⟩
  choose f hf using key
  have hz : ∀ q ∈ lon.zip lat, q.2 ∈ lat := fun q hq => (List.of_mem_zip hq).2
  refine ⟨(lon.zip lat).map f, ?_, by simp [h], fun i x y hx hy => ?_⟩
  · unfold encodeArray
    rw [if_neg (by omega), if_neg (by simpa using h)]
    exact mapM_ok _ _ _ fun q hq => (hf q (hz q hq)).1
  · refine ⟨f (x, y), ?_, hf (x, y) (List.mem_of_getElem? hy)⟩
    rw [List.getElem?_map, (List.getElem?_zip_eq_some (z := (x, y))).2 ⟨hx, hy⟩]
    rfl

theorem elem1_arrayOf (n : Nat) (codes : List (List Char)) (hl : ∀ s ∈ codes, s.length = n) (i : Nat) (s : List Char)
    (hi : codes[i]? = some s) : elem1 (arrayOf n codes) i = s := by
  unfold elem1 arrayOf
  simp only
  induction codes generalizing i with
  | nil => simp at hi
  | cons c codes ih =>
    have hc := hl c (by simp)
    cases i with
    | zero =>
      simp only [List.getElem?_cons_zero, Option.some.injEq] at hi
      subst hi
      rw [Nat.zero_mul, List.drop_zero, List.flatten_cons, List.take_append_of_le_length (by omega),
        List.take_of_length_le (by omega)]
    | succ i =>
      rw [List.getElem?_cons_succ] at hi
      rw [List.flatten_cons, Nat.succ_mul, Nat.add_comm, ← List.drop_drop, List.drop_left' hc]
      exact ih (fun s hs => hl s (by simp [hs])) i hi

/-- **C103** Decoding the array of the codes of points gives, for each point, a point of its cell: encoding it again gives the
same code. -/
theorem C103_round_trip (cpu : Cpu) (lon lat : List K) (n : Nat) (hn1 : 1 ≤ n) (hn : n ≤ 12)
    (hlat : ∀ y ∈ lat, -90 ≤ y ∧ y ≤ 90) (hl : lon.length = lat.length) (round : Bool) :
    ∃ (codes : List (List Char)) (out : List (Point K)), encodeArray cpu lon lat n = .ok codes ∧ decodeArray cpu (arrayOf n codes) round = .ok out ∧
      out.length = lon.length ∧
      ∀ (i : ℕ) (p : Point K), out[i]? = some p → ∃ s, codes[i]? = some s ∧ strEncode cpu p n = .ok s := by
  obtain ⟨codes, hc, hcl, hce⟩ := (C103_encode cpu lon lat n hn1 hn hlat).2 hl
  have hcode : ∀ (i : ℕ) (s : List Char), codes[i]? = some s → IsCode n s := by
    intro i s hs
    obtain ⟨hi, -⟩ := List.getElem?_eq_some_iff.1 hs
    obtain ⟨s', h1, -, h2⟩ := hce i (lon[i]'(by omega)) (lat[i]'(by omega)) (by simp [List.getElem?_eq_getElem])
      (by simp [List.getElem?_eq_getElem])
    rw [hs] at h1
    cases h1
    exact h2
  have hlen : ∀ s ∈ codes, s.length = n := by
    intro s hs
    obtain ⟨i, hi⟩ := List.getElem?_of_mem hs
    exact (hcode i s hi).1
  obtain ⟨out, ho, hol, hoe⟩ := C103_decode_total (K := K) cpu (arrayOf n codes) ⟨rfl, rfl, rfl, rfl, hn⟩ round
    (fun i => codes.getD i []) (by
      intro i hi
      have hi' : i < codes.length := hi
      have hg : codes[i]? = some (codes.getD i []) := by
        rw [List.getD_eq_getElem?_getD, List.getElem?_eq_getElem hi']; rfl
      exact ⟨⟨n, hn1, hcode i _ hg⟩, Or.inl (elem1_arrayOf n codes hlen i _ hg)⟩)
  refine ⟨codes, out, hc, ho, by rw [hol]; exact hcl, fun i p hp => ?_⟩
  obtain ⟨hi, -⟩ := List.getElem?_eq_some_iff.1 hp
  have hi' : i < codes.length := by rw [hol] at hi; exact hi
  have hg : codes[i]? = some (codes.getD i []) := by
    rw [List.getD_eq_getElem?_getD, List.getElem?_eq_getElem hi']; rfl
  refine ⟨_, hg, ?_⟩
  have hd := hoe i p hp
  obtain ⟨w, i', j', e1, e2, rfl, hi2, hj2, e3⟩ := strBoundingBox_code (K := K) cpu (hcode i _ hg) hn1 hn
  unfold strDecode at hd
  rw [e3] at hd
  simp only [bind, Except.bind, pure, Except.pure] at hd
  obtain ⟨a, b⟩ := decode_lies (K := K) hi2 hj2 round
  rw [Except.ok.inj hd] at a b
  unfold strEncode
  have : encode cpu p (5 * n) = _ := encode_of_lies cpu (by omega) (by omega : 5 * n ≤ 64) a b
  rw [this]
  simp only [bind, Except.bind, pure, Except.pure]
  rw [e2]

/-- Arrays of another kind, or whose elements are longer than 12 bytes, are refused. -/
theorem C103_refused (cpu : Cpu) (a : CodeArray) (round : Bool)
    (h : a.contiguous = false ∨ a.ndim ≠ 1 ∨ a.bytes = false ∨ 12 < a.strides.1) :
    (decodeArray cpu a round : Out (List (Point K))) = .error .exn := by
  have : getInfo1 a = .error .exn := by
    unfold getInfo1
    by_cases h1 : a.contiguous = false
    · rw [h1]; rfl
    · rw [Bool.not_eq_false] at h1
      rw [h1]
      simp only [Bool.not_true, Bool.false_eq_true, if_false]
      by_cases h2 : a.ndim ≠ 1
      · rw [if_pos h2]
      · rw [if_neg h2]
        by_cases h3 : a.bytes = false
        · rw [h3]; rfl
        · rw [Bool.not_eq_false] at h3
          rw [h3]
          simp only [Bool.not_true, Bool.false_eq_true, if_false]
          rw [if_pos]
          rcases h with h | h | h | h
          · rw [h1] at h; cases h
          · exact absurd h h2
          · rw [h3] at h; cases h
          · exact h
  unfold decodeArray
  rw [this]; rfl

/-- Precisions above 12 are refused by `encode`; 0 is not, and shifts by 64 bits (undefined behaviour). -/
theorem C103_precision (cpu : Cpu) (lon lat : List K) (n : Nat) :
    (12 < n → encodeArray cpu lon lat n = .error .exn) ∧
    (∀ x y : K, encodeArray .bmi2 [x] [y] 0 = .error .ub) := by
  constructor
  · intro h
    unfold encodeArray
    rw [if_pos h]
  · intro x y; rfl

/-- An element that is an empty text is not refused: the decoding shifts by 64 bits (undefined behaviour). A character that is
not one of the alphabet is an error, wherever it is before the first NUL. -/
theorem C103_bad_element (cpu : Cpu) (round : Bool) (u : List Char) :
    (strDecode cpu ('\x00' :: u) round : Out (Point K)) = .error .ub ∧
    ∀ s : List Char, (∃ c ∈ s.takeWhile (· ≠ '\x00'), c ∉ "0123456789bcdefghjkmnpqrstuvwxyz".toList) →
      (strDecode cpu s round : Out (Point K)) = .error .exn := by
  constructor
  · rfl
  · rintro s ⟨c, h1, h2⟩
    have hv : validate s = false := by
      rw [← Bool.not_eq_true, validate_iff]
      intro hall
      exact h2 (hall c h1)
    rcases decode32Go_iff s 0#64 0 with ⟨-, h⟩ | ⟨h, -⟩
    · rw [hv] at h; cases h
    · unfold strDecode strBoundingBox decode32
      rw [h]
      rfl

/-- The hypotheses are met: two codes, the second one padded. -/
example : Plain1 (arrayOf 3 [['e', 'z', 's'], ['u', '\x00', '\x00']]) ∧
    IsCode 3 ['e', 'z', 's'] ∧ IsCode 1 ['u'] ∧
    elem1 (arrayOf 3 [['e', 'z', 's'], ['u', '\x00', '\x00']]) 1 = ['u'] ++ '\x00' :: ['\x00'] ∧
    (∃ out : List (Point ℚ), decodeArray .bmi2 (arrayOf 3 [['e', 'z', 's'], ['u', '\x00', '\x00']]) false = .ok out ∧
      out.length = 2) := by
  refine ⟨⟨rfl, rfl, rfl, rfl, by decide⟩, by decide, by decide, rfl, ?_⟩
  exact ⟨[⟨-4.921875, 42.890625⟩, ⟨22.5, 67.5⟩], by decide +kernel, rfl⟩

end Pyinterp.Geohash
