import Verif.Lemmas.GeohashGrid
import Verif.Props.C01_Angle
import Mathlib.Data.Rat.Floor
import Mathlib.Data.List.Lex
import Mathlib.Data.Char

/-
C28: zoom in / zoom out. C60: decoding then encoding. C61: enumeration of the cells of
a box.
-/
namespace Pyinterp
open Geohash Spec

variable {K : Type} [Field K] [LinearOrder K] [IsStrictOrderedRing K] [FloorRing K]

/-- `s` is a geohash code of `n` characters. -/
def Spec.IsCode (n : Nat) (s : List Char) : Prop :=
  s.length = n ∧ ∀ c ∈ s, c ∈ "0123456789bcdefghjkmnpqrstuvwxyz".toList

instance (n : Nat) (s : List Char) : Decidable (Spec.IsCode n s) := by
  unfold Spec.IsCode; infer_instance

theorem isCode_hash {n : Nat} {s : List Char} (h : IsCode n s) (hn : n ≤ 12) :
    ∃ w : BitVec 64, decode32 s = .ok (w, n) ∧ w.toNat < 2 ^ (5 * n) ∧ encode32 w n = s := by
  obtain ⟨h1, h2⟩ := h
  subst h1
  exact decode32_of_mem s h2 hn

theorem isCode_encode32 (n : Nat) (w : BitVec 64) : IsCode n (encode32 w n) :=
  ⟨encode32_length n w, encode32_mem n w⟩

theorem encode32_inj {n : Nat} {v w : BitVec 64} (hv : v.toNat < 2 ^ (5 * n))
    (hw : w.toNat < 2 ^ (5 * n)) (h : encode32 v n = encode32 w n) : v = w := by
  have a := decode32_encode32 v n hv
  rw [h, decode32_encode32 w n hw] at a
  have := Except.ok.inj a
  simp only [Prod.mk.injEq, and_true] at this
  exact this.symm

theorem strBoundingBox_code (cpu : Cpu) {n : Nat} {s : List Char} (h : IsCode n s) (hn1 : 1 ≤ n)
    (hn : n ≤ 12) :
    ∃ w i j, decode32 s = .ok (w, n) ∧ encode32 w n = s ∧ w = mkHash (5 * n) i j ∧
      i < 2 ^ lonBits (5 * n) ∧ j < 2 ^ latBits (5 * n) ∧
      strBoundingBox cpu s = .ok (cellBox (5 * n) i j : Box K) := by
  obtain ⟨w, e1, e2, e3⟩ := isCode_hash h hn
  obtain ⟨i, j, hi, hj, rfl⟩ := exists_mkHash (5 * n) w (by omega) (by omega) e2
  refine ⟨_, i, j, e1, e3, rfl, hi, hj, ?_⟩
  unfold strBoundingBox
  rw [e1]
  exact boundingBox_mkHash cpu (by omega) (by omega) hi hj

/-- The codes produced for one code. -/
theorem zoomIn_one (cpu : Cpu) {f t : Nat} {s : List Char} (h : IsCode f s) (hf : 1 ≤ f)
    (hft : f < t) (ht : t ≤ 12) :
    ∃ l : List (List Char),
      (do let box : Box K ← strBoundingBox cpu s
          let hs ← boundingBoxes cpu box (t * 5)
          return hs.map fun h => encode32 h t) = Except.ok l ∧
      l.length = 2 ^ (5 * (t - f)) ∧ l.Nodup ∧
      ∀ u, u ∈ l ↔ IsCode t u ∧ u.take f = s := by
  obtain ⟨w, i, j, e1, e2, rfl, hi, hj, e3⟩ := strBoundingBox_code (K := K) cpu h hf (by omega)
  have hLq : lonBits (5 * f) ≤ lonBits (t * 5) := by unfold lonBits; omega
  have hBq : latBits (5 * f) ≤ latBits (t * 5) := by unfold latBits; omega
  have hsL : 2 ^ lonBits (t * 5) = 2 ^ lonBits (5 * f) * 2 ^ (lonBits (t * 5) - lonBits (5 * f)) := by
    rw [← pow_add]; congr 1; omega
  have hsB : 2 ^ latBits (t * 5) = 2 ^ latBits (5 * f) * 2 ^ (latBits (t * 5) - latBits (5 * f)) := by
    rw [← pow_add]; congr 1; omega
  have hb := boundingBoxes_cell (K := K) cpu (q := 5 * f) (p := t * 5) (by omega) (by omega)
    (by omega) hi hj
  rw [e3]
  simp only [bind, Except.bind, hb, pure, Except.pure]
  have hmem := mem_gridCells_prefix (q := 5 * f) (p := t * 5) (by omega) (by omega) (by omega) hi hj
  have hnd := nodup_gridCells (p := t * 5) (i0 := i * 2 ^ (lonBits (t * 5) - lonBits (5 * f)))
    (j0 := j * 2 ^ (latBits (t * 5) - latBits (5 * f)))
    (ni := 2 ^ (lonBits (t * 5) - lonBits (5 * f))) (nj := 2 ^ (latBits (t * 5) - latBits (5 * f)))
    (by omega) (by omega) (by rw [hsL, ← Nat.succ_mul]; exact Nat.mul_le_mul_right _ hi)
    (by rw [hsB, ← Nat.succ_mul]; exact Nat.mul_le_mul_right _ hj)
  refine ⟨_, rfl, ?_, ?_, ?_⟩
  · rw [List.length_map, length_gridCells, ← pow_add]
    congr 1
    unfold lonBits latBits
    omega
  · apply List.Nodup.map_on _ hnd
    intro x hx y hy e
    exact encode32_inj (by rw [Nat.mul_comm]; exact ((hmem x).1 hx).1)
      (by rw [Nat.mul_comm]; exact ((hmem y).1 hy).1) e
  · intro u
    rw [List.mem_map]
    have htake : ∀ v : BitVec 64, (encode32 v t).take f = encode32 (v >>> (t * 5 - 5 * f)) f := by
      intro v
      have := encode32_take f (t - f) v
      rw [show f + (t - f) = t by omega, show 5 * (t - f) = t * 5 - 5 * f by omega] at this
      exact this
    constructor
    · rintro ⟨v, hv, rfl⟩
      obtain ⟨_, h2⟩ := (hmem v).1 hv
      refine ⟨isCode_encode32 t v, ?_⟩
      rw [htake, h2, e2]
    · rintro ⟨hu, hpre⟩
      obtain ⟨v, d1, d2, d3⟩ := isCode_hash hu ht
      refine ⟨v, (hmem v).2 ⟨by rw [Nat.mul_comm]; exact d2, ?_⟩, d3⟩
      rw [← d3, htake, ← e2] at hpre
      refine encode32_inj ?_ (shift_mkHash_lt _ _ _ (by omega)) hpre
      rw [shift5]
      apply Nat.div_lt_of_lt_mul
      rw [← pow_add, show t * 5 - 5 * f + 5 * f = 5 * t by omega]
      exact d2

theorem mapM_exists {α β : Type} (f : α → Out β) (P : α → β → Prop) (l : List α)
    (h : ∀ a ∈ l, ∃ b, f a = .ok b ∧ P a b) :
    ∃ r, l.mapM f = .ok r ∧ List.Forall₂ P l r := by
  induction l with
  | nil => exact ⟨[], rfl, .nil⟩
  | cons a l ih =>
    obtain ⟨b, e, hb⟩ := h a (by simp)
    obtain ⟨r, e', hr⟩ := ih fun b hb => h b (by simp [hb])
    refine ⟨b :: r, ?_, .cons hb hr⟩
    rw [List.mapM_cons, e, e']
    rfl

/-- C28: zooming codes of `f` characters in to `t` characters enumerates the codes of
`t` characters that have one of the codes as prefix; there are `32^(t-f)` of them for
each code, and no duplicate if there was none. -/
theorem C28_zoom_in (cpu : Cpu) (codes : List (List Char)) (f t : Nat) (hf : 1 ≤ f) (hft : f < t)
    (ht : t ≤ 12) (hc : ∀ s ∈ codes, IsCode f s) :
    ∃ out, transform K cpu codes f t = .ok out ∧
      out.length = codes.length * 32 ^ (t - f) ∧
      (∀ u, u ∈ out ↔ IsCode t u ∧ u.take f ∈ codes) ∧
      (codes.Nodup → out.Nodup) := by
  obtain ⟨parts, e, hp⟩ := mapM_exists _ (fun s l => List.length l = 2 ^ (5 * (t - f)) ∧ l.Nodup ∧
    ∀ u, u ∈ l ↔ IsCode t u ∧ u.take f = s) codes
    (fun s hs => zoomIn_one (K := K) cpu (hc s hs) hf hft ht)
  have hlen : parts.flatten.length = codes.length * 2 ^ (5 * (t - f)) := by
    clear e hc
    induction hp with
    | nil => simp
    | cons h _ ih =>
      rw [List.flatten_cons, List.length_append, ih, h.1, List.length_cons]; ring
  have hmem : ∀ u, u ∈ parts.flatten ↔ IsCode t u ∧ u.take f ∈ codes := by
    clear e hc hlen
    induction hp with
    | nil => simp
    | cons h _ ih =>
      intro u
      rw [List.flatten_cons, List.mem_append, ih, (h.2.2 u), List.mem_cons]
      tauto
  have hnd : codes.Nodup → parts.flatten.Nodup := by
    clear e hc hlen hmem
    induction hp with
    | nil => simp
    | @cons s l codes parts h hrest ih =>
      intro hn
      rw [List.nodup_cons] at hn
      rw [List.flatten_cons, List.nodup_append']
      refine ⟨h.2.1, ih hn.2, ?_⟩
      intro u hu hv
      have h1 := ((h.2.2 u).1 hu).2
      have : u.take f ∈ codes := by
        clear ih hn h hu h1
        induction hrest with
        | nil => simp at hv
        | cons h' _ ih' =>
          rw [List.flatten_cons, List.mem_append] at hv
          rcases hv with hv | hv
          · rw [((h'.2.2 u).1 hv).2]; simp
          · exact List.mem_cons_of_mem _ (ih' hv)
      rw [h1] at this
      exact hn.1 this
  refine ⟨parts.flatten, ?_, by rw [hlen, pow32], hmem, hnd⟩
  unfold transform
  rw [if_neg (by omega), if_neg (by omega), if_neg (by omega), if_neg (by omega)]
  unfold zoomIn
  rw [e]
  simp only [bind, Except.bind, hlen, lt_irrefl, if_false, Nat.sub_self, List.replicate_zero,
    List.append_nil, pure, Except.pure]

example : IsCode 1 ['z'] ∧ IsCode 1 ['0'] ∧ ([['z'], ['0']] : List (List Char)).Nodup := by
  refine ⟨by decide, by decide, by decide⟩

theorem setInsert_mem (s : List Char) (l : List (List Char)) (u : List Char) :
    u ∈ setInsert s l ↔ u = s ∨ u ∈ l := by
  induction l with
  | nil => simp [setInsert]
  | cons t l ih =>
    rw [setInsert]
    split
    · next h => subst h; simp
    · split
      · simp
      · rw [List.mem_cons, ih, List.mem_cons]; tauto

theorem setInsert_sorted (s : List Char) (l : List (List Char)) (h : l.Pairwise (· < ·)) :
    (setInsert s l).Pairwise (· < ·) := by
  induction l with
  | nil => simp [setInsert]
  | cons t l ih =>
    rw [List.pairwise_cons] at h
    rw [setInsert]
    split
    · exact List.pairwise_cons.2 h
    · next hne =>
      split
      · next hlt =>
        refine List.pairwise_cons.2 ⟨?_, List.pairwise_cons.2 h⟩
        intro u hu
        rw [List.mem_cons] at hu
        rcases hu with rfl | hu
        · exact hlt
        · exact lt_trans hlt (h.1 u hu)
      · next hnlt =>
        have : t < s := lt_of_le_of_ne (not_lt.1 hnlt) (fun e => hne e.symm)
        refine List.pairwise_cons.2 ⟨?_, ih h.2⟩
        intro u hu
        rw [setInsert_mem] at hu
        rcases hu with rfl | hu
        · exact this
        · exact h.1 u hu

theorem foldl_setInsert (out : List (List Char)) : ∀ acc : List (List Char),
    acc.Pairwise (· < ·) →
    (out.foldl (fun set s => setInsert s set) acc).Pairwise (· < ·) ∧
    ∀ u, u ∈ out.foldl (fun set s => setInsert s set) acc ↔ u ∈ out ∨ u ∈ acc := by
  induction out with
  | nil => intro acc h; simp [h]
  | cons s out ih =>
    intro acc h
    obtain ⟨a, b⟩ := ih (setInsert s acc) (setInsert_sorted s acc h)
    refine ⟨a, ?_⟩
    intro u
    rw [List.foldl_cons, b, setInsert_mem, List.mem_cons]
    tauto

/-- C28: zooming codes of `f` characters out to `t` characters gives their prefixes,
in increasing order and without duplicates. -/
theorem C28_zoom_out (cpu : Cpu) (codes : List (List Char)) (f t : Nat) (ht : 1 ≤ t) (htf : t < f)
    (hf : f ≤ 12) (hc : ∀ s ∈ codes, IsCode f s) :
    ∃ out, transform K cpu codes f t = .ok out ∧ out.Pairwise (· < ·) ∧
      ∀ u, u ∈ out ↔ ∃ s ∈ codes, u = s.take t := by
  have key : ∀ s ∈ codes, (do
      let p : Point K ← strDecode cpu s false
      strEncode cpu p t) = Except.ok (s.take t) := by
    intro s hs
    obtain ⟨w, i, j, e1, e2, rfl, hi, hj, e3⟩ :=
      strBoundingBox_code (K := K) cpu (hc s hs) (by omega) hf
    have hL : lonBits (5 * t) ≤ lonBits (5 * f) := by unfold lonBits; omega
    have hB : latBits (5 * t) ≤ latBits (5 * f) := by unfold latBits; omega
    unfold strDecode strEncode
    rw [e3]
    simp only [bind, Except.bind, pure, Except.pure, Bool.false_eq_true, if_false, cellBox_centroid]
    have a := lies_coarse (by norm_num) hL (mid_lies (r := (180 : K)) (by norm_num) hi)
    have b := lies_coarse (by norm_num) hB (mid_lies (r := (90 : K)) (by norm_num) hj)
    rw [encode_of_lies cpu (by omega) (by omega) a b]
    simp only
    rw [← mkHash_shift (by omega) (by omega) (by omega) hi hj, ← e2]
    have := encode32_take t (f - t) (mkHash (5 * f) i j)
    rw [show t + (f - t) = f by omega, show 5 * (f - t) = 5 * f - 5 * t by omega] at this
    rw [this]
  have hm := mapM_ok (fun s => (do
      let p : Point K ← strDecode cpu s false
      strEncode cpu p t : Out (List Char))) (fun s => s.take t) codes key
  obtain ⟨a, b⟩ := foldl_setInsert (codes.map fun s => s.take t) [] List.Pairwise.nil
  refine ⟨_, ?_, a, ?_⟩
  · unfold transform
    rw [if_neg (by omega), if_neg (by omega), if_neg (by omega), if_pos (by omega)]
    unfold zoomOut
    rw [hm]
    rfl
  · intro u
    rw [b]
    simp only [List.mem_map, List.not_mem_nil, or_false]
    constructor
    · rintro ⟨s, hs, rfl⟩; exact ⟨s, hs, rfl⟩
    · rintro ⟨s, hs, rfl⟩; exact ⟨s, hs, rfl⟩

example : IsCode 3 ['e', 'z', '7'] := by decide

/-- C28: zooming in then out gives back the codes, sorted and without duplicates. -/
theorem C28_zoom_in_out (cpu : Cpu) (codes : List (List Char)) (f t : Nat) (hf : 1 ≤ f) (hft : f < t)
    (ht : t ≤ 12) (hc : ∀ s ∈ codes, IsCode f s) :
    ∃ fine back, transform K cpu codes f t = .ok fine ∧ transform K cpu fine t f = .ok back ∧
      back.Pairwise (· < ·) ∧ ∀ u, u ∈ back ↔ u ∈ codes := by
  obtain ⟨fine, e1, _, hm, _⟩ := C28_zoom_in (K := K) cpu codes f t hf hft ht hc
  obtain ⟨back, e2, hs, hb⟩ := C28_zoom_out (K := K) cpu fine t f hf hft ht
    fun s hs => ((hm s).1 hs).1
  refine ⟨fine, back, e1, e2, hs, ?_⟩
  intro u
  rw [hb]
  constructor
  · rintro ⟨s, h1, rfl⟩
    exact ((hm s).1 h1).2
  · intro hu
    obtain ⟨w, d1, d2, d3⟩ := isCode_hash (hc u hu) (by omega)
    have hlen := (hc u hu).1
    refine ⟨u ++ List.replicate (t - f) '0', ?_, by rw [← hlen, List.take_left]⟩
    rw [hm]
    refine ⟨⟨by rw [List.length_append, List.length_replicate, hlen]; omega, ?_⟩, ?_⟩
    · intro c hcc
      rw [List.mem_append, List.mem_replicate] at hcc
      rcases hcc with hcc | ⟨_, rfl⟩
      · exact (hc u hu).2 c hcc
      · decide
    · rw [← hlen, List.take_left]; exact hu

/-- C28, where it stops: an array may contain codes shorter than its element size (numpy
pads them with NUL); zooming in then writes out of the bounds of the result. -/
theorem C28_short_code_overflow :
    transform ℚ .bmi2 [['z', '\x00']] 2 3 = .error .ub := by decide +kernel

end Pyinterp
