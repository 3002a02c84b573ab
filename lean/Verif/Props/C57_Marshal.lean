import Verif.Lemmas.Marshal
import Verif.Spec.Buffer

/-
C57. The serialised histograms: what is written can be read, truncated buffers are refused,
and when a buffer may be read without leaving it.
-/
set_option linter.unusedVariables false
set_option linter.unusedSimpArgs false
namespace Pyinterp.Marshal
open Pyinterp.Streaming Pyinterp.Spec

variable {K : Type}

/-! ### One histogram -/

/-- **C57** A histogram is read back from its bytes, whatever follows them. -/
theorem C57_hist (c : Codec K) (maxAlloc : Nat) (h : Hist K) (hs : Storable c maxAlloc h) (trailing : List UInt8) :
    decode c maxAlloc (encode c h ++ trailing) = .ok h := decode_encode c maxAlloc h hs trailing

/-- **C57** The bytes of a histogram cut anywhere are refused with an exception. -/
theorem C57_hist_truncated (c : Codec K) (maxAlloc : Nat) (h : Hist K) (hs : Storable c maxAlloc h) (t : List UInt8)
    (ht : t <+: encode c h) (hne : t ≠ encode c h) : decode c maxAlloc t = .error .exn := by
  have := (decodeFrom_reads c maxAlloc h hs).2 _ t (At_open t) ht hne
  simp only [decode, this, ok_bind, error_bind]

/-- A reader that stays in the view. -/
def Safe {α : Type} (p : IStream → Out (α × IStream)) : Prop :=
  ∀ s t, At s t → p s = .error .exn ∨ ∃ a s' t', p s = .ok (a, s') ∧ At s' t'

theorem read_at (n : Nat) (s : IStream) (t : List UInt8) (h : At s t) :
    (t.length < n ∧ s.read n = .error .exn) ∨
    (n ≤ t.length ∧ s.read n = .ok (t.take n, ⟨s.data, s.pos + n⟩) ∧ At ⟨s.data, s.pos + n⟩ (t.drop n)) := by
  by_cases hn : n ≤ t.length
  · right
    obtain ⟨s', h1, h2⟩ := (read_reads' n (t.take n) (by simp [hn])).1 s (t.drop n) (by simpa using h)
    have h3 : s' = ⟨s.data, s.pos + n⟩ := by
      unfold IStream.read at h1
      split at h1
      · cases h1
      · dsimp only at h1
        split at h1
        · cases h1
        · simp only [Except.ok.injEq, Prod.mk.injEq] at h1
          exact h1.2.symm
    exact ⟨hn, h3 ▸ h1, h3 ▸ h2⟩
  · left
    obtain ⟨h0, h1, h2⟩ := h
    refine ⟨by omega, ?_⟩
    unfold IStream.read
    rw [if_neg (by omega), h2]
    dsimp only
    rw [if_pos (by omega)]

theorem read_safe (n : Nat) : Safe (IStream.read n) := by
  intro s t h
  rcases read_at n s t h with ⟨_, h1⟩ | ⟨_, h1, h2⟩
  · exact .inl h1
  · exact .inr ⟨_, _, _, h1, h2⟩

theorem Safe.andThen {α β : Type} {p : IStream → Out (α × IStream)} {f : α → IStream → Out (β × IStream)} (hp : Safe p)
    (hf : ∀ a, Safe (f a)) : Safe (andThen p f) := by
  intro s t h
  unfold Marshal.andThen
  rcases hp s t h with h1 | ⟨a, s', t', h1, h2⟩
  · left; simp only [h1, ok_bind, error_bind]
  · simp only [h1, ok_bind, error_bind]
    exact hf a s' t' h2

theorem ok_safe {α : Type} (a : α) : Safe (fun s => .ok (a, s)) := fun s t h => .inr ⟨a, s, t, rfl, h⟩

theorem unsigned_eq (l : List UInt8) : leValue l = unsigned l := by
  induction l with
  | nil => rfl
  | cons b l ih => simp [leValue, unsigned, ih, Nat.ofDigits_cons]

/-- **C57** Whatever the bytes, if the first one is 0 or 1 the constructor does not leave the view: a histogram or an exception. -/
theorem C57_hist_safe (c : Codec K) (maxAlloc : Nat) (l : List UInt8) (hb : ∀ b, l[0]? = some b → b ≤ 1) :
    decode c maxAlloc l = .error .exn ∨ ∃ h, decode c maxAlloc l = .ok h := by
  have key : decodeFrom c maxAlloc (IStream.open l) = .error .exn ∨ ∃ h s, decodeFrom c maxAlloc (IStream.open l) = .ok (h, s) := by
    rw [decodeFrom_eq]
    unfold andThen
    rcases read_at 1 _ l (At_open l) with ⟨_, h1⟩ | ⟨h0, h1, h2⟩
    · left; simp only [h1, ok_bind, error_bind]
    · match l, h0 with
      | b :: l, h0 =>
      have hb' := hb b rfl
      have hbool : ∃ w, toBool (List.take 1 (b :: l)) = .ok w := by
        have : b.toNat ≤ 1 := by exact_mod_cast (UInt8.le_iff_toNat_le.1 hb')
        unfold toBool
        simp only [List.take_succ_cons, List.take_zero, leValue, Nat.mul_zero, Nat.add_zero]
        have h01 : b.toNat = 0 ∨ b.toNat = 1 := by omega
        rcases h01 with h | h <;> rw [h]
        · exact ⟨false, rfl⟩
        · exact ⟨true, rfl⟩
      obtain ⟨w, hw⟩ := hbool
      simp only [h1, hw, ok_bind, error_bind]
      have hs : Safe (andThen (IStream.read 8) fun binCount => andThen (IStream.read 8) fun count =>
          andThen (IStream.read c.size) fun mn => andThen (IStream.read c.size) fun mx => andThen (IStream.read 8) fun size s =>
          if maxAlloc < leValue size then .error .exn
          else andThen (IStream.read (leValue size * (2 * c.size))) (fun bins s => .ok ((⟨w, leValue binCount, leValue count, c.dec mn, c.dec mx,
            decodeBins c (leValue size) bins⟩ : Hist K), s)) s) := by
        refine (read_safe 8).andThen fun _ => (read_safe 8).andThen fun _ => (read_safe _).andThen fun _ => (read_safe _).andThen fun _ =>
          (read_safe 8).andThen fun size => ?_
        intro s t h
        dsimp only
        by_cases hm : maxAlloc < leValue size
        · rw [if_pos hm]; exact .inl rfl
        · rw [if_neg hm]; exact (read_safe _).andThen (fun _ => ok_safe _) s t h
      rcases hs _ _ h2 with h3 | ⟨a, s', t', h3, _⟩
      · exact .inl h3
      · exact .inr ⟨a, s', h3⟩
  rcases key with h | ⟨a, s, h⟩
  · left; simp only [decode, h, ok_bind, error_bind]
  · right; exact ⟨a, by simp only [decode, h, ok_bind, error_bind, ok_pure]⟩

/-! ### Vectors of histograms -/

/-- **C57** The histograms are read back from the bytes, whatever follows them. -/
theorem C57_roundtrip_partial (c : Codec K) (maxAlloc : Nat) (l : List (Hist K)) (hn : l.length < 2 ^ 63) (hm : l.length ≤ maxAlloc)
    (hs : ∀ h ∈ l, Storable c maxAlloc h) (hl : ∀ h ∈ l, (encode c h).length < 2 ^ 31) (trailing : List UInt8) :
    unmarshal c maxAlloc (marshal c l ++ trailing) = .ok l := by
  have h8 : leValue (leBytes 8 l.length) = l.length := leValue_leBytes 8 _ (by omega)
  obtain ⟨s, h1, h2⟩ := (read_reads' 8 (leBytes 8 l.length) (leBytes_length _ _)).1 (IStream.open (marshal c l ++ trailing))
    (l.flatMap (encodeItem c) ++ trailing) (by
      have := At_open (marshal c l ++ trailing)
      unfold marshal at this ⊢
      rwa [List.append_assoc] at this)
  obtain ⟨s', h3, _⟩ := (decodeItems_reads c maxAlloc l hs hl).1 s trailing h2
  rw [unmarshal_eq c maxAlloc _ _ _ _ h1 h8 hn hm, h3, ok_bind]

/-- **C57** A buffer cut anywhere is refused with an exception. -/
theorem C57_truncated_partial (c : Codec K) (maxAlloc : Nat) (l : List (Hist K)) (hn : l.length < 2 ^ 63) (hm : l.length ≤ maxAlloc)
    (hs : ∀ h ∈ l, Storable c maxAlloc h) (hl : ∀ h ∈ l, (encode c h).length < 2 ^ 31) (t : List UInt8) (ht : t <+: marshal c l)
    (hne : t ≠ marshal c l) : unmarshal c maxAlloc t = .error .exn := by
  have h8 : leValue (leBytes 8 l.length) = l.length := leValue_leBytes 8 _ (by omega)
  have hr : Reads (andThen (IStream.read 8) fun size s =>
      if toStreamsize (leValue size) < 0 then .error .ub else if maxAlloc < leValue size then .error .exn
      else decodeItems c maxAlloc (leValue size) s) l (marshal c l) := by
    refine Reads.bind (read_reads' 8 (leBytes 8 l.length) (leBytes_length _ _)) ?_
    simp only [h8, toStreamsize_small _ hn, if_neg (show ¬ (l.length : Int) < 0 by omega), if_neg (not_lt.2 hm)]
    exact decodeItems_reads c maxAlloc l hs hl
  have h := hr.2 (IStream.open t) t (At_open t) ht hne
  unfold unmarshal
  unfold andThen at h
  cases he : (IStream.open t).read 8 with
  | error e => rw [he, error_bind] at h; rw [error_bind]; exact congrArg _ (by cases h; rfl)
  | ok r =>
    rw [he, ok_bind] at h
    rw [ok_bind]
    dsimp only at h ⊢
    split at h
    · cases h
    · rename_i hneg
      rw [if_neg hneg]
      split at h
      · rename_i hbig; rw [if_pos hbig]
      · rename_i hbig; rw [if_neg hbig, h, error_bind]

theorem decodeItem_safe (c : Codec K) (maxAlloc : Nat) (s : IStream) (t : List UInt8) (h : At s t) (hlen : s.data.length < 2 ^ 31)
    (n : Nat) (hz : Sized (n + 1) t) :
    decodeItem c maxAlloc s = .error .exn ∨
    ∃ a s', decodeItem c maxAlloc s = .ok (a, s') ∧ s'.data = s.data ∧ ∃ t', At s' t' ∧ Sized n t' := by
  rw [decodeItem_eq]
  unfold andThen
  rcases read_at 8 s t h with ⟨_, h1⟩ | ⟨h0, h1, h2⟩
  · left; simp only [h1, ok_bind, error_bind]
  · obtain ⟨hk, hz'⟩ := hz h0
    simp only [h1, ok_bind, error_bind]
    rw [unsigned_eq]
    generalize hkk : unsigned (List.take 8 t) = k at *
    rw [toStreamsize_small _ hk]
    have htl : t.length ≤ s.data.length := by
      obtain ⟨_, _, h3⟩ := h
      have := congrArg List.length h3; simp at this; omega
    by_cases hfit : 8 + k ≤ t.length
    · obtain ⟨hb, hz2⟩ := hz' hfit
      have hview := (readview_reads ((t.drop 8).take k) (by simp; omega)).1 ⟨s.data, s.pos + (8 : Nat)⟩ (t.drop (8 + k)) (by
        rw [← List.drop_drop, List.take_append_drop]; exact h2)
      have hlk : ((t.drop 8).take k).length = k := by simp; omega
      rw [hlk] at hview
      obtain ⟨s', h3, h4⟩ := hview
      rw [h3, ok_bind]
      have hd := C57_hist_safe c maxAlloc ((t.drop 8).take k) (by
        intro b hb'
        by_cases hk0 : 0 < k
        · apply hb hk0 b
          rw [List.getElem?_take_of_lt hk0, List.getElem?_drop] at hb'
          simpa using hb'
        · simp [Nat.eq_zero_of_not_pos hk0] at hb')
      have hdata : s'.data = s.data := by
        unfold IStream.readview at h3
        split at h3
        · cases h3
        · split at h3
          · cases h3
          · dsimp only at h3
            split at h3
            · cases h3
            · simp only [Except.ok.injEq, Prod.mk.injEq] at h3
              rw [← h3.2]
      rcases hd with hd | ⟨a, hd⟩
      · left; simp only [hd, error_bind]
      · right
        exact ⟨a, s', by simp only [hd, ok_bind], hdata, _, h4, hz2⟩
    · left
      have : IStream.readview (k : Int) ⟨s.data, s.pos + (8 : Nat)⟩ = .error .exn := by
        obtain ⟨h5, h6, h7⟩ := h2
        unfold IStream.readview
        simp only at h5 h6 h7 ⊢
        rw [if_neg (by omega), if_neg (by omega), h7, if_pos (by simp; omega)]
      rw [this, error_bind]

theorem decodeItems_safe (c : Codec K) (maxAlloc : Nat) (n : Nat) (s : IStream) (t : List UInt8) (h : At s t) (hlen : s.data.length < 2 ^ 31)
    (hz : Sized n t) : decodeItems c maxAlloc n s = .error .exn ∨ ∃ a s', decodeItems c maxAlloc n s = .ok (a, s') := by
  induction n generalizing s t with
  | zero => exact .inr ⟨[], s, rfl⟩
  | succ n ih =>
    rcases decodeItem_safe c maxAlloc s t h hlen n hz with h1 | ⟨a, s', h1, hd, t', h2, h3⟩
    · left; simp only [decodeItems, h1, ok_bind, error_bind]
    · rcases ih s' t' h2 (by rw [hd]; exact hlen) h3 with h4 | ⟨b, s'', h4⟩
      · left; simp only [decodeItems, h1, h4, ok_bind, error_bind]
      · right; exact ⟨a :: b, s'', by simp only [decodeItems, h1, h4, ok_bind, error_bind, ok_pure]⟩

/-- **C57** A buffer below 2 GiB, whatever its content, is read without leaving it — histograms or an exception — if the sizes it
announces are below 2^63 and the histograms start with 0 or 1. -/
theorem C57_safe_partial (c : Codec K) (maxAlloc : Nat) (l : List UInt8) (hlen : l.length < 2 ^ 31) (ha : Announced l) :
    unmarshal c maxAlloc l = .error .exn ∨ ∃ hs, unmarshal c maxAlloc l = .ok hs := by
  rcases read_at 8 _ l (At_open l) with ⟨_, h1⟩ | ⟨h0, h1, h2⟩
  · left; simp only [unmarshal, h1, ok_bind, error_bind]
  · obtain ⟨hk, hz⟩ := ha h0
    by_cases hm : maxAlloc < unsigned (l.take 8)
    · left
      unfold unmarshal
      rw [h1, ok_bind]
      simp only [unsigned_eq]
      rw [if_neg (not_negative _ hk), if_pos hm]
    · rw [unmarshal_eq c maxAlloc _ _ _ _ h1 (unsigned_eq _) hk (by omega)]
      rcases decodeItems_safe c maxAlloc _ _ _ h2 hlen hz with h3 | ⟨a, s', h3⟩
      · left; rw [h3, error_bind]
      · right; exact ⟨a, by rw [h3, ok_bind]⟩

theorem toStreamsize_negative (n : Nat) (h : 2 ^ 63 ≤ n) (h2 : n < 2 ^ 64) : toStreamsize n < 0 := by
  unfold toStreamsize
  rw [Int.bmod_def]
  have : (n : Int) % ((2 ^ 64 : Nat) : Int) = n := Int.emod_eq_of_lt (by omega) (by push_cast; exact_mod_cast h2)
  rw [this, if_neg (by push_cast; omega)]
  push_cast; omega

/-- **C57, the part that fails** A buffer that announces one histogram of 2^63 bytes or more is not refused: the code builds a view
outside of the buffer, whatever the bytes that follow. -/
theorem C57_negative_false (c : Codec K) (maxAlloc : Nat) (hm : 1 ≤ maxAlloc) (n : Nat) (h : 2 ^ 63 ≤ n) (h2 : n < 2 ^ 64) (r : List UInt8) :
    unmarshal c maxAlloc (leBytes 8 1 ++ (leBytes 8 n ++ r)) = .error .ub := by
  obtain ⟨s, h1, h3⟩ := (read_reads' 8 (leBytes 8 1) (leBytes_length _ _)).1 _ _ (At_open (leBytes 8 1 ++ (leBytes 8 n ++ r)))
  obtain ⟨s', h4, h5⟩ := (read_reads' 8 (leBytes 8 n) (leBytes_length _ _)).1 _ _ h3
  have e1 : leValue (leBytes 8 1) = 1 := by decide
  have e2 : leValue (leBytes 8 n) = n := leValue_leBytes 8 _ (by omega)
  have e3 : toStreamsize 1 = 1 := toStreamsize_small 1 (by norm_num)
  rw [unmarshal_eq c maxAlloc _ _ _ _ h1 e1 (by norm_num) hm]
  have : s'.readview (toStreamsize n) = .error .ub := by
    unfold IStream.readview
    rw [if_neg (by have := h5.1; have := h5.2.1; omega), if_pos (toStreamsize_negative n h h2)]
  simp only [decodeItems, decodeItem, h4, ok_bind, error_bind, e2, this]

theorem toInt_large (n : Nat) (h : 2 ^ 31 ≤ n) (h2 : n < 2 ^ 32) : toInt n = (n : Int) - 2 ^ 32 := by
  unfold toInt
  rw [Int.bmod_def]
  have : (n : Int) % ((2 ^ 32 : Nat) : Int) = n := Int.emod_eq_of_lt (by omega) (by push_cast; exact_mod_cast h2)
  rw [this, if_neg (by push_cast; omega)]
  push_cast; ring

theorem readview_large (s : IStream) (b r : List UInt8) (h : At s (b ++ r)) (hl : 2 ^ 31 ≤ b.length) (hl2 : b.length < 2 ^ 32) :
    IStream.readview b.length s = .ok (b, ⟨s.data, s.pos + ((b.length : Int) - 2 ^ 32)⟩) := by
  obtain ⟨h6, h7, h8⟩ := h
  unfold IStream.readview
  rw [if_neg (by omega), if_neg (by omega), h8]
  have hmin : min (b.length : Int) ((b ++ r).length : Int) = b.length := by simp
  dsimp only
  rw [hmin, toInt_large _ hl hl2, if_neg (by simp)]
  simp

/-- **C57, the part that fails** A histogram whose bytes number from 2^31 to 2^32 - 17 (134 million bins of two doubles) cannot be
followed by another one: the conversion to `int` moves the pointer backwards, before the beginning of the buffer. -/
theorem C57_large_false (c : Codec K) (maxAlloc : Nat) (hm : 2 ≤ maxAlloc) (h g : Hist K) (hs : Storable c maxAlloc h)
    (hl : 2 ^ 31 ≤ (encode c h).length) (hl2 : (encode c h).length < 2 ^ 32 - 16) :
    unmarshal c maxAlloc (marshal c [h, g]) = .error .ub := by
  have e1 : leValue (leBytes 8 2) = 2 := by decide
  have e2 : leValue (leBytes 8 (encode c h).length) = (encode c h).length := leValue_leBytes 8 _ (by omega)
  have hmar : marshal c [h, g] = leBytes 8 2 ++ (leBytes 8 (encode c h).length ++ (encode c h ++ encodeItem c g)) := by
    simp [marshal, encodeItem]
  rw [hmar]
  generalize hd : leBytes 8 2 ++ (leBytes 8 (encode c h).length ++ (encode c h ++ encodeItem c g)) = data
  rcases read_at 8 _ data (At_open data) with ⟨hc, _⟩ | ⟨_, h1, h3⟩
  · rw [← hd] at hc; simp [leBytes_length] at hc
  have t1 : data.take 8 = leBytes 8 2 := by rw [← hd, List.take_append_of_le_length (by simp [leBytes_length])]; rfl
  have d1 : data.drop 8 = leBytes 8 (encode c h).length ++ (encode c h ++ encodeItem c g) := by
    rw [← hd, List.drop_append_of_le_length (by simp [leBytes_length])]; simp [leBytes]
  rw [d1] at h3
  rw [t1] at h1
  rcases read_at 8 _ _ h3 with ⟨hc, _⟩ | ⟨_, h4, h5⟩
  · simp [leBytes_length] at hc
  have t2 : List.take 8 (leBytes 8 (encode c h).length ++ (encode c h ++ encodeItem c g)) = leBytes 8 (encode c h).length := by
    rw [List.take_append_of_le_length (by simp [leBytes_length]), List.take_of_length_le (by simp [leBytes_length])]
  have d2 : List.drop 8 (leBytes 8 (encode c h).length ++ (encode c h ++ encodeItem c g)) = encode c h ++ encodeItem c g := by
    rw [List.drop_append_of_le_length (by simp [leBytes_length]), List.drop_of_length_le (by simp [leBytes_length]), List.nil_append]
  rw [d2] at h5
  rw [t2] at h4
  have hview := readview_large _ _ _ h5 hl (by omega)
  have hdec : decode c maxAlloc (encode c h) = .ok h := by simpa using decode_encode c maxAlloc h hs []
  have hitem : decodeItem c maxAlloc ⟨(IStream.open data).data, (IStream.open data).pos + ((8 : Nat) : Int)⟩ =
      .ok (h, ⟨data, 16 + (((encode c h).length : Int) - 2 ^ 32)⟩) := by
    rw [decodeItem_eq]
    unfold andThen
    rw [h4, ok_bind]
    dsimp only
    rw [e2, toStreamsize_small _ (by omega), hview, ok_bind]
    dsimp only
    rw [hdec, ok_bind]
    have hp : (IStream.open data).pos + ((8 : Nat) : Int) + ((8 : Nat) : Int) = 16 := by simp [IStream.open]
    rw [hp]; rfl
  rw [unmarshal_eq c maxAlloc _ _ _ _ h1 e1 (by norm_num) hm]
  have hr : IStream.read 8 ⟨data, 16 + (((encode c h).length : Int) - 2 ^ 32)⟩ = .error .ub := by
    unfold IStream.read
    rw [if_pos (by left; simp only; omega)]
  have hitem2 : decodeItem c maxAlloc ⟨data, 16 + (((encode c h).length : Int) - 2 ^ 32)⟩ = .error .ub := by
    rw [decodeItem_eq]
    unfold andThen
    rw [hr, error_bind]
  simp only [decodeItems, hitem, ok_bind, hitem2, error_bind]

/-! ### Pickling -/

/-- **C57** A vector of histograms survives pickling. -/
theorem C57_pickle (c : Codec K) (maxAlloc : Nat) (v : Streams K) (hn : v.accumulators.length < 2 ^ 63)
    (hm : v.accumulators.length ≤ maxAlloc) (hs : ∀ h ∈ v.accumulators, Storable c maxAlloc h)
    (hl : ∀ h ∈ v.accumulators, (encode c h).length < 2 ^ 31) :
    Streams.setstate c maxAlloc (v.getstate c) = .ok v := by
  have := C57_roundtrip_partial c maxAlloc v.accumulators hn hm hs hl []
  simp only [List.append_nil] at this
  simp only [Streams.setstate, Streams.getstate, this, ok_bind, error_bind, ok_pure]

/-- **C57, the part that fails** The shape of a state is not compared with its number of histograms: a state with a larger shape is
accepted, and the first statistic asked for reads outside of the accumulators. -/
theorem C57_shape_false {A : Type} (c : Codec K) (maxAlloc : Nat) (l : List (Hist K)) (hn : l.length < 2 ^ 63) (hm : l.length ≤ maxAlloc)
    (hs : ∀ h ∈ l, Storable c maxAlloc h) (hl : ∀ h ∈ l, (encode c h).length < 2 ^ 31) (shape : List Nat) (hshape : l.length < shape.prod)
    (f : Hist K → Out A) (hf : ∀ h ∈ l, ∃ a, f h = .ok a) :
    ∃ v, Streams.setstate c maxAlloc (shape, marshal c l) = .ok v ∧ v.statistics f = .error .ub := by
  have h0 := C57_roundtrip_partial c maxAlloc l hn hm hs hl []
  simp only [List.append_nil] at h0
  refine ⟨⟨l, shape⟩, by simp only [Streams.setstate, h0, ok_bind, error_bind, ok_pure], ?_⟩
  unfold Streams.statistics
  simp only
  have key : ∀ n, l.length < n → (List.range n).mapM (fun (k : Nat) => (do let a ← rd l k; f a : Out A)) = .error .ub := by
    intro n
    induction n with
    | zero => intro h; omega
    | succ n ih =>
      intro h
      rw [List.range_succ, List.mapM_append]
      by_cases hn : l.length < n
      · rw [ih hn]; rfl
      · have hn' : n = l.length := by omega
        subst hn'
        have hgood : ∃ r, (List.range l.length).mapM (fun (k : Nat) => (do let a ← rd l k; f a : Out A)) = .ok r := by
          have : ∀ ks : List Nat, (∀ k ∈ ks, k < l.length) →
              ∃ r, ks.mapM (fun (k : Nat) => (do let a ← rd l k; f a : Out A)) = .ok r := by
            intro ks
            induction ks with
            | nil => intro _; exact ⟨[], rfl⟩
            | cons k ks ih2 =>
              intro hk
              obtain ⟨r, hr⟩ := ih2 (fun x hx => hk x (List.mem_cons_of_mem _ hx))
              have hkl := hk k (by simp)
              obtain ⟨a, ha⟩ := hf l[k] (List.getElem_mem _)
              refine ⟨a :: r, ?_⟩
              have hrd : rd l (k : Int) = .ok l[k] := by
                unfold rd
                rw [if_neg (by omega)]
                simp [List.getElem?_eq_getElem hkl]
              rw [List.mapM_cons, hrd, hr]
              simp only [ok_bind, error_bind, ha, ok_pure]
          exact this _ (fun k hk => by simpa using hk)
        obtain ⟨r, hr⟩ := hgood
        rw [hr]
        have hrd : rd l (l.length : Int) = .error .ub := by
          unfold rd
          rw [if_neg (by omega)]
          simp
        simp only [List.mapM_cons, hrd, ok_bind, error_bind]
  exact key _ hshape

/-! ### Matrices of histograms -/

/-- **C57** The cells of a matrix of histograms are read back from the bytes, whatever follows them. -/
theorem C57_matrix (c : Codec K) (maxAlloc rows cols : Nat) (cells : List (Hist K)) (hr : rows < 2 ^ 63) (hc : cols < 2 ^ 63)
    (hlen : cells.length = rows * cols) (hs : ∀ h ∈ cells, Storable c maxAlloc h)
    (hl : ∀ h ∈ cells, (encode c h).length < 2 ^ 31) (trailing : List UInt8) :
    unmarshal2D c maxAlloc rows cols (marshal2D c rows cols cells ++ trailing) = .ok cells := by
  obtain ⟨s', h1, _⟩ := (reader2D_reads c maxAlloc rows cols cells hr hc hlen hs hl).1 _ trailing (At_open _)
  rw [unmarshal2D_eq, h1, ok_bind]

/-- **C57** The bytes of a matrix of histograms cut anywhere are refused with an exception. -/
theorem C57_matrix_truncated (c : Codec K) (maxAlloc rows cols : Nat) (cells : List (Hist K)) (hr : rows < 2 ^ 63) (hc : cols < 2 ^ 63)
    (hlen : cells.length = rows * cols) (hs : ∀ h ∈ cells, Storable c maxAlloc h)
    (hl : ∀ h ∈ cells, (encode c h).length < 2 ^ 31) (t : List UInt8) (ht : t <+: marshal2D c rows cols cells)
    (hne : t ≠ marshal2D c rows cols cells) : unmarshal2D c maxAlloc rows cols t = .error .exn := by
  rw [unmarshal2D_eq, (reader2D_reads c maxAlloc rows cols cells hr hc hlen hs hl).2 _ t (At_open t) ht hne, error_bind]

/-- **C57** The bytes of a matrix of another shape are refused with an exception, even if the number of cells is the same. -/
theorem C57_matrix_shape (c : Codec K) (maxAlloc rows cols rows' cols' : Nat) (cells : List (Hist K)) (hr : rows < 2 ^ 63) (hc : cols < 2 ^ 63)
    (hne : (rows, cols) ≠ (rows', cols')) : unmarshal2D c maxAlloc rows' cols' (marshal2D c rows cols cells) = .error .exn := by
  have e : ∀ v, v < 2 ^ 63 → leValue (leBytes 8 v) = v := fun v hv => leValue_leBytes 8 v (by omega)
  rw [unmarshal2D_eq]
  unfold reader2D andThen
  obtain ⟨s, h1, h2⟩ := (read_reads' 8 (leBytes 8 rows) (leBytes_length _ _)).1 _ _ (At_open (marshal2D c rows cols cells))
  obtain ⟨s', h3, h4⟩ := (read_reads' 8 (leBytes 8 cols) (leBytes_length _ _)).1 _ _ h2
  rw [h1, ok_bind]
  dsimp only
  rw [h3, ok_bind]
  dsimp only
  rw [e _ hr, e _ hc, toStreamsize_small _ hr, toStreamsize_small _ hc, if_pos, error_bind]
  by_contra hcon
  apply hne
  simp only [not_or, not_not, ne_eq] at hcon
  rw [Prod.mk.injEq]
  omega

section
variable [LinearOrder K] [AddCommGroup K] [AxisNum K]

/-- **C39** A two dimensional histogram whose axes survive pickling (C08) survives pickling. -/
theorem C39_pickle (c : Codec K) (maxAlloc : Nat) (b : Bin2D.Histogram K) (sx sy : AxisState K)
    (hx : b.x.getstate = .ok sx ∧ Axis.setstate sx = .ok b.x) (hy : b.y.getstate = .ok sy ∧ Axis.setstate sy = .ok b.y)
    (hx0 : 0 ≤ b.x.size) (hy0 : 0 ≤ b.y.size) (hx63 : b.x.size < 2 ^ 63) (hy63 : b.y.size < 2 ^ 63)
    (hlen : (b.cells.length : Int) = b.x.size * b.y.size)
    (hs : ∀ h ∈ b.cells, Storable c maxAlloc h) (hl : ∀ h ∈ b.cells, (encode c h).length < 2 ^ 31) :
    ∃ s, getstate2D c b = .ok s ∧ setstate2D c maxAlloc s = .ok b := by
  refine ⟨⟨sx, sy, marshal2D c b.x.size.toNat b.y.size.toNat b.cells⟩, ?_, ?_⟩
  · unfold getstate2D
    rw [hx.1, ok_bind, hy.1, ok_bind]
    rfl
  · have hlen' : b.cells.length = b.x.size.toNat * b.y.size.toNat := by
      zify
      rw [Int.toNat_of_nonneg hx0, Int.toNat_of_nonneg hy0]
      exact hlen
    have := C57_matrix c maxAlloc b.x.size.toNat b.y.size.toNat b.cells (by omega) (by omega) hlen' hs hl []
    rw [List.append_nil] at this
    unfold setstate2D
    dsimp only
    rw [hx.2, ok_bind, hy.2, ok_bind, this, ok_bind]
    rfl

end

/-! ### Cases -/

/-- Numbers of one byte. -/
def exCodec : Codec UInt8 := ⟨1, fun _ => True, fun x => [x], fun l => l.headD 0, fun _ => rfl, fun _ _ => rfl⟩

def exHist : Hist UInt8 := ⟨true, 40, 3, 5, 9, [⟨5, 1⟩, ⟨9, 2⟩]⟩

/-- Two histograms, read back, then truncated, then with the size of the second one replaced by 2^64 - 1. -/
example : unmarshal exCodec 100 (marshal exCodec [exHist, { exHist with bins := [] }]) = .ok [exHist, { exHist with bins := [] }] ∧
    unmarshal exCodec 100 ((marshal exCodec [exHist, exHist]).take 50) = .error .exn ∧
    unmarshal exCodec 100 (leBytes 8 1 ++ (leBytes 8 (2 ^ 64 - 1) ++ encode exCodec exHist)) = .error .ub := by
  decide +kernel

/-- The hypotheses of the theorems on the vectors. -/
example : ∃ l : List (Hist UInt8), l ≠ [] ∧ l.length < 2 ^ 63 ∧ l.length ≤ 100 ∧ (∀ h ∈ l, Storable exCodec 100 h) ∧
    (∀ h ∈ l, (encode exCodec h).length < 2 ^ 31) ∧ l.length < [2, 2].prod := by
  refine ⟨[exHist, exHist], by simp, by norm_num, by norm_num, ?_, ?_, by decide⟩
  · intro h hh; simp at hh; subst hh; exact ⟨by decide, by decide, by decide, by decide, trivial, trivial, fun _ _ => ⟨trivial, trivial⟩⟩
  · intro h hh; simp at hh; subst hh; rw [encode_length]; decide

/-- `Announced` holds for the bytes of one histogram and for these bytes followed by garbage, not for a size of 2^64 - 1. -/
example : Announced (marshal exCodec [exHist]) ∧ Announced (leBytes 8 1 ++ leBytes 8 200) ∧
    ¬ Announced (leBytes 8 1 ++ (leBytes 8 (2 ^ 64 - 1))) := by
  refine ⟨fun _ => ⟨by decide +kernel, ?_⟩, fun _ => ⟨by decide +kernel, ?_⟩, fun h => ?_⟩
  · rw [show unsigned ((marshal exCodec [exHist]).take 8) = 1 by decide +kernel]
    refine fun _ => ⟨by decide +kernel, fun _ => ⟨fun _ b hb => ?_, trivial⟩⟩
    have : b = 1 := by
      have h2 : ((marshal exCodec [exHist]).drop 8)[8]? = some 1 := by decide +kernel
      rw [h2] at hb; cases hb; rfl
    rw [this]; decide
  · rw [show unsigned ((leBytes 8 1 ++ leBytes 8 200).take 8) = 1 by decide +kernel]
    refine fun _ => ⟨by decide +kernel, fun h => ?_⟩
    exact absurd h (by decide +kernel)
  · have h1 := (h (by decide +kernel)).2
    rw [show unsigned ((leBytes 8 1 ++ (leBytes 8 (2 ^ 64 - 1))).take 8) = 1 by decide +kernel] at h1
    exact absurd (h1 (by decide +kernel)).1 (by decide +kernel)

/-- A histogram large enough for `C57_large_false`. -/
example : ∃ h : Hist UInt8, Storable exCodec (2 ^ 30) h ∧ 2 ^ 31 ≤ (encode exCodec h).length ∧ (encode exCodec h).length < 2 ^ 32 - 16 := by
  obtain ⟨n, hn⟩ : ∃ n : Nat, n = 2 ^ 30 := ⟨_, rfl⟩
  obtain ⟨l, hl⟩ : ∃ l : List (Bin UInt8), l.length = n := ⟨List.replicate n ⟨5, 1⟩, List.length_replicate⟩
  have hlen : (encode exCodec ⟨true, 40, 3, 5, 9, l⟩).length = 27 + n * 2 := by rw [encode_length]; simp only [exCodec, hl]
  refine ⟨⟨true, 40, 3, 5, 9, l⟩, ⟨by norm_num, by norm_num, ?_, ?_, trivial, trivial, fun _ _ => ⟨trivial, trivial⟩⟩, ?_, ?_⟩
  · simp only [hl]; omega
  · simp only [hl]; omega
  · rw [hlen]; omega
  · rw [hlen]; omega

/-- Two shapes with the same number of cells. -/
example : unmarshal2D exCodec 100 1 2 (marshal2D exCodec 2 1 [exHist, exHist]) = .error .exn ∧
    unmarshal2D exCodec 100 2 1 (marshal2D exCodec 2 1 [exHist, exHist]) = .ok [exHist, exHist] := by
  decide +kernel

/-- Numbers 0, 1, ..., 255 of one byte among the rationals. -/
def exCodecQ : Codec ℚ where
  size := 1
  rep x := ∃ n : Nat, n < 256 ∧ x = n
  enc x := [UInt8.ofNat x.num.toNat]
  dec l := ((l.headD 0).toNat : ℚ)
  enc_length _ := rfl
  dec_enc := by
    rintro x ⟨n, hn, rfl⟩
    simp only [List.headD_cons, Rat.num_natCast, Int.toNat_natCast, UInt8.toNat_ofNat']
    rw [Nat.mod_eq_of_lt (by omega)]

/-- The hypotheses of `C39_pickle`: a histogram with axes of 3 and 2 values. -/
example : ∃ (b : Bin2D.Histogram ℚ) (sx sy : AxisState ℚ), (b.x.getstate = .ok sx ∧ Axis.setstate sx = .ok b.x) ∧
    (b.y.getstate = .ok sy ∧ Axis.setstate sy = .ok b.y) ∧ (b.cells.length : Int) = b.x.size * b.y.size ∧ b.x.size = 3 ∧ b.y.size = 2 ∧
    (∀ h ∈ b.cells, Storable exCodecQ 100 h) ∧ (∀ h ∈ b.cells, (encode exCodecQ h).length < 2 ^ 31) := by
  refine ⟨⟨⟨false, none, .regular ⟨3, 0, 2, 1 / 2, true⟩⟩, ⟨false, none, .regular ⟨2, 0, 4, 1 / 4, true⟩⟩,
    List.replicate 6 ⟨false, 40, 1, 7, 7, [⟨7, 1⟩]⟩⟩, .regular 0 4 3 false, .regular 0 4 2 false,
    ⟨by decide +kernel, by decide +kernel⟩, ⟨by decide +kernel, by decide +kernel⟩, by decide +kernel, by decide +kernel, by decide +kernel,
    fun h hh => ?_, fun h hh => ?_⟩
  · rw [List.eq_of_mem_replicate hh]
    refine ⟨by decide, by decide, by decide, by decide, ⟨7, by decide, by norm_num⟩, ⟨7, by decide, by norm_num⟩, fun b hb => ?_⟩
    simp only [List.mem_singleton] at hb
    subst hb
    exact ⟨⟨7, by decide, by norm_num⟩, ⟨1, by decide, by norm_num⟩⟩
  · rw [List.eq_of_mem_replicate hh, encode_length]; decide

end Pyinterp.Marshal
