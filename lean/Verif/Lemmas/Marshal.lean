import Verif.Model.Marshal
import Mathlib.Tactic.Linarith

/-
Lemmas on the binary format: a reader and the bytes it consumes.
-/
set_option linter.unusedVariables false
set_option linter.unusedSimpArgs false
namespace Pyinterp.Marshal
open Pyinterp.Streaming

theorem ok_bind {α β : Type} (a : α) (f : α → Out β) : ((.ok a : Out α) >>= f) = f a := rfl

theorem error_bind {α β : Type} (e : Err) (f : α → Out β) : ((.error e : Out α) >>= f) = .error e := rfl

theorem ok_pure {α : Type} (a : α) : (pure a : Out α) = .ok a := rfl

theorem leBytes_length (n v : Nat) : (leBytes n v).length = n := by
  induction n generalizing v with
  | zero => rfl
  | succ n ih => simp [leBytes, ih]

theorem leValue_leBytes (n v : Nat) (h : v < 256 ^ n) : leValue (leBytes n v) = v := by
  induction n generalizing v with
  | zero => simp at h; simp [leBytes, leValue, h]
  | succ n ih =>
    have h2 : v / 256 < 256 ^ n := by
      rw [Nat.div_lt_iff_lt_mul (by norm_num)]
      rw [pow_succ] at h
      exact h
    simp only [leBytes, leValue, ih _ h2, UInt8.toNat_ofNat']
    have : v % 256 % 2 ^ 8 = v % 256 := Nat.mod_eq_of_lt (by omega)
    omega

/-- The bytes not read yet. -/
def At (s : IStream) (rest : List UInt8) : Prop :=
  0 ≤ s.pos ∧ s.pos ≤ s.data.length ∧ s.data.drop s.pos.toNat = rest

theorem At_open (data : List UInt8) : At (IStream.open data) data := ⟨le_refl _, by simp [IStream.open], rfl⟩

/-- `p` reads `bytes`, whatever follows, and gives `a`; on a proper prefix of `bytes` it raises. -/
def Reads {α : Type} (p : IStream → Out (α × IStream)) (a : α) (bytes : List UInt8) : Prop :=
  (∀ s r, At s (bytes ++ r) → ∃ s', p s = .ok (a, s') ∧ At s' r) ∧
  (∀ s t, At s t → t <+: bytes → t ≠ bytes → p s = .error .exn)

theorem Reads.pure {α : Type} (a : α) : Reads (fun s => .ok (a, s)) a [] := by
  refine ⟨fun s r h => ⟨s, rfl, h⟩, fun s t h hp hne => ?_⟩
  exact absurd (List.prefix_nil.1 hp) hne

/-- One reader after another. -/
def andThen {α β : Type} (p : IStream → Out (α × IStream)) (f : α → IStream → Out (β × IStream)) : IStream → Out (β × IStream) :=
  fun s => p s >>= fun r => f r.1 r.2

theorem Reads.bind {α β : Type} {p : IStream → Out (α × IStream)} {f : α → IStream → Out (β × IStream)} {a : α} {b : β}
    {x y : List UInt8} (hp : Reads p a x) (hf : Reads (f a) b y) :
    Reads (andThen p f) b (x ++ y) := by
  unfold andThen
  constructor
  · intro s r h
    rw [List.append_assoc] at h
    obtain ⟨s', h1, h2⟩ := hp.1 s _ h
    obtain ⟨s'', h3, h4⟩ := hf.1 s' _ h2
    exact ⟨s'', by simp only [h1, ok_bind, error_bind, h3], h4⟩
  · intro s t h hpre hne
    by_cases hx : x <+: t
    · obtain ⟨t', rfl⟩ := hx
      obtain ⟨s', h1, h2⟩ := hp.1 s t' h
      have h3 : t' <+: y := (List.prefix_append_right_inj x).1 hpre
      have h4 := hf.2 s' t' h2 h3 (fun e => hne (by rw [e]))
      simp only [h1, ok_bind, error_bind, h4]
    · have h3 : t <+: x := by
        rcases List.prefix_or_prefix_of_prefix hpre (List.prefix_append x y) with h | h
        · exact h
        · exact absurd h hx
      have h4 := hp.2 s t h h3 (fun e => hx (by rw [e]))
      simp only [h4, ok_bind, error_bind]

theorem Reads.map {α β : Type} {p : IStream → Out (α × IStream)} {a : α} {x : List UInt8} (hp : Reads p a x) (g : α → β) :
    Reads (andThen p fun a s => .ok (g a, s)) (g a) x := by
  have := Reads.bind (f := fun a s => .ok (g a, s)) hp (Reads.pure (g a))
  simpa using this

theorem read_reads (b : List UInt8) : Reads (IStream.read b.length) b b := by
  constructor
  · rintro s r ⟨h0, h1, h2⟩
    have hlen : b.length + r.length = s.data.length - s.pos.toNat := by
      have := congrArg List.length h2; simpa using this.symm
    refine ⟨⟨s.data, s.pos + b.length⟩, ?_, ?_, ?_, ?_⟩
    · unfold IStream.read
      rw [if_neg (by omega), h2]
      dsimp only
      rw [if_neg (by simp)]
      simp
    · simp only; omega
    · simp only; omega
    · simp only
      have : (s.pos + (b.length : Int)).toNat = s.pos.toNat + b.length := by omega
      rw [this, ← List.drop_drop, h2]; simp
  · rintro s t ⟨h0, h1, h2⟩ hp hne
    have hlt : t.length < b.length := by
      rcases lt_or_eq_of_le hp.length_le with h | h
      · exact h
      · exact absurd (hp.eq_of_length h) hne
    unfold IStream.read
    rw [if_neg (by omega), h2]
    dsimp only
    rw [if_pos hlt]

theorem read_reads' (n : Nat) (b : List UInt8) (h : b.length = n) : Reads (IStream.read n) b b := h ▸ read_reads b

theorem toInt_small (n : Nat) (h : n < 2 ^ 31) : toInt n = n := by
  unfold toInt
  rw [Int.bmod_eq_of_le] <;> (norm_num; try omega)

theorem toStreamsize_small (n : Nat) (h : n < 2 ^ 63) : toStreamsize n = n := by
  unfold toStreamsize
  rw [Int.bmod_eq_of_le] <;> (norm_num; try omega)

theorem readview_reads (b : List UInt8) (hb : b.length < 2 ^ 31) : Reads (IStream.readview b.length) b b := by
  constructor
  · rintro s r ⟨h0, h1, h2⟩
    have hlen : b.length + r.length = s.data.length - s.pos.toNat := by
      have := congrArg List.length h2; simpa using this.symm
    refine ⟨⟨s.data, s.pos + b.length⟩, ?_, ?_, ?_, ?_⟩
    · unfold IStream.readview
      rw [if_neg (by omega), if_neg (by omega), h2]
      dsimp only
      have hmin : min (b.length : Int) ((b ++ r).length : Int) = b.length := by simp
      rw [hmin, toInt_small _ hb, if_neg (by simp)]
      simp
    · simp only; omega
    · simp only; omega
    · simp only
      have : (s.pos + (b.length : Int)).toNat = s.pos.toNat + b.length := by omega
      rw [this, ← List.drop_drop, h2]; simp
  · rintro s t ⟨h0, h1, h2⟩ hp hne
    have hlt : t.length < b.length := by
      rcases lt_or_eq_of_le hp.length_le with h | h
      · exact h
      · exact absurd (hp.eq_of_length h) hne
    unfold IStream.readview
    rw [if_neg (by omega), if_neg (by omega), h2]
    dsimp only
    rw [if_pos (by omega)]

variable {K : Type}

theorem encodeBins_length (c : Codec K) (l : List (Bin K)) : (encodeBins c l).length = l.length * (2 * c.size) := by
  induction l with
  | nil => simp [encodeBins]
  | cons b l ih =>
    simp only [encodeBins, List.flatMap_cons, List.length_append, c.enc_length, List.length_cons] at ih ⊢
    rw [ih]; ring

theorem decodeBins_encodeBins (c : Codec K) (l : List (Bin K)) (hr : ∀ b ∈ l, c.rep b.value ∧ c.rep b.weight) : decodeBins c l.length (encodeBins c l) = l := by
  induction l with
  | nil => rfl
  | cons b l ih =>
    have h1 : encodeBins c (b :: l) = c.enc b.value ++ (c.enc b.weight ++ encodeBins c l) := by
      simp [encodeBins, List.flatMap_cons]
    rw [h1]
    simp only [List.length_cons, decodeBins]
    have e1 := c.enc_length b.value
    have e2 := c.enc_length b.weight
    have t1 : (c.enc b.value ++ (c.enc b.weight ++ encodeBins c l)).take c.size = c.enc b.value := by
      rw [← e1]; simp
    have d1 : (c.enc b.value ++ (c.enc b.weight ++ encodeBins c l)).drop c.size = c.enc b.weight ++ encodeBins c l := by
      rw [← e1]; simp
    have t2 : (c.enc b.weight ++ encodeBins c l).take c.size = c.enc b.weight := by
      rw [← e2]; simp
    have d2 : (c.enc b.value ++ (c.enc b.weight ++ encodeBins c l)).drop (2 * c.size) = encodeBins c l := by
      rw [two_mul, ← List.drop_drop, d1, ← e2]; simp
    rw [t1, d1, t2, d2, c.dec_enc _ (hr b (by simp)).1, c.dec_enc _ (hr b (by simp)).2, ih (fun b hb => hr b (List.mem_cons_of_mem _ hb))]

/-- The numbers of the histogram are floating point numbers, its integers fit in 64 bits and its bins in memory. -/
def Storable (c : Codec K) (maxAlloc : Nat) (h : Hist K) : Prop :=
  h.binCount < 2 ^ 64 ∧ h.count < 2 ^ 64 ∧ h.bins.length < 2 ^ 64 ∧ h.bins.length ≤ maxAlloc ∧
  c.rep h.min ∧ c.rep h.max ∧ ∀ b ∈ h.bins, c.rep b.value ∧ c.rep b.weight

theorem decodeFrom_eq (c : Codec K) (maxAlloc : Nat) :
    decodeFrom c maxAlloc = andThen (IStream.read 1) fun w s => toBool w >>= fun weighted =>
      (andThen (IStream.read 8) fun binCount => andThen (IStream.read 8) fun count =>
      andThen (IStream.read c.size) fun mn => andThen (IStream.read c.size) fun mx => andThen (IStream.read 8) fun size s =>
        if maxAlloc < leValue size then .error .exn
        else andThen (IStream.read (leValue size * (2 * c.size))) (fun bins s => .ok ((⟨weighted, leValue binCount, leValue count, c.dec mn, c.dec mx,
          decodeBins c (leValue size) bins⟩ : Hist K), s)) s) s := rfl

theorem decodeFrom_reads (c : Codec K) (maxAlloc : Nat) (h : Hist K) (hs : Storable c maxAlloc h) :
    Reads (decodeFrom c maxAlloc) h (encode c h) := by
  obtain ⟨h1, h2, h3, h4, h5, h6, h7⟩ := hs
  rw [decodeFrom_eq]
  unfold encode
  refine Reads.bind (read_reads' 1 _ (leBytes_length _ _)) ?_
  have hb : toBool (leBytes 1 (if h.weightedDiff then 1 else 0)) = .ok h.weightedDiff := by
    cases h.weightedDiff <;> rfl
  simp only [hb, ok_bind, error_bind]
  refine Reads.bind (read_reads' 8 _ (leBytes_length _ _)) ?_
  refine Reads.bind (read_reads' 8 _ (leBytes_length _ _)) ?_
  refine Reads.bind (read_reads' _ _ (c.enc_length _)) ?_
  refine Reads.bind (read_reads' _ _ (c.enc_length _)) ?_
  refine Reads.bind (read_reads' 8 _ (leBytes_length _ _)) ?_
  have e : ∀ v, v < 2 ^ 64 → leValue (leBytes 8 v) = v := fun v hv => leValue_leBytes 8 v (by simpa using hv)
  simp only [e _ h1, e _ h2, e _ h3, if_neg (not_lt.2 h4), c.dec_enc _ h5, c.dec_enc _ h6]
  have hr := (read_reads' (h.bins.length * (2 * c.size)) _ (encodeBins_length c h.bins)).map
    (fun bins => (⟨h.weightedDiff, h.binCount, h.count, h.min, h.max, decodeBins c h.bins.length bins⟩ : Hist K))
  simp only [decodeBins_encodeBins c h.bins h7] at hr
  exact hr

theorem decode_encode (c : Codec K) (maxAlloc : Nat) (h : Hist K) (hs : Storable c maxAlloc h) (r : List UInt8) :
    decode c maxAlloc (encode c h ++ r) = .ok h := by
  obtain ⟨s', h1, _⟩ := (decodeFrom_reads c maxAlloc h hs).1 _ r (At_open _)
  simp only [decode, h1, ok_bind, error_bind, ok_pure]

theorem decodeItem_eq (c : Codec K) (maxAlloc : Nat) :
    decodeItem c maxAlloc = andThen (IStream.read 8) fun size =>
      andThen (IStream.readview (toStreamsize (leValue size))) fun view s => decode c maxAlloc view >>= fun h => .ok (h, s) := rfl

theorem decodeItem_reads (c : Codec K) (maxAlloc : Nat) (h : Hist K) (hs : Storable c maxAlloc h) (hl : (encode c h).length < 2 ^ 31) :
    Reads (decodeItem c maxAlloc) h (encodeItem c h) := by
  rw [decodeItem_eq]
  unfold encodeItem
  refine Reads.bind (read_reads' 8 _ (leBytes_length _ _)) ?_
  have e : leValue (leBytes 8 (encode c h).length) = (encode c h).length := leValue_leBytes 8 _ (by omega)
  simp only [e]
  rw [toStreamsize_small _ (by omega)]
  have hd : decode c maxAlloc (encode c h) = .ok h := by simpa using decode_encode c maxAlloc h hs []
  have := Reads.bind (f := fun (view : List UInt8) s => decode c maxAlloc view >>= fun h => .ok (h, s)) (b := h) (y := [])
    (readview_reads (encode c h) hl) (by simp only [hd, ok_bind, error_bind]; exact Reads.pure h)
  simpa using this

theorem decodeItems_reads (c : Codec K) (maxAlloc : Nat) (l : List (Hist K)) (hs : ∀ h ∈ l, Storable c maxAlloc h)
    (hl : ∀ h ∈ l, (encode c h).length < 2 ^ 31) :
    Reads (decodeItems c maxAlloc l.length) l (l.flatMap (encodeItem c)) := by
  induction l with
  | nil => exact Reads.pure []
  | cons h l ih =>
    have ih' := ih (fun x hx => hs x (List.mem_cons_of_mem _ hx)) (fun x hx => hl x (List.mem_cons_of_mem _ hx))
    have h1 := decodeItem_reads c maxAlloc h (hs h (by simp)) (hl h (by simp))
    have := Reads.bind (f := fun (h : Hist K) => andThen (decodeItems c maxAlloc l.length) fun m s => .ok ((h :: ·) m, s)) h1 (ih'.map (h :: ·))
    rw [List.flatMap_cons]
    exact this

theorem not_negative (n : Nat) (h : n < 2 ^ 63) : ¬ toStreamsize n < 0 := by
  rw [toStreamsize_small n h]; omega

theorem unmarshal_eq (c : Codec K) (maxAlloc : Nat) (data size : List UInt8) (s : IStream) (n : Nat)
    (h : (IStream.open data).read 8 = .ok (size, s)) (hn : leValue size = n) (h63 : n < 2 ^ 63) (hm : n ≤ maxAlloc) :
    unmarshal c maxAlloc data = decodeItems c maxAlloc n s >>= fun r => .ok r.1 := by
  unfold unmarshal
  rw [h, ok_bind]
  simp only [hn]
  rw [if_neg (not_negative _ h63), if_neg (not_lt.2 hm)]
  rfl

theorem encode_length (c : Codec K) (h : Hist K) : (encode c h).length = 25 + 2 * c.size + h.bins.length * (2 * c.size) := by
  simp only [encode, List.length_append, leBytes_length, c.enc_length, encodeBins_length]
  ring

/-- The reader of the matrix, without the end of the stream. -/
def reader2D (c : Codec K) (maxAlloc rows cols : Nat) : IStream → Out (List (Hist K) × IStream) :=
  andThen (IStream.read 8) fun r => andThen (IStream.read 8) fun q s =>
    if toStreamsize (leValue r) ≠ (rows : Int) ∨ toStreamsize (leValue q) ≠ (cols : Int) then .error .exn
    else decodeItems c maxAlloc (rows * cols) s

theorem unmarshal2D_eq (c : Codec K) (maxAlloc rows cols : Nat) (data : List UInt8) :
    unmarshal2D c maxAlloc rows cols data = reader2D c maxAlloc rows cols (IStream.open data) >>= fun r => .ok r.1 := by
  unfold unmarshal2D reader2D andThen
  cases h1 : (IStream.open data).read 8 with
  | error e => rw [error_bind, error_bind, error_bind]
  | ok r =>
    rw [ok_bind, ok_bind]
    cases h2 : r.2.read 8 with
    | error e => dsimp only; rw [h2]; rfl
    | ok q =>
      dsimp only
      rw [h2, ok_bind, ok_bind]
      split
      · rw [error_bind]
      · rfl

theorem reader2D_reads (c : Codec K) (maxAlloc rows cols : Nat) (cells : List (Hist K)) (hr : rows < 2 ^ 63) (hc : cols < 2 ^ 63)
    (hlen : cells.length = rows * cols) (hs : ∀ h ∈ cells, Storable c maxAlloc h)
    (hl : ∀ h ∈ cells, (encode c h).length < 2 ^ 31) :
    Reads (reader2D c maxAlloc rows cols) cells (marshal2D c rows cols cells) := by
  have e : ∀ v, v < 2 ^ 63 → leValue (leBytes 8 v) = v := fun v hv => leValue_leBytes 8 v (by omega)
  unfold reader2D marshal2D
  refine Reads.bind (read_reads' 8 _ (leBytes_length _ _)) ?_
  refine Reads.bind (read_reads' 8 _ (leBytes_length _ _)) ?_
  rw [e _ hr, e _ hc, toStreamsize_small _ hr, toStreamsize_small _ hc, ← hlen]
  have : ¬ (((rows : Int) ≠ rows) ∨ ((cols : Int) ≠ cols)) := by simp
  simp only [if_neg this]
  exact decodeItems_reads c maxAlloc cells hs hl

end Pyinterp.Marshal
