import Verif.Lemmas.StreamInv
import Mathlib.Tactic.FinCases
import Verif.Lemmas.Matrix

/-!
# The byte stream: C28-C37, and ICC loading: C59

A stream state is *valid* when its cursor lies between 0 and the buffer size.  Sizes up to
`INT_MAX` are covered; beyond it the cursor (an `int`) cannot represent the positions.
-/

namespace CS
open Spec CS.Stream

/-! ## C28 -/

/-- The state of a freshly constructed empty stream. -/
theorem construct_empty : construct none 0 = .ok ⟨[], 0, .LITTLE, .LITTLE⟩ := rfl

/-- C28: whatever sequence of scalars is written to an empty stream, in either byte order, rewinding and
reading the same types returns the same values in order (sizes up to `INT_MAX` bytes), with the cursor
after the last one. -/
theorem C28_typed_roundtrip (dbg : Bool) (e : Endian) (vs : List Scalar)
    (hl : (totalBytes vs : ℤ) ≤ 2147483647) (s : Stream) (hs : construct none 0 = .ok s) :
    ∃ s', (do
      setReadEndian e
      setWriteEndian e
      putAll dbg vs
      seekTo dbg 0
      getAll (vs.map (·.1)) : SM (List Scalar)) s = .ok (vs, s') ∧
      s'.ptr = totalBytes vs ∧ s'.buf.length = totalBytes vs := by
  rw [construct_empty] at hs
  obtain rfl := Except.ok.inj hs
  have hl' : (totalBytes vs : ℤ) ≤ INT_MAX := hl
  let s1 : Stream := ⟨[], 0, e, e⟩
  have h1 : AtEnd s1 := rfl
  have h2 := putAll_eq dbg vs h1 (by simpa [s1] using hl')
  have h3 : seekTo dbg 0 (app s1 (encodeAll e vs)) = .ok ((), ⟨encodeAll e vs, 0, e, e⟩) :=
    seekTo_eq dbg (by omega) (by unfold INT_MAX; omega)
  have h4 := getAll_eq vs [] [] ⟨encodeAll e vs, 0, e, e⟩ (by simp) rfl
    (by simpa [encodeAll_length] using hl')
  refine ⟨⟨encodeAll e vs, 0 + totalBytes vs, e, e⟩, ?_, ?_, ?_⟩
  · rw [bind_ok _ _ _ _ _ (setReadEndian_def _ _), bind_ok _ _ _ _ _ (setWriteEndian_def _ _)]
    exact (bind_ok _ _ _ _ _ h2).trans ((bind_ok _ _ _ _ _ h3).trans h4)
  · simp
  · simp [encodeAll_length]

example : (totalBytes [⟨.u16, 0x1234⟩, ⟨.f64, 0x3FF0000000000000⟩, ⟨.i8, 0xFF⟩] : ℤ) ≤ 2147483647 := by
  decide
example : (do
    setReadEndian .BIG
    setWriteEndian .BIG
    putAll true [⟨.u16, 0x1234⟩, ⟨.i8, 0xFF⟩]
    seekTo true 0
    getAll [.u16, .i8] : SM (List Scalar)) ⟨[], 0, .LITTLE, .LITTLE⟩ =
    .ok ([⟨.u16, 0x1234⟩, ⟨.i8, 0xFF⟩], ⟨[0x12, 0x34, 0xFF], 3, .BIG, .BIG⟩) := by decide +kernel

/-! ## C29 -/

/-- C29 (writing): appending a `k`-byte scalar adds exactly its `k` base-256 digits after the unchanged
content, least significant first in `LITTLE` mode and most significant first in `BIG` mode. -/
theorem C29_append_bytes (dbg : Bool) (k : Kind) (v : k.Carrier) (s : Stream)
    (hend : s.ptr = s.buf.length) (hl : (s.buf.length : ℤ) + k.bytes ≤ 2147483647) :
    k.put dbg v s = .ok ((), ⟨s.buf ++
      (match s.writeEndian with
        | .LITTLE => leBytes k.bytes v.toNat
        | .BIG => (leBytes k.bytes v.toNat).reverse), s.ptr + k.bytes, s.readEndian, s.writeEndian⟩) := by
  rw [kind_put hend dbg k v hl]
  simp only [app, length_order, length_leBytes]
  rfl

/-- C29 (reading): a typed read at a position followed by at least `k` bytes returns the number they
denote, read least significant first in `LITTLE` mode and most significant first in `BIG` mode. -/
theorem C29_read_bytes (k : Kind) (s : Stream) (pre mid post : List Byte)
    (hb : s.buf = pre ++ mid ++ post) (hm : mid.length = k.bytes) (hp : s.ptr = pre.length)
    (hl : (s.buf.length : ℤ) ≤ 2147483647) :
    ∃ v, k.get s = .ok (v, { s with ptr := s.ptr + k.bytes }) ∧
      v.toNat = (match s.readEndian with
        | .LITTLE => leNat mid
        | .BIG => leNat mid.reverse) := by
  have hlen : s.buf.length = pre.length + k.bytes + post.length := by rw [hb]; simp [hm]; omega
  obtain ⟨v, h1, h2⟩ := kind_get (s := s) ⟨by omega, by omega⟩ hl k
  have hw : window s.buf s.ptr.toNat k.bytes = mid := by
    have := window_mid pre mid post
    rw [hm, ← hb] at this; rw [hp]; exact this
  refine ⟨v, ?_, ?_⟩
  · rw [h1]; congr 2; simp only [adv, Stream.mk.injEq, true_and, and_true]; omega
  · rw [h2, hw]; cases s.readEndian <;> rfl

/-- C29 (swapping): a scalar written in one byte order and read in the other is byte-swapped. -/
theorem C29_swapped (dbg : Bool) (k : Kind) (v : k.Carrier) (e e' : Endian) (hne : e ≠ e') :
    ∃ w s', (do
      setWriteEndian e
      setReadEndian e'
      k.put dbg v
      seekTo dbg 0
      k.get : SM k.Carrier) ⟨[], 0, .LITTLE, .LITTLE⟩ = .ok (w, s') ∧
      w.toNat = leNat (leBytes k.bytes v.toNat).reverse := by
  have hk : k.bytes ≤ 8 := by cases k <;> decide
  let s1 : Stream := ⟨[], 0, e', e⟩
  have h2 := kind_put (s := s1) rfl dbg k v (by simp [s1, INT_MAX]; omega)
  let s2 : Stream := ⟨order e (leBytes k.bytes v.toNat), 0, e', e⟩
  have hl2 : s2.buf.length = k.bytes := by simp [s2, length_leBytes]
  have h3 : seekTo dbg 0 (app s1 (order e (leBytes k.bytes v.toNat))) = .ok ((), s2) :=
    seekTo_eq dbg (by omega) (by unfold INT_MAX; omega)
  obtain ⟨w, h4, h5⟩ := kind_get (s := s2) ⟨by simp [s2], by simp [s2]⟩
    (by rw [hl2]; unfold INT_MAX; omega) k
  refine ⟨w, adv s2 k.bytes, ?_, ?_⟩
  · rw [bind_ok _ _ _ _ _ (setWriteEndian_def _ _), bind_ok _ _ _ _ _ (setReadEndian_def _ _)]
    exact (bind_ok _ _ _ _ _ h2).trans ((bind_ok _ _ _ _ _ h3).trans h4)
  · rw [h5]
    have hw : window s2.buf s2.ptr.toNat k.bytes = order e (leBytes k.bytes v.toNat) := by
      have := window_mid [] (order e (leBytes k.bytes v.toNat)) []
      rw [length_order, length_leBytes] at this
      simpa [s2] using this
    rw [hw, order_other hne]

/-- The digits of a scalar denote it (so the two halves of C29 fit together). -/
theorem C29_digits (k : Kind) (v : k.Carrier) : leNat (leBytes k.bytes v.toNat) = v.toNat := by
  rw [leNat_leBytes, Nat.mod_eq_of_lt (carrier_lt k v)]

example : leBytes 4 0x11223344 = [0x44, 0x33, 0x22, 0x11] := by decide
example : leNat [0x44, 0x33, 0x22, 0x11] = 0x11223344 := by decide
example : (Endian.LITTLE : Endian) ≠ .BIG := by decide
example : ∃ s : Stream, s.ptr = s.buf.length ∧ (s.buf.length : ℤ) + Kind.u64.bytes ≤ 2147483647 :=
  ⟨⟨[1, 2, 3], 3, .BIG, .BIG⟩, rfl, by decide⟩

/-! ## C30 -/

/-- C30: every typed get from a valid state succeeds (in particular it accesses no byte outside the
buffer), leaves the bytes unchanged, advances the cursor by the bytes available up to the width, and
returns the value of the bytes there extended by zeros. -/
theorem C30_reads (k : Kind) (s : Stream) (h0 : 0 ≤ s.ptr) (h1 : s.ptr ≤ s.buf.length)
    (hl : (s.buf.length : ℤ) ≤ 2147483647) :
    ∃ v s', k.get s = .ok (v, s') ∧ s'.buf = s.buf ∧
      s'.ptr = s.ptr + min (k.bytes : ℤ) (s.buf.length - s.ptr) ∧
      s'.readEndian = s.readEndian ∧ s'.writeEndian = s.writeEndian ∧
      v.toNat = leNat (order s.readEndian
        ((s.buf.drop s.ptr.toNat ++ List.replicate k.bytes 0).take k.bytes)) := by
  obtain ⟨v, h2, h3⟩ := kind_get ⟨h0, h1⟩ hl k
  refine ⟨v, _, h2, rfl, ?_, rfl, rfl, ?_⟩
  · simp only [adv]; omega
  · rw [h3]; congr 2
    apply List.ext_getElem
    · simp [window]
    · intro i hi1 hi2
      simp only [window, List.length_map, List.length_range] at hi1
      simp only [window, List.getElem_map, List.getElem_range, List.getElem_take]
      by_cases h : s.ptr.toNat + i < s.buf.length
      · rw [List.getElem_append_left (by simp; omega)]
        simp [h]
      · rw [List.getElem_append_right (by simp; omega), List.getElem?_eq_none (by omega)]
        simp

/-- C30: `feof` is true exactly when no byte is left, and then stays true across reads. -/
theorem C30_feof (s : Stream) (h0 : 0 ≤ s.ptr) (h1 : s.ptr ≤ s.buf.length)
    (hl : (s.buf.length : ℤ) ≤ 2147483647) :
    feof s = .ok (decide (s.ptr = s.buf.length), s) ∧
    ∀ k : Kind, ∀ v s', s.ptr = s.buf.length → k.get s = .ok (v, s') →
      v.toNat = 0 ∧ s' = s ∧ feof s' = .ok (true, s') := by
  have hf : feof s = .ok (decide (s.ptr = s.buf.length), s) := by
    unfold feof
    rw [toSize_of_nonneg h0 (by omega)]
    congr 2
    rw [decide_eq_decide]; omega
  refine ⟨hf, ?_⟩
  intro k v s' he hg
  obtain ⟨w, h2, h3⟩ := kind_get ⟨h0, h1⟩ hl k
  rw [h2] at hg
  obtain ⟨rfl, rfl⟩ := Prod.mk.inj (Except.ok.inj hg)
  have hs : adv s k.bytes = s := by
    cases s; simp only [adv, Stream.mk.injEq, true_and, and_true] at *; omega
  refine ⟨?_, hs, ?_⟩
  · have hw : window s.buf s.ptr.toNat k.bytes = List.replicate k.bytes 0 := by
      apply List.ext_getElem
      · simp [window]
      · intro i hi1 hi2
        simp only [window, List.getElem_map, List.getElem_range]
        rw [List.getElem?_eq_none (by omega)]; simp
    have hz : ∀ n, leNat (List.replicate n 0#8) = 0 := by
      intro n; induction n with
      | zero => rfl
      | succ n ih => simp [List.replicate_succ, leNat, ih]
    rw [h3, hw]
    cases s.readEndian <;> simp [order, hz]
  · rw [hs, hf]; simp [he]

/-- C30: `ptr()` is defined exactly before the end; it then points to the bytes from the cursor on, the first of
which is the byte a one-byte read returns. -/
theorem C30_ptr (s : Stream) (h0 : 0 ≤ s.ptr) (h1 : s.ptr ≤ s.buf.length)
    (hl : (s.buf.length : ℤ) ≤ 2147483647) :
    ((∃ r, here s = .ok r) ↔ feof s = .ok (false, s)) ∧
    ∀ bs s', here s = .ok (bs, s') → s' = s ∧ bs = s.buf.drop s.ptr.toNat ∧
      ∃ b v s'', bs.head? = some b ∧ Kind.u8.get s = .ok (v, s'') ∧ v.toNat = b.toNat := by
  have e : here s = if s.ptr.toNat < s.buf.length then .ok (s.buf.drop s.ptr.toNat, s)
      else .error .outOfBounds := by
    show (do addr (toSize s.ptr); return s.buf.drop (toSize s.ptr) : SM (List Byte)) s = _
    rw [toSize_of_nonneg h0 (by omega)]
    by_cases h : s.ptr.toNat < s.buf.length
    · simp [addr, h, StateT.run, bind, StateT.bind, get, getThe, MonadStateOf.get, StateT.get, pure, StateT.pure,
        Except.bind, Except.pure]
    · simp [addr, h, bind, StateT.bind, get, getThe, MonadStateOf.get, StateT.get, pure, StateT.pure,
        Except.bind, Except.pure, throw, throwThe, MonadExceptOf.throw, StateT.lift]
  obtain ⟨hf, -⟩ := C30_feof s h0 h1 hl
  refine ⟨?_, fun bs s' h => ?_⟩
  · rw [e, hf]
    by_cases h : s.ptr.toNat < s.buf.length
    · have : ¬ s.ptr = s.buf.length := by omega
      simp [h, this]
    · have : s.ptr = s.buf.length := by omega
      simp [this]
  · rw [e] at h
    by_cases hlt : s.ptr.toNat < s.buf.length
    · rw [if_pos hlt] at h
      obtain ⟨rfl, rfl⟩ := Prod.mk.inj (Except.ok.inj h)
      obtain ⟨v, s'', g1, -, -, -, -, g2⟩ := C30_reads .u8 s h0 h1 hl
      refine ⟨rfl, rfl, s.buf[s.ptr.toNat], v, s'', ?_, g1, ?_⟩
      · rw [List.drop_eq_getElem_cons hlt]; rfl
      · rw [g2]
        generalize hd : s.buf.drop s.ptr.toNat = d
        rw [List.drop_eq_getElem_cons hlt] at hd
        subst hd
        cases s.readEndian <;> simp [Kind.bytes, order, leNat, -List.getElem_cons_drop]
    · rw [if_neg hlt] at h
      cases h

example : ∃ s : Stream, 0 ≤ s.ptr ∧ s.ptr ≤ s.buf.length ∧ (s.buf.length : ℤ) ≤ 2147483647 ∧
    Kind.u32.get s = .ok (0x0302, ⟨[1, 2, 3], 3, .LITTLE, .BIG⟩) :=
  ⟨⟨[1, 2, 3], 1, .LITTLE, .BIG⟩, by decide, by decide, by decide, rfl⟩

/-! ## C31 -/

/-- C31 (writing): `write_at` stores the block, keeps every other existing byte, grows the buffer to
`max(size, p + n)` and fills any gap with zeros.  (`n = 0` at or past the end forms the address
`&buffer_[p]` of a non-existing element and is excluded.) -/
theorem C31_write_at (s : Stream) (data : List Byte) (p : ℕ)
    (hd : data ≠ [] ∨ p < s.buf.length) (hp : p + data.length ≤ 2 ^ 63 - 1) :
    ∃ s', write_at data p s = .ok (data.length, s') ∧
      s'.buf.length = max s.buf.length (p + data.length) ∧
      (∀ i, i < data.length → s'.buf[p + i]? = data[i]?) ∧
      (∀ i, i < s.buf.length → i < p ∨ p + data.length ≤ i → s'.buf[i]? = s.buf[i]?) ∧
      (∀ i, s.buf.length ≤ i → i < p → s'.buf[i]? = some 0) ∧
      s'.ptr = s.ptr ∧ s'.readEndian = s.readEndian ∧ s'.writeEndian = s.writeEndian := by
  have hd' : 0 < data.length ∨ p < s.buf.length := hd.imp_left List.length_pos_of_ne_nil
  refine ⟨_, write_at_eq hd hp, ?_, ?_, ?_, ?_, rfl, rfl, rfl⟩
  · simp; omega
  · intro i hi
    simp only
    rw [List.getElem?_append_left (by simp; omega), List.getElem?_append_right (by simp)]
    congr 1; simp; omega
  · intro i hi hor
    simp only
    by_cases h : i < p
    · rw [List.getElem?_append_left (by simp; omega), List.getElem?_append_left (by simp; omega),
        List.getElem?_take, if_pos h, List.getElem?_append_left hi]
    · have h' : p + data.length ≤ i := by omega
      rw [List.getElem?_append_right (by simp; omega)]
      simp; congr 1; omega
  · intro i hi h
    simp only
    rw [List.getElem?_append_left (by simp; omega), List.getElem?_append_left (by simp; omega),
        List.getElem?_take, if_pos h, List.getElem?_append_right hi, List.getElem?_replicate,
        if_pos (by omega)]

/-- C31 (reading): inside the buffer `read_at` returns the bytes from `p`, fewer if the end comes first,
and changes nothing; beyond the end it returns none. -/
theorem C31_read_at (s : Stream) (n p : ℕ) (hl : (s.buf.length : ℤ) ≤ 2147483647) :
    (p < s.buf.length → read_at n p s = .ok ((s.buf.drop p).take n, s)) ∧
    (s.buf.length < p → (p : ℤ) ≤ 2147483647 → read_at n p s = .ok ([], s)) := by
  refine ⟨fun h => read_at_eq h hl, fun h hp => ?_⟩
  unfold read_at
  rw [bind_ok _ _ _ _ _ (get_def s), toI32_of_le hl, toI32_of_le hp,
    chk_ok (by unfold INT_MIN; omega) (by unfold INT_MAX; omega), bind_ok _ _ _ _ _ (lift_ok _ _)]
  simp only [bind_def, ite_def, pure_def]
  rw [if_pos (by omega)]

/-- C31 (round trip): what `write_at` stored is what `read_at` returns. -/
theorem C31_write_read (s : Stream) (data : List Byte) (p : ℕ) (hd : data ≠ [])
    (hp : ((p + data.length : ℕ) : ℤ) ≤ 2147483647) (hl : (s.buf.length : ℤ) ≤ 2147483647) :
    ∃ s', (do let _ ← write_at data p; read_at data.length p : SM (List Byte)) s = .ok (data, s') := by
  have hpos := List.length_pos_of_ne_nil hd
  refine ⟨⟨(s.buf ++ List.replicate (p + data.length - s.buf.length) 0).take p ++ data ++
      s.buf.drop (p + data.length), s.ptr, s.readEndian, s.writeEndian⟩,
    (bind_ok _ _ _ _ _ (write_at_eq (Or.inl hd) (by unfold MAX_SIZE; omega))).trans
    ((read_at_eq ?_ ?_).trans ?_)⟩
  · simp; omega
  · simp only [INT_MAX]
    have : ((s.buf ++ List.replicate (p + data.length - s.buf.length) (0 : Byte)).take p ++ data ++
      s.buf.drop (p + data.length)).length = max s.buf.length (p + data.length) := by simp; omega
    rw [this]; omega
  · congr 2
    have h1 : ((s.buf ++ List.replicate (p + data.length - s.buf.length) (0 : Byte)).take p).length = p := by
      simp; omega
    simp only
    rw [List.append_assoc, List.drop_append, List.drop_of_length_le (by omega), h1]
    simp

/-- C31 (cursor): `write` and `read` act at the cursor and advance it by the bytes transferred. -/
theorem C31_cursor (s : Stream) (h0 : 0 ≤ s.ptr) (h1 : s.ptr ≤ s.buf.length)
    (hl : (s.buf.length : ℤ) ≤ 2147483647) :
    (∀ data : List Byte, data ≠ [] → s.ptr + data.length ≤ 2147483647 →
      ∃ s1, write_at data s.ptr.toNat s = .ok (data.length, s1) ∧
        write data s = .ok (data.length, { s1 with ptr := s.ptr + data.length })) ∧
    (∀ n : ℕ, s.ptr < s.buf.length →
      CS.Stream.read n s = .ok ((s.buf.drop s.ptr.toNat).take n,
        { s with ptr := s.ptr + min (n : ℤ) (s.buf.length - s.ptr) })) := by
  have hs : toSize s.ptr = s.ptr.toNat := toSize_of_nonneg h0 (by omega)
  constructor
  · intro data hd hn
    have hw := write_at_eq (s := s) (data := data) (p := s.ptr.toNat) (Or.inl hd)
      (by unfold MAX_SIZE; omega)
    refine ⟨_, hw, ?_⟩
    unfold write
    rw [bind_ok _ _ _ _ _ (get_def s), hs, bind_ok _ _ _ _ _ hw, bind_def, setPtr_def,
      toI32_of_le (by unfold INT_MAX; omega)]
    simp only
    rw [chk_ok (by unfold INT_MIN; omega) (by unfold INT_MAX; omega)]
    rfl
  · intro n hn
    unfold CS.Stream.read
    rw [bind_ok _ _ _ _ _ (get_def s), hs, bind_ok _ _ _ _ _ (read_at_eq (by omega) hl), bind_def,
      setPtr_def, toI32_of_le (by simp; unfold INT_MAX; omega),
      chk_ok (by unfold INT_MIN; omega) (by simp; unfold INT_MAX; omega)]
    simp only [Except.map, pure_def]
    congr 3
    simp; omega

example : write_at [9, 8] 4 ⟨[1, 2], 0, .LITTLE, .LITTLE⟩ = .ok (2, ⟨[1, 2, 0, 0, 9, 8], 0, .LITTLE, .LITTLE⟩) := by
  decide
example : write_at [9, 8] 1 ⟨[1, 2, 3, 4], 0, .LITTLE, .LITTLE⟩ =
    .ok (2, ⟨[1, 9, 8, 4], 0, .LITTLE, .LITTLE⟩) := by decide

/-! ## C32 (refuted) -/

/-- What the code does: at a cursor inside the content every typed put changes the single byte at the
cursor - to the last byte of the encoding - and leaves the cursor where it was. -/
theorem C32_overwrite_actual (dbg : Bool) (k : Kind) (v : k.Carrier) (s : Stream)
    (h0 : 0 ≤ s.ptr) (h1 : s.ptr < s.buf.length) (hl : (s.buf.length : ℤ) ≤ 2147483647) :
    k.put dbg v s = .ok ((), ⟨s.buf.set s.ptr.toNat
      (BitVec.ofNat 8 (if s.writeEndian = .BIG then v.toNat else v.toNat / 256 ^ (k.bytes - 1))),
      s.ptr, s.readEndian, s.writeEndian⟩) := kind_put_mid h0 h1 hl dbg k v

/-- C32 is false: `putUint16(0x1234)` at the start of four zero bytes, read back there, gives `0x0012`,
and the cursor has not moved. -/
theorem C32_overwrite_false :
    ¬ ∀ (s : Stream) (v : BitVec 16), 0 ≤ s.ptr → s.ptr + 2 ≤ s.buf.length →
        (s.buf.length : ℤ) ≤ 2147483647 → s.readEndian = s.writeEndian →
        ∃ s', putUint16 true v s = .ok ((), s') ∧ s'.ptr = s.ptr + 2 ∧
          ∃ s'', getUint16 { s' with ptr := s.ptr } = .ok (v, s'') := by
  intro h
  obtain ⟨s', h1, h2, -⟩ := h ⟨[0, 0, 0, 0], 0, .LITTLE, .LITTLE⟩ 0x1234 (by decide) (by decide)
    (by decide) rfl
  have h3 : putUint16 true 0x1234 ⟨[0, 0, 0, 0], 0, .LITTLE, .LITTLE⟩ =
    .ok ((), ⟨[0x12, 0, 0, 0], 0, .LITTLE, .LITTLE⟩) := by decide
  rw [h3] at h1
  obtain ⟨-, rfl⟩ := Prod.mk.inj (Except.ok.inj h1)
  simp at h2

/-- C32 is false also for the value: nothing of the first byte written survives. -/
theorem C32_readback_false :
    (do putUint16 true 0x1234; let _ ← fseek true 0 .TOP; getUint16 : SM (BitVec 16))
      ⟨[0, 0, 0, 0], 0, .LITTLE, .LITTLE⟩ = .ok (0x0012, ⟨[0x12, 0, 0, 0], 2, .LITTLE, .LITTLE⟩) := by
  decide

/-- C32, the part that holds: overwriting a single byte and reading it back at the same position.
Missing: multi-byte values, and the advance of the cursor. -/
theorem C32_overwrite_partial (dbg : Bool) (v : Byte) (s : Stream)
    (h0 : 0 ≤ s.ptr) (h1 : s.ptr < s.buf.length) (hl : (s.buf.length : ℤ) ≤ 2147483647) :
    ∃ s', putUint8 dbg v s = .ok ((), s') ∧ s'.buf = s.buf.set s.ptr.toNat v ∧ s'.ptr = s.ptr ∧
      getUint8 s' = .ok (v, { s' with ptr := s.ptr + 1 }) := by
  refine ⟨_, putUint8_mid h0 h1 hl dbg v, rfl, rfl, ?_⟩
  have hlen : (poke s v).buf.length = s.buf.length := poke_len s v
  rw [getUint8_eq (s := poke s v) ⟨h0, by rw [hlen]; exact h1.le⟩ (by rw [hlen]; exact hl)]
  have ha : ahead (poke s v) 0 = v := by
    simp only [ahead, poke, Nat.add_zero]
    rw [List.getElem?_set_self (by omega)]; rfl
  rw [ha]
  congr 2
  simp only [adv, poke, List.length_set, Stream.mk.injEq, true_and, and_true]; omega

example : ∃ s : Stream, 0 ≤ s.ptr ∧ s.ptr < s.buf.length ∧ (s.buf.length : ℤ) ≤ 2147483647 :=
  ⟨⟨[7, 7, 7, 7], 1, .BIG, .BIG⟩, by decide, by decide, by decide⟩

/-! ## C33 (refuted) -/

/-- C33 is false: `put_at` writes outside the vector for every state, position and value (it shrinks
the vector to `abs` first when `abs` is inside). -/
theorem C33_put_at_false (s : Stream) (abs : ℕ) (val : Byte) (hm : s.buf.length ≤ 2 ^ 63 - 1) :
    put_at abs val s = .error .outOfBounds := by
  unfold put_at
  rw [bind_ok _ _ _ _ _ (get_def s), ite_def]
  split_ifs with h
  · rw [bind_def, setBuf_def, resize_eq (by unfold MAX_SIZE; omega)]
    simp only [Except.map, setBuf_def, vset, List.length_append, List.length_take, List.length_replicate]
    rw [if_neg (by omega)]
  · simp only [Except.map, setBuf_def, vset]
    rw [if_neg h]

example : put_at 1 9 ⟨[1, 2, 3], 0, .LITTLE, .LITTLE⟩ = .error .outOfBounds := by decide

/-! ## C34 (refuted) -/

/-- C34 is false: the one-character string "A" comes back empty. -/
theorem C34_strings_false :
    ¬ ∀ str : List Byte, str ≠ [] → str.length ≤ 1000 →
      ∃ s', (do
        putUint32 true (BitVec.ofNat 32 str.length)
        putString true str
        seekTo true 0
        get_string : SM (List Byte)) ⟨[], 0, .LITTLE, .LITTLE⟩ = .ok (str, s') := by
  intro h
  obtain ⟨s', hs⟩ := h [65] (by simp) (by simp)
  have h2 : (do
        putUint32 true (BitVec.ofNat 32 1)
        putString true [65]
        seekTo true 0
        get_string : SM (List Byte)) ⟨[], 0, .LITTLE, .LITTLE⟩ =
      .ok ([], ⟨[1, 0, 0, 0, 0], 5, .LITTLE, .LITTLE⟩) := by decide +kernel
  rw [show [(65 : Byte)].length = 1 from rfl, h2] at hs
  simp at hs

/-- What the code does: every non-empty string loses its last character. -/
theorem C34_strings_actual (dbg : Bool) (e : Endian) (str : List Byte) (hne : str ≠ [])
    (hl : (str.length : ℤ) + 4 ≤ 2147483647) :
    ∃ s', (do
      putUint32 dbg (BitVec.ofNat 32 str.length)
      putString dbg str
      seekTo dbg 0
      get_string : SM (List Byte)) ⟨[], 0, e, e⟩ = .ok (str.dropLast, s') := by
  have hpos := List.length_pos_of_ne_nil hne
  obtain ⟨s', h⟩ := string_roundtrip dbg e str str.length (by omega) (by omega) (by omega)
  exact ⟨s', by rw [List.dropLast_eq_take]; exact h⟩

/-- The empty string is worse: `len - 1` wraps around and the loop reads past the string. -/
theorem C34_empty_string_ub (dbg : Bool) (s : Stream) (h : s.ptr = s.buf.length)
    (hl : (s.buf.length : ℤ) + 1 ≤ 2147483647) :
    putString dbg [] s = .error .outOfBounds := by
  unfold putString putSubstr
  rw [show ([] : List Byte).length = 0 from rfl,
    show (0 + 2 ^ 64 - 1) % 2 ^ 64 = (2 ^ 64 - 3) + 1 + 1 by norm_num]
  apply bind_err
  have h1 : AtEnd s := h
  generalize 2 ^ 64 - 3 = n
  rw [putChars, if_neg (by simp), if_pos (by simp), bind_ok _ _ _ _ _ (putUint8_eq h1 hl dbg 0),
    chk_ok (by decide) (by decide)]
  simp only
  rw [bind_ok _ _ _ _ _ (lift_ok _ _), putChars, if_neg (by simp), if_neg (by simp)]
  rfl

/-- C34, the part that holds: with the terminator counted in the length - `putUint32(len + 1)` and
`putSubstr(s, len + 1)` - every string is read back.  Missing: `putString` itself. -/
theorem C34_strings_partial (dbg : Bool) (e : Endian) (str : List Byte)
    (hl : (str.length : ℤ) + 5 ≤ 2147483647) :
    ∃ s', (do
      putUint32 dbg (BitVec.ofNat 32 (str.length + 1))
      putSubstr dbg str (str.length + 1)
      seekTo dbg 0
      get_string : SM (List Byte)) ⟨[], 0, e, e⟩ = .ok (str, s') := by
  obtain ⟨s', h⟩ := string_roundtrip dbg e str (str.length + 1) (by omega) (by omega) (by omega)
  exact ⟨s', by simpa using h⟩

example : ∃ str : List Byte, str ≠ [] ∧ (str.length : ℤ) + 5 ≤ 2147483647 := ⟨[72, 105], by simp, by simp⟩

/-! ## C35 -/

/-- C35: for `a > 0`, `align(a)` moves the cursor to the smallest multiple `t` of `a` not below it
(less than `a` bytes ahead), changing nothing else; in a build with asserts it aborts exactly when `t`
lies beyond the end.  (If `t` does not fit an `int` the addition overflows.) -/
theorem C35_align (s : Stream) (a : ℤ) (ha : 0 < a) (ha' : a ≤ 2147483647)
    (h0 : 0 ≤ s.ptr) (h2 : s.ptr ≤ 2147483647) :
    ∃ t : ℤ, a ∣ t ∧ s.ptr ≤ t ∧ t < s.ptr + a ∧
      (t ≤ s.buf.length → t ≤ 2147483647 → ∀ dbg, align dbg a s = .ok ((), { s with ptr := t })) ∧
      ((s.buf.length : ℤ) < t → t ≤ 2147483647 → align true a s = .error .assertFailed) ∧
      ((s.buf.length : ℤ) < t → t ≤ 2147483647 → align false a s = .ok ((), { s with ptr := t })) ∧
      (2147483647 < t → ∀ dbg, align dbg a s = .error .signedOverflow) := by
  refine ⟨s.ptr + (a - s.ptr % a) % a, ?_, ?_, ?_, ?_⟩
  · exact align_dvd s.ptr a
  · have := Int.emod_nonneg (a - s.ptr % a) ha.ne'; omega
  · have := Int.emod_lt_of_pos (a - s.ptr % a) ha; omega
  · have h5 : 0 ≤ s.ptr + (a - s.ptr % a) % a := by
      have := Int.emod_nonneg (a - s.ptr % a) ha.ne'; omega
    refine ⟨fun h3 h4 dbg => ?_, fun h3 h4 => ?_, fun h3 h4 => ?_, fun h3 dbg => ?_⟩ <;>
    rw [align_eq s a ha ha' h0 h2, fseek_current] <;> generalize s.ptr + (a - s.ptr % a) % a = t at *
    · rw [if_neg (by omega), if_neg (by omega)]
    · rw [if_neg (by omega), if_pos (by simp; omega)]
    · rw [if_neg (by omega), if_neg (by simp)]
    · rw [if_pos (by omega)]

/-- C35: `align` is idempotent. -/
theorem C35_idempotent (dbg : Bool) (s s1 : Stream) (a : ℤ) (ha : 0 < a) (ha' : a ≤ 2147483647)
    (h0 : 0 ≤ s.ptr) (h2 : s.ptr ≤ 2147483647)
    (hs : align dbg a s = .ok ((), s1)) : align dbg a s1 = .ok ((), s1) := by
  rw [align_eq s a ha ha' h0 h2, fseek_current] at hs
  have h5 : 0 ≤ s.ptr + (a - s.ptr % a) % a := by
    have := Int.emod_nonneg (a - s.ptr % a) ha.ne'; omega
  have hd := align_dvd s.ptr a
  generalize s.ptr + (a - s.ptr % a) % a = t at *
  by_cases h3 : t < -2147483648 ∨ 2147483647 < t
  · rw [if_pos h3] at hs; cases hs
  rw [if_neg h3] at hs
  by_cases h4 : dbg = true ∧ (t < 0 ∨ (s.buf.length : ℤ) < t)
  · rw [if_pos h4] at hs; cases hs
  rw [if_neg h4] at hs
  obtain ⟨-, rfl⟩ := Prod.mk.inj (Except.ok.inj hs)
  have ht : t % a = 0 := Int.emod_eq_zero_of_dvd hd
  rw [align_eq _ a ha ha' (by simp only; omega) (by simp only; omega), fseek_current]
  simp only [ht, sub_zero, Int.emod_self, add_zero]
  rw [if_neg h3, if_neg h4]

example : align true 4 ⟨[1, 2, 3, 4, 5], 1, .LITTLE, .LITTLE⟩ = .ok ((), ⟨[1, 2, 3, 4, 5], 4, .LITTLE, .LITTLE⟩) := by
  decide
example : align true 4 ⟨[1, 2, 3, 4, 5], 5, .LITTLE, .LITTLE⟩ = .error .assertFailed := by decide

/-! ## C36 -/

/-- C36 (32 bits): after `p = putPointer32()`, any further typed appends and `adjustPointer32(p)`, the
four bytes at `p` hold the size in write endianness and every other byte is unchanged; seeking to `p`
and reading the pointer returns that size. -/
theorem C36_pointer32 (dbg : Bool) (s : Stream) (vs : List Scalar) (hend : s.ptr = s.buf.length)
    (he : s.readEndian = s.writeEndian) (hl : (s.buf.length : ℤ) + 4 + totalBytes vs ≤ 2147483647) :
    (do
      let p ← putPointer32 dbg
      putAll dbg vs
      adjustPointer32 p
      seekTo dbg p
      getPointer32 : SM ℕ) s =
    .ok (s.buf.length + 4 + totalBytes vs,
      ⟨s.buf ++ order s.writeEndian (leBytes 4 (s.buf.length + 4 + totalBytes vs)) ++
        encodeAll s.writeEndian vs, s.buf.length + 4, s.readEndian, s.writeEndian⟩) := by
  have hE : AtEnd s := hend
  have hm : putPointer32 dbg s = .ok (s.buf.length, app s (order s.writeEndian (leBytes 4 0))) := by
    unfold putPointer32 mark
    rw [bind_ok _ _ _ _ _ rfl, bind_ok _ _ _ _ _ (putUint32_eq hE (by unfold INT_MAX; omega) dbg 0), pure_def, hend,
      toSize_nat (by omega)]; rfl
  rw [bind_ok _ _ _ _ _ hm, bind_ok _ _ _ _ _ (putAll_eq dbg vs (app_atEnd hE _)
    (by simp [length_leBytes]; unfold INT_MAX; omega)), app_app]
  generalize hN : s.buf.length + 4 + totalBytes vs = N
  have hlen : (app s (order s.writeEndian (leBytes 4 0) ++ encodeAll s.writeEndian vs)).buf.length = N := by
    simp [length_leBytes, encodeAll_length]; omega
  have ha := adjustPointer32_eq (app s (order s.writeEndian (leBytes 4 0) ++ encodeAll s.writeEndian vs))
    s.buf.length (by rw [hlen]; omega) (by rw [hlen]; omega)
  rw [hlen] at ha
  have hb : patch (app s (order s.writeEndian (leBytes 4 0) ++ encodeAll s.writeEndian vs)) s.buf.length
      (order s.writeEndian (leBytes 4 N)) =
      ⟨s.buf ++ order s.writeEndian (leBytes 4 N) ++ encodeAll s.writeEndian vs, N, s.readEndian,
        s.writeEndian⟩ := by
    simp only [patch, app, Stream.mk.injEq, and_true]
    constructor
    · simp [List.drop_append, length_leBytes]
    · rw [hend]; simp [length_leBytes, encodeAll_length]; omega
  rw [app_we, hb] at ha
  rw [app_we, bind_ok _ _ _ _ _ ha, bind_ok _ _ _ _ _ (seekTo_eq dbg (by simp) (by unfold INT_MAX; omega))]
  unfold getPointer32
  have hg : getUint32 ⟨s.buf ++ order s.writeEndian (leBytes 4 N) ++ encodeAll s.writeEndian vs, s.buf.length,
      s.readEndian, s.writeEndian⟩ = .ok (BitVec.ofNat 32 N, ⟨s.buf ++ order s.writeEndian (leBytes 4 N) ++
        encodeAll s.writeEndian vs, s.buf.length + 4, s.readEndian, s.writeEndian⟩) :=
    kind_get_mid .u32 (BitVec.ofNat 32 N) s.buf (encodeAll s.writeEndian vs)
    ⟨s.buf ++ order s.writeEndian (leBytes 4 N) ++ encodeAll s.writeEndian vs, s.buf.length, s.readEndian,
        s.writeEndian⟩ (by
      simp only [he, Kind.bytes]
      rw [BitVec.toNat_ofNat, Nat.mod_eq_of_lt (by norm_num; omega)]) rfl
    (by simp [length_leBytes, encodeAll_length]; unfold INT_MAX; omega)
  simp only
  rw [bind_ok _ _ _ _ _ hg, pure_def, BitVec.toNat_ofNat, Nat.mod_eq_of_lt (by norm_num; omega)]

/-- C36 (64 bits). -/
theorem C36_pointer64 (dbg : Bool) (s : Stream) (vs : List Scalar) (hend : s.ptr = s.buf.length)
    (he : s.readEndian = s.writeEndian) (hl : (s.buf.length : ℤ) + 8 + totalBytes vs ≤ 2147483647) :
    (do
      let p ← putPointer64 dbg
      putAll dbg vs
      adjustPointer64 p
      seekTo dbg p
      getPointer64 : SM ℕ) s =
    .ok (s.buf.length + 8 + totalBytes vs,
      ⟨s.buf ++ order s.writeEndian (leBytes 8 (s.buf.length + 8 + totalBytes vs)) ++
        encodeAll s.writeEndian vs, s.buf.length + 8, s.readEndian, s.writeEndian⟩) := by
  have hE : AtEnd s := hend
  have hm : putPointer64 dbg s = .ok (s.buf.length, app s (order s.writeEndian (leBytes 8 0))) := by
    unfold putPointer64 mark
    rw [bind_ok _ _ _ _ _ rfl, bind_ok _ _ _ _ _ (putUint64_eq hE (by unfold INT_MAX; omega) dbg 0), pure_def, hend,
      toSize_nat (by omega)]; rfl
  rw [bind_ok _ _ _ _ _ hm, bind_ok _ _ _ _ _ (putAll_eq dbg vs (app_atEnd hE _)
    (by simp [length_leBytes]; unfold INT_MAX; omega)), app_app]
  generalize hN : s.buf.length + 8 + totalBytes vs = N
  have hlen : (app s (order s.writeEndian (leBytes 8 0) ++ encodeAll s.writeEndian vs)).buf.length = N := by
    simp [length_leBytes, encodeAll_length]; omega
  have ha := adjustPointer64_eq (app s (order s.writeEndian (leBytes 8 0) ++ encodeAll s.writeEndian vs))
    s.buf.length (by rw [hlen]; omega) (by rw [hlen]; omega)
  rw [hlen] at ha
  have hb : patch (app s (order s.writeEndian (leBytes 8 0) ++ encodeAll s.writeEndian vs)) s.buf.length
      (order s.writeEndian (leBytes 8 N)) =
      ⟨s.buf ++ order s.writeEndian (leBytes 8 N) ++ encodeAll s.writeEndian vs, N, s.readEndian,
        s.writeEndian⟩ := by
    simp only [patch, app, Stream.mk.injEq, and_true]
    constructor
    · simp [List.drop_append, length_leBytes]
    · rw [hend]; simp [length_leBytes, encodeAll_length]; omega
  rw [app_we, hb] at ha
  rw [app_we, bind_ok _ _ _ _ _ ha, bind_ok _ _ _ _ _ (seekTo_eq dbg (by simp) (by unfold INT_MAX; omega))]
  unfold getPointer64
  have hg : getUint64 ⟨s.buf ++ order s.writeEndian (leBytes 8 N) ++ encodeAll s.writeEndian vs, s.buf.length,
      s.readEndian, s.writeEndian⟩ = .ok (BitVec.ofNat 64 N, ⟨s.buf ++ order s.writeEndian (leBytes 8 N) ++
        encodeAll s.writeEndian vs, s.buf.length + 8, s.readEndian, s.writeEndian⟩) :=
    kind_get_mid .u64 (BitVec.ofNat 64 N) s.buf (encodeAll s.writeEndian vs)
    ⟨s.buf ++ order s.writeEndian (leBytes 8 N) ++ encodeAll s.writeEndian vs, s.buf.length, s.readEndian,
        s.writeEndian⟩ (by
      simp only [he, Kind.bytes]
      rw [BitVec.toNat_ofNat, Nat.mod_eq_of_lt (by norm_num; omega)]) rfl
    (by simp [length_leBytes, encodeAll_length]; unfold INT_MAX; omega)
  simp only
  rw [bind_ok _ _ _ _ _ hg, pure_def, BitVec.toNat_ofNat, Nat.mod_eq_of_lt (by norm_num; omega)]

example : (do
    let p ← putPointer32 true
    putAll true [⟨.u8, 7⟩]
    adjustPointer32 p
    seekTo true p
    getPointer32 : SM ℕ) ⟨[0xAA], 1, .BIG, .BIG⟩ = .ok (6, ⟨[0xAA, 0, 0, 0, 6, 7], 5, .BIG, .BIG⟩) := by
  decide +kernel

/-! ## C37 -/

/-- A stream operation with its arguments. -/
inductive Op where
  | init (data : Option (List Byte)) (sz : ℕ)
  | fseek (offs : ℤ) (c : Cursor)
  | seekTo (p : ℕ)
  | feof | ftell | mark
  | get_at (abs : ℕ)
  | put_at (abs : ℕ) (val : Byte)
  | read_at (n p : ℕ)
  | write_at (data : List Byte) (p : ℕ)
  | read (n : ℕ)
  | write (data : List Byte)
  | get (k : Kind)
  | put (k : Kind) (v : k.Carrier)
  | getSubstr (len : ℤ)
  | get_string
  | putSubstr (str : List Byte) (len : ℕ)
  | putString (str : List Byte)
  | align (a : ℤ)
  | getPointer32 | getPointer64 | putPointer32 | putPointer64
  | adjustPointer32 (p : ℕ) | adjustPointer64 (p : ℕ)
  | setReadEndian (e : Endian) | setWriteEndian (e : Endian)

/-- Running an operation in a build with asserts. -/
def Op.run : Op → SM Unit
  | .init d n => Stream.init d n
  | .fseek o c => discard (Stream.fseek true o c)
  | .seekTo p => Stream.seekTo true p
  | .feof => discard Stream.feof
  | .ftell => discard Stream.ftell
  | .mark => discard Stream.mark
  | .get_at i => discard (Stream.get_at i)
  | .put_at i v => Stream.put_at i v
  | .read_at n p => discard (Stream.read_at n p)
  | .write_at d p => discard (Stream.write_at d p)
  | .read n => discard (Stream.read n)
  | .write d => discard (Stream.write d)
  | .get k => discard k.get
  | .put k v => k.put true v
  | .getSubstr n => discard (Stream.getSubstr n)
  | .get_string => discard Stream.get_string
  | .putSubstr s n => Stream.putSubstr true s n
  | .putString s => Stream.putString true s
  | .align a => Stream.align true a
  | .getPointer32 => discard Stream.getPointer32
  | .getPointer64 => discard Stream.getPointer64
  | .putPointer32 => discard (Stream.putPointer32 true)
  | .putPointer64 => discard (Stream.putPointer64 true)
  | .adjustPointer32 p => Stream.adjustPointer32 p
  | .adjustPointer64 p => Stream.adjustPointer64 p
  | .setReadEndian e => Stream.setReadEndian e
  | .setWriteEndian e => Stream.setWriteEndian e

/-- The arguments are values of their C++ types: `int`s in range, and a block passed to `write` no longer
than `INT_MAX` (its size is cast to `int`). -/
def Op.valid : Op → Prop
  | .fseek o _ => -2147483648 ≤ o ∧ o ≤ 2147483647
  | .write d => (d.length : ℤ) ≤ 2147483647
  | _ => True

/-- Running a sequence of operations. -/
def runAll : List Op → SM Unit
  | [] => pure ()
  | o :: os => do o.run; runAll os

/-- C37: in a build with asserts, after any sequence of operations that completed (no abort, no undefined
behaviour), starting from a constructed stream, the cursor lies between 0 and the buffer size. -/
theorem C37_cursor_inside (data : Option (List Byte)) (sz : ℕ) (s0 s : Stream) (os : List Op)
    (hv : ∀ o ∈ os, o.valid) (h0 : construct data sz = .ok s0) (hr : runAll os s0 = .ok ((), s)) :
    0 ≤ s.ptr ∧ s.ptr ≤ s.buf.length ∧ s.ptr ≤ 2147483647 := by
  have hi : CInv s0 := by
    unfold construct at h0
    have hb : CInv blank := ⟨by simp [blank], by simp [blank], by simp [blank, INT_MAX]⟩
    have := init_pres data sz blank hb
    cases hc : Stream.init data sz blank with
    | error e => rw [hc] at h0; cases h0
    | ok p =>
      rw [hc] at h0
      obtain ⟨x, s1⟩ := p
      have := this x s1 hc
      cases h0; exact this
  have key : ∀ os : List Op, (∀ o ∈ os, o.valid) → Pres (runAll os) := by
    intro os
    induction os with
    | nil => intro _; exact pres_pure ()
    | cons o os ih =>
      intro hv
      refine pres_bind ?_ fun _ => ih fun o ho => hv o (List.mem_cons_of_mem _ ho)
      have hvo := hv o List.mem_cons_self
      cases o <;> simp only [Op.run, Op.valid] at hvo ⊢
      case init d n => exact init_pres d n
      case fseek o c => exact pres_discard (fseek_pres o c hvo)
      case seekTo p => exact seekTo_pres p
      case feof => exact pres_discard (pres_const fun _ => rfl)
      case ftell => exact pres_discard (pres_const fun _ => rfl)
      case mark => exact pres_discard (pres_const fun _ => rfl)
      case get_at i => exact pres_discard (get_at_pres i)
      case put_at i v => exact put_at_pres i v
      case read_at n p => exact pres_discard (read_at_pres n p)
      case write_at d p => exact pres_discard (write_at_pres d p)
      case read n => exact pres_discard (read_pres n)
      case write d => exact pres_discard (write_pres d hvo)
      case get k => exact pres_discard (good_pres (kind_get_good k))
      case put k v => exact good_pres (kind_put_good k v)
      case getSubstr n => exact pres_discard (good_pres (getSubstr_good n))
      case get_string => exact pres_discard (good_pres get_string_good)
      case putSubstr s n => exact putSubstr_pres s n
      case putString s => exact putSubstr_pres s _
      case align a => exact good_pres (align_good a)
      case getPointer32 => exact pres_discard (good_pres getPointer32_good)
      case getPointer64 => exact pres_discard (good_pres getPointer64_good)
      case putPointer32 => exact pres_discard (good_pres putPointer32_good)
      case putPointer64 => exact pres_discard (good_pres putPointer64_good)
      case adjustPointer32 p => exact adjustPointer32_pres p
      case adjustPointer64 p => exact adjustPointer64_pres p
      case setReadEndian e => exact pres_modify fun s h => ⟨h.nonneg, h.le, h.int⟩
      case setWriteEndian e => exact pres_modify fun s h => ⟨h.nonneg, h.le, h.int⟩
  have h := key os hv s0 hi () s hr
  exact ⟨h.nonneg, h.le, h.int⟩

/-- C37: from a state with the cursor inside, no typed get or put, string read, seek, alignment or pointer
placeholder touches memory outside the buffer - whatever the buffer size. -/
theorem C37_no_out_of_bounds (s : Stream) (h0 : 0 ≤ s.ptr) (h1 : s.ptr ≤ s.buf.length)
    (h2 : s.ptr ≤ 2147483647) :
    (∀ k : Kind, k.get s ≠ .error .outOfBounds) ∧
    (∀ (k : Kind) (v : k.Carrier), k.put true v s ≠ .error .outOfBounds) ∧
    (∀ n, getSubstr n s ≠ .error .outOfBounds) ∧ get_string s ≠ .error .outOfBounds ∧
    (∀ a, align true a s ≠ .error .outOfBounds) ∧
    getPointer32 s ≠ .error .outOfBounds ∧ getPointer64 s ≠ .error .outOfBounds ∧
    putPointer32 true s ≠ .error .outOfBounds ∧ putPointer64 true s ≠ .error .outOfBounds := by
  have hi : CInv s := ⟨h0, h1, h2⟩
  exact ⟨fun k => good_safe (kind_get_good k) hi, fun k v => good_safe (kind_put_good k v) hi,
    fun n => good_safe (getSubstr_good n) hi, good_safe get_string_good hi,
    fun a => good_safe (align_good a) hi, good_safe getPointer32_good hi, good_safe getPointer64_good hi,
    good_safe putPointer32_good hi, good_safe putPointer64_good hi⟩

/-- C37: `fseek(offs, END)` lands at `size - offs - 1` (so `offs = -1` is the end, `0` the last byte). -/
theorem C37_seek_end (dbg : Bool) (s : Stream) (offs : ℤ) (hl : (s.buf.length : ℤ) ≤ 2147483647)
    (h0 : -1 ≤ offs) (h1 : offs < s.buf.length) (hov : (s.buf.length : ℤ) - offs ≤ 2147483647) :
    fseek dbg offs .END s = .ok (s.buf.length - offs - 1, { s with ptr := s.buf.length - offs - 1 }) := by
  have he : endPos s.buf.length offs = .ok (s.buf.length - offs - 1) := by
    unfold endPos
    rw [toI32_of_le (show (s.buf.length : ℤ) ≤ INT_MAX from hl), chk_ok (by unfold INT_MIN; omega) hov]
    exact chk_ok (by unfold INT_MIN; omega) (by unfold INT_MAX; omega)
  have hm : move offs .END s = .ok ((), { s with ptr := s.buf.length - offs - 1 }) := by
    rw [move, bind_ok _ _ _ _ _ (get_def s), setPtr_def, he]; rfl
  unfold fseek
  rw [bind_ok _ _ _ _ _ hm]
  exact checkCursor_ok dbg (by simp only; omega) (by simp only; omega) (by simp only; unfold INT_MAX; omega)

example : ∃ os : List Op, os.length = 4 ∧ (∀ o ∈ os, o.valid) ∧
    runAll os ⟨[], 0, .LITTLE, .LITTLE⟩ = .ok ((), ⟨[1, 2, 3, 4], 3, .LITTLE, .LITTLE⟩) :=
  ⟨[.put .u16 0x0201, .put .u16 0x0403, .fseek 0 .END, .feof], rfl, by
    intro o ho; fin_cases ho <;> simp [Op.valid], by decide +kernel⟩

/-! ## C59 (refuted) -/

/-- C59 is false: whatever non-empty profile is given, the gamut returned is the same - the identity in
both directions. -/
theorem C59_icc_false (a : List Byte) (ha : a ≠ []) (hm : a.length ≤ 2 ^ 63 - 1) :
    (loadGamutFromICCProfileMemory (some a) a.length : Except UB (Gamut ℝ)) =
      .ok ⟨"", ⟨1, 0, 0, 0, 1, 0, 0, 0, 1⟩, ⟨1, 0, 0, 0, 1, 0, 0, 0, 1⟩⟩ := by
  have hc : construct (some a) a.length = .ok ⟨a, 0, .LITTLE, .LITTLE⟩ := by
    have hpos := List.length_pos_of_ne_nil ha
    unfold construct init
    simp only [bind_def, setBuf_def, resize_eq (show a.length ≤ MAX_SIZE from hm), blank, Except.map,
      if_neg (by omega : ¬ a.length = 0), lt_irrefl, if_false, modify_def]
    simp
  unfold loadGamutFromICCProfileMemory
  rw [hc]
  show Except.ok _ = _
  have hi : (⟨1, 0, 0, 0, 1, 0, 0, 0, 1⟩ : Matrix3 ℝ) = Matrix3.ident := by simp [Matrix3.ident]
  simp only [Gamut.ofFromXYZ, lit_real, Rat.cast_one, Rat.cast_zero, hi]
  rw [← Matrix3.eq_invert_of_mul (Matrix3.ident_mul Matrix3.ident)]

/-- An empty profile is undefined behaviour (`front()` of an empty vector). -/
theorem C59_icc_empty_ub :
    (loadGamutFromICCProfileMemory (some []) 0 : Except UB (Gamut ℝ)) = .error .emptyFront := rfl

end CS
