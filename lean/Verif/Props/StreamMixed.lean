import Verif.Props.Stream

/-!
# C135: structured documents through `MemoryStream`

C28 reads back a homogeneous list of scalars and C36 one back-patched pointer.  Here a *document* is any
nesting of scalars of every type, raw blocks, length-prefixed texts and sections that start with a pointer
(32 or 64 bits) to the position after their end; every field chooses its own byte order.  It is appended
to whatever the stream already holds.  A reader that knows the layout - and that may jump over any section
through its pointer instead of reading it - gets every field back.
-/

namespace CS
open Spec CS.Stream

namespace Mixed

/-- A document: a sequence of fields.  `skip` tells whether the reader will jump over the section. -/
inductive Doc where
  | done
  | scalar (e : Endian) (v : Scalar) (rest : Doc)
  | block (data : List Byte) (rest : Doc)
  | text (e : Endian) (str : List Byte) (rest : Doc)
  | sect (wide : Bool) (e : Endian) (skip : Bool) (body rest : Doc)

/-- What a reader has to know: the layout without the values. -/
inductive Plan where
  | done
  | scalar (e : Endian) (k : Kind) (rest : Plan)
  | block (n : ℕ) (rest : Plan)
  | text (e : Endian) (rest : Plan)
  | enter (wide : Bool) (e : Endian) (body rest : Plan)
  | jump (wide : Bool) (e : Endian) (rest : Plan)

/-- What a reader gets. -/
inductive Found where
  | val (v : Scalar)
  | bytes (l : List Byte)
  | str (l : List Byte)
  | pos (p : ℕ)

/-- The layout of a document. -/
def Doc.plan : Doc → Plan
  | .done => .done
  | .scalar e v rest => .scalar e v.1 rest.plan
  | .block data rest => .block data.length rest.plan
  | .text e _ rest => .text e rest.plan
  | .sect w e true _ rest => .jump w e rest.plan
  | .sect w e false body rest => .enter w e body.plan rest.plan

/-- Bytes of a pointer. -/
def ptrBytes (wide : Bool) : ℕ := if wide then 8 else 4

/-- Bytes a document occupies. -/
def Doc.size : Doc → ℕ
  | .done => 0
  | .scalar _ v rest => v.1.bytes + rest.size
  | .block data rest => data.length + rest.size
  | .text _ str rest => 4 + (str.length + 1) + rest.size
  | .sect w _ _ body rest => ptrBytes w + body.size + rest.size

/-- Raw blocks are not empty. -/
def Doc.ok : Doc → Prop
  | .done => True
  | .scalar _ _ rest => rest.ok
  | .block data rest => data ≠ [] ∧ rest.ok
  | .text _ _ rest => rest.ok
  | .sect _ _ _ body rest => body.ok ∧ rest.ok

/-- The fields of a document that starts at position `p`, as the reader meets them: a section begins with
the position after its end. -/
def Doc.fields : ℕ → Doc → List Found
  | _, .done => []
  | p, .scalar _ v rest => .val v :: rest.fields (p + v.1.bytes)
  | p, .block data rest => .bytes data :: rest.fields (p + data.length)
  | p, .text _ str rest => .str str :: rest.fields (p + (4 + (str.length + 1)))
  | p, .sect w _ skip body rest =>
    .pos (p + ptrBytes w + body.size) ::
      ((if skip then [] else body.fields (p + ptrBytes w)) ++ rest.fields (p + ptrBytes w + body.size))

/-- `putPointer32` or `putPointer64`. -/
def putPointer (dbg wide : Bool) : SM ℕ := if wide then putPointer64 dbg else putPointer32 dbg
/-- `adjustPointer32` or `adjustPointer64`. -/
def adjustPointer (wide : Bool) (p : ℕ) : SM Unit := if wide then adjustPointer64 p else adjustPointer32 p
/-- `getPointer32` or `getPointer64`. -/
def getPointer (wide : Bool) : SM ℕ := if wide then getPointer64 else getPointer32

/-- Write a document. -/
def Doc.write (dbg : Bool) : Doc → SM Unit
  | .done => return ()
  | .scalar e v rest => do
    setWriteEndian e
    v.1.put dbg v.2
    rest.write dbg
  | .block data rest => do
    let _ ← CS.Stream.write data
    rest.write dbg
  | .text e str rest => do
    setWriteEndian e
    putUint32 dbg (BitVec.ofNat 32 (str.length + 1))
    putSubstr dbg str (str.length + 1)
    rest.write dbg
  | .sect w e _ body rest => do
    setWriteEndian e
    let p ← putPointer dbg w
    body.write dbg
    setWriteEndian e
    adjustPointer w p
    rest.write dbg

/-- Read a document, given its layout. -/
def Plan.read (dbg : Bool) : Plan → SM (List Found)
  | .done => return []
  | .scalar e k rest => do
    setReadEndian e
    let v ← k.get
    let r ← rest.read dbg
    return .val ⟨k, v⟩ :: r
  | .block n rest => do
    let d ← CS.Stream.read n
    let r ← rest.read dbg
    return .bytes d :: r
  | .text e rest => do
    setReadEndian e
    let t ← get_string
    let r ← rest.read dbg
    return .str t :: r
  | .enter w e body rest => do
    setReadEndian e
    let p ← getPointer w
    let b ← body.read dbg
    let r ← rest.read dbg
    return .pos p :: (b ++ r)
  | .jump w e rest => do
    setReadEndian e
    let p ← getPointer w
    seekTo dbg p
    let r ← rest.read dbg
    return .pos p :: r

/-! ### The bytes -/

/-- The bytes of a document that starts at position `p`. -/
def Doc.enc : ℕ → Doc → List Byte
  | _, .done => []
  | p, .scalar e v rest => order e (leBytes v.1.bytes v.2.toNat) ++ rest.enc (p + v.1.bytes)
  | p, .block data rest => data ++ rest.enc (p + data.length)
  | p, .text e str rest =>
    order e (leBytes 4 (str.length + 1)) ++ str ++ [0] ++ rest.enc (p + (4 + (str.length + 1)))
  | p, .sect w e _ body rest =>
    order e (leBytes (ptrBytes w) (p + ptrBytes w + body.size)) ++ body.enc (p + ptrBytes w) ++
      rest.enc (p + ptrBytes w + body.size)

theorem enc_length (p : ℕ) (d : Doc) : (d.enc p).length = d.size := by
  induction d generalizing p with
  | done => rfl
  | scalar e v rest ih => simp [Doc.enc, Doc.size, ih, length_leBytes]
  | block data rest ih => simp [Doc.enc, Doc.size, ih]
  | text e str rest ih => simp [Doc.enc, Doc.size, ih, length_leBytes]; omega
  | sect w e skip body rest ihb ihr => simp [Doc.enc, Doc.size, ihb, ihr, length_leBytes]; omega

/-- Set the write order of a state. -/
def we (s : Stream) (e : Endian) : Stream := { s with writeEndian := e }
/-- Set the read order of a state. -/
def re (s : Stream) (e : Endian) : Stream := { s with readEndian := e }

theorem setWrite_we (e : Endian) (s : Stream) : setWriteEndian e s = .ok ((), we s e) := rfl
theorem setRead_re (e : Endian) (s : Stream) : setReadEndian e s = .ok ((), re s e) := rfl

theorem putPointer_eq (dbg wide : Bool) {s : Stream} (h : AtEnd s)
    (hl : (s.buf.length : ℤ) + ptrBytes wide ≤ INT_MAX) :
    putPointer dbg wide s = .ok (s.buf.length, app s (order s.writeEndian (leBytes (ptrBytes wide) 0))) := by
  have hp : toSize s.ptr = s.buf.length := by
    rw [show s.ptr = (s.buf.length : ℤ) from h]
    exact toSize_nat (by unfold INT_MAX at hl; omega)
  cases wide
  · simp only [putPointer, ptrBytes, Bool.false_eq_true, if_false] at *
    unfold putPointer32 mark
    rw [bind_ok _ _ _ _ _ rfl, bind_ok _ _ _ _ _ (putUint32_eq h (by push_cast at hl; omega) dbg 0), pure_def, hp]
    rfl
  · simp only [putPointer, ptrBytes, if_true] at *
    unfold putPointer64 mark
    rw [bind_ok _ _ _ _ _ rfl, bind_ok _ _ _ _ _ (putUint64_eq h (by push_cast at hl; omega) dbg 0), pure_def, hp]
    rfl

theorem adjustPointer_eq (wide : Bool) (s : Stream) (p : ℕ) (h : p + ptrBytes wide ≤ s.buf.length)
    (hl : (s.buf.length : ℤ) ≤ INT_MAX) :
    adjustPointer wide p s =
      .ok ((), patch s p (order s.writeEndian (leBytes (ptrBytes wide) s.buf.length))) := by
  unfold INT_MAX at hl
  cases wide
  · exact adjustPointer32_eq s p h (by omega)
  · exact adjustPointer64_eq s p h (by omega)

theorem getPointer_eq (wide : Bool) (N : ℕ) (pre post : List Byte) (s : Stream)
    (hb : s.buf = pre ++ order s.readEndian (leBytes (ptrBytes wide) N) ++ post)
    (hp : s.ptr = pre.length) (hl : (s.buf.length : ℤ) ≤ INT_MAX) (hN : (N : ℤ) ≤ INT_MAX) :
    getPointer wide s = .ok (N, { s with ptr := s.ptr + ptrBytes wide }) := by
  unfold INT_MAX at hN
  cases wide
  · have hn : (BitVec.ofNat 32 N).toNat = N := by rw [BitVec.toNat_ofNat, Nat.mod_eq_of_lt (by norm_num; omega)]
    have := kind_get_mid .u32 (BitVec.ofNat 32 N) pre post s
      (show s.buf = pre ++ order s.readEndian (leBytes 4 (BitVec.ofNat 32 N).toNat) ++ post by rw [hn]; exact hb)
      hp hl
    simp only [getPointer, Bool.false_eq_true, if_false]
    unfold getPointer32
    rw [bind_ok _ _ _ _ _ (show getUint32 s = _ from this), pure_def, hn]
    rfl
  · have hn : (BitVec.ofNat 64 N).toNat = N := by rw [BitVec.toNat_ofNat, Nat.mod_eq_of_lt (by norm_num; omega)]
    have := kind_get_mid .u64 (BitVec.ofNat 64 N) pre post s
      (show s.buf = pre ++ order s.readEndian (leBytes 8 (BitVec.ofNat 64 N).toNat) ++ post by rw [hn]; exact hb)
      hp hl
    simp only [getPointer, if_true]
    unfold getPointer64
    rw [bind_ok _ _ _ _ _ (show getUint64 s = _ from this), pure_def, hn]
    rfl

theorem write_end {s : Stream} (h : AtEnd s) {data : List Byte} (hd : data ≠ [])
    (hl : (s.buf.length : ℤ) + data.length ≤ INT_MAX) :
    CS.Stream.write data s = .ok (data.length, app s data) := by
  unfold INT_MAX at hl
  have hE : s.ptr = s.buf.length := h
  obtain ⟨s1, h1, h2⟩ := (C31_cursor s (by omega) (by omega) (by omega)).1 data hd (by omega)
  have h3 := write_at_eq (s := s) (data := data) (p := s.ptr.toNat) (Or.inl hd) (by unfold MAX_SIZE; omega)
  rw [h1] at h3
  obtain rfl := (Prod.mk.inj (Except.ok.inj h3)).2
  rw [h2]
  congr 2
  simp only [app, Stream.mk.injEq, and_true]
  rw [hE, Int.toNat_natCast]
  simp

theorem read_mid (data pre post : List Byte) (hd : data ≠ []) (s : Stream) (hb : s.buf = pre ++ data ++ post)
    (hp : s.ptr = pre.length) (hl : (s.buf.length : ℤ) ≤ INT_MAX) :
    CS.Stream.read data.length s = .ok (data, { s with ptr := s.ptr + data.length }) := by
  unfold INT_MAX at hl
  have hpos := List.length_pos_of_ne_nil hd
  have hlen : s.buf.length = pre.length + data.length + post.length := by rw [hb]; simp; omega
  rw [(C31_cursor s (by omega) (by omega) hl).2 data.length (by omega)]
  congr 2
  · rw [hp, Int.toNat_natCast, hb]; simp
  · congr 2; omega

theorem get_string_mid (e : Endian) (c pre post : List Byte) (s : Stream) (he : s.readEndian = e)
    (hb : s.buf = pre ++ (order e (leBytes 4 (c.length + 1)) ++ c ++ [0]) ++ post)
    (hp : s.ptr = pre.length) (hl : (s.buf.length : ℤ) ≤ INT_MAX) :
    get_string s = .ok (c, { s with ptr := s.ptr + (4 + (c.length + 1) : ℕ) }) := by
  have hl' := hl
  unfold INT_MAX at hl'
  have hlen : s.buf.length = pre.length + 4 + c.length + 1 + post.length := by
    rw [hb]; simp [length_leBytes]; omega
  have hn : (BitVec.ofNat 32 (c.length + 1)).toNat = c.length + 1 := by
    rw [BitVec.toNat_ofNat, Nat.mod_eq_of_lt (by norm_num; omega)]
  have hi : (BitVec.ofNat 32 (c.length + 1)).toInt = (c.length : ℤ) + 1 := by
    rw [BitVec.toInt_eq_toNat_of_lt (by rw [hn]; norm_num; omega), hn]; push_cast; rfl
  have hg : getUint32 s = .ok (BitVec.ofNat 32 (c.length + 1), { s with ptr := s.ptr + 4 }) :=
    kind_get_mid .u32 (BitVec.ofNat 32 (c.length + 1)) pre (c ++ [0] ++ post) s
      (show s.buf = pre ++ order s.readEndian (leBytes 4 (BitVec.ofNat 32 (c.length + 1)).toNat) ++
        (c ++ [0] ++ post) by rw [hn, he, hb]; simp) hp hl
  have hc := getChars_eq (pre ++ order e (leBytes 4 (c.length + 1))) c ([0] ++ post) { s with ptr := s.ptr + 4 }
    (by simpa using hb) (by simp [length_leBytes, hp]) hl
  unfold get_string
  rw [bind_ok _ _ _ _ _ hg, ite_def, hi, if_pos (by omega)]
  unfold getSubstr
  rw [show ((c.length : ℤ) + 1 - 1) = c.length by ring, chk_ok (by unfold INT_MIN; omega) (by unfold INT_MAX; omega),
    bind_ok _ _ _ _ _ (lift_ok _ _), Int.toNat_natCast, bind_ok _ _ _ _ _ hc, ite_def, if_pos (by omega),
    bind_ok _ _ _ _ _ (getUint8_eq (s := ⟨s.buf, s.ptr + 4 + c.length, s.readEndian, s.writeEndian⟩)
      ⟨by simp only; omega, by simp only; omega⟩ hl), pure_def]
  congr 2
  simp only [adv, Stream.mk.injEq, true_and, and_true]; push_cast; omega

theorem we_atEnd {s : Stream} (h : AtEnd s) (e : Endian) : AtEnd (we s e) := h

/-- Writing a document appends its bytes (and leaves some write order). -/
theorem write_eq (dbg : Bool) (d : Doc) (hd : d.ok) {s : Stream} (h : AtEnd s)
    (hl : (s.buf.length : ℤ) + d.size ≤ INT_MAX) :
    ∃ e, d.write dbg s = .ok ((), we (app s (d.enc s.buf.length)) e) := by
  induction d generalizing s with
  | done => exact ⟨s.writeEndian, by cases s; simp [Doc.write, pure_def, app, Doc.enc, we]⟩
  | scalar e v rest ih =>
    simp only [Doc.size, Doc.ok] at hl hd; push_cast at hl
    have h1 := kind_put (we_atEnd h e) dbg v.1 v.2 (by simp only [we]; omega)
    obtain ⟨e', h2⟩ := ih hd (app_atEnd (we_atEnd h e) (order e (leBytes v.1.bytes v.2.toNat)))
      (by simp [we, length_leBytes]; omega)
    refine ⟨e', ?_⟩
    rw [Doc.write, bind_ok _ _ _ _ _ (setWrite_we e s), bind_ok _ _ _ _ _ h1]
    refine h2.trans ?_
    congr 2
    simp [we, app, Doc.enc, length_leBytes, add_assoc]
  | block data rest ih =>
    simp only [Doc.size, Doc.ok] at hl hd; push_cast at hl
    obtain ⟨e', h2⟩ := ih hd.2 (app_atEnd h data) (by simp; omega)
    refine ⟨e', ?_⟩
    rw [Doc.write, bind_ok _ _ _ _ _ (write_end h hd.1 (by omega)), h2]
    congr 2
    simp [we, app, Doc.enc, add_assoc]
  | text e str rest ih =>
    simp only [Doc.size, Doc.ok] at hl hd; push_cast at hl
    have hl' := hl
    unfold INT_MAX at hl'
    have hn : (BitVec.ofNat 32 (str.length + 1)).toNat = str.length + 1 := by
      rw [BitVec.toNat_ofNat, Nat.mod_eq_of_lt (by norm_num; omega)]
    have h1 := putUint32_eq (we_atEnd h e) (by simp only [we]; omega) dbg (BitVec.ofNat 32 (str.length + 1))
    rw [hn] at h1
    have h2 := putSubstr_eq dbg str (str.length + 1)
      (app_atEnd (we_atEnd h e) (order e (leBytes 4 (str.length + 1))))
      (by omega) (by omega) (by unfold INT_MAX; omega) (by simp [we, length_leBytes]; omega)
    rw [app_app] at h2
    obtain ⟨e', h3⟩ := ih hd (app_atEnd (we_atEnd h e) (order e (leBytes 4 (str.length + 1)) ++
      (str.take (str.length + 1 - 1) ++ [0]))) (by simp [we, length_leBytes]; omega)
    refine ⟨e', ?_⟩
    rw [Doc.write, bind_ok _ _ _ _ _ (setWrite_we e s), bind_ok _ _ _ _ _ h1]
    refine (bind_ok _ _ _ _ _ h2).trans (h3.trans ?_)
    refine congrArg (fun x => Except.ok ((), x)) ?_
    simp [we, app, Doc.enc, length_leBytes, add_assoc]
    exact add_comm _ _
  | sect w e skip body rest ihb ihr =>
    simp only [Doc.size, Doc.ok] at hl hd; push_cast at hl
    have h1 := putPointer_eq dbg w (we_atEnd h e) (by simp only [we]; omega)
    obtain ⟨e1, h2⟩ := ihb hd.1 (app_atEnd (we_atEnd h e) (order e (leBytes (ptrBytes w) 0)))
      (by simp [we, length_leBytes]; omega)
    set q := s.buf.length + ptrBytes w + body.size with hq
    set B := body.enc (s.buf.length + ptrBytes w) with hB
    have hBl : B.length = body.size := enc_length _ _
    have e2 : we (app (app (we s e) (order e (leBytes (ptrBytes w) 0)))
        (body.enc (app (we s e) (order e (leBytes (ptrBytes w) 0))).buf.length)) e1 =
        ⟨s.buf ++ order e (leBytes (ptrBytes w) 0) ++ B, q, s.readEndian, e1⟩ := by
      simp only [we, app, Stream.mk.injEq, and_true, List.length_append, length_order, length_leBytes]
      refine ⟨by rw [← hB], ?_⟩
      rw [← hB, hBl, show s.ptr = (s.buf.length : ℤ) from h, hq]; push_cast; ring
    rw [e2] at h2
    have h3 := adjustPointer_eq w ⟨s.buf ++ order e (leBytes (ptrBytes w) 0) ++ B, q, s.readEndian, e⟩ s.buf.length
      (by simp [length_leBytes]) (by simp [length_leBytes, hBl]; omega)
    have e3 : patch ⟨s.buf ++ order e (leBytes (ptrBytes w) 0) ++ B, q, s.readEndian, e⟩ s.buf.length
        (order e (leBytes (ptrBytes w) (s.buf ++ order e (leBytes (ptrBytes w) 0) ++ B).length)) =
        ⟨s.buf ++ order e (leBytes (ptrBytes w) q) ++ B, q, s.readEndian, e⟩ := by
      have : (s.buf ++ order e (leBytes (ptrBytes w) 0) ++ B).length = q := by
        simp [length_leBytes, hBl, hq]; omega
      rw [this]
      simp only [patch, Stream.mk.injEq, and_true]
      simp [List.drop_append, length_leBytes]
    simp only [] at h3
    rw [e3] at h3
    obtain ⟨e', h4⟩ := ihr hd.2 (s := ⟨s.buf ++ order e (leBytes (ptrBytes w) q) ++ B, q, s.readEndian, e⟩)
      (by simp only [AtEnd, List.length_append, length_order, length_leBytes, hBl, hq])
      (by simp [length_leBytes, hBl]; omega)
    refine ⟨e', ?_⟩
    rw [Doc.write, bind_ok _ _ _ _ _ (setWrite_we e s), bind_ok _ _ _ _ _ h1]
    refine (bind_ok _ _ _ _ _ h2).trans ?_
    rw [bind_ok _ _ _ _ _ (setWrite_we e _)]
    refine (bind_ok _ _ _ _ _ h3).trans (h4.trans ?_)
    congr 2
    simp only [we, app, Doc.enc, Stream.mk.injEq, and_true, List.length_append, length_order, length_leBytes, hBl,
      ← hq, ← hB, enc_length]
    refine ⟨by simp, ?_⟩
    rw [show s.ptr = (s.buf.length : ℤ) from h, hq]; push_cast; ring

theorem pure_map {α β : Type} {m : SM α} {f : α → β} {s s' : Stream} {x : α} (h : m s = .ok (x, s')) :
    (do let y ← m; return f y : SM β) s = .ok (f x, s') := by
  rw [bind_ok _ _ _ _ _ h, pure_def]

/-- Reading the layout where the bytes of the document lie. -/
theorem read_eq (dbg : Bool) (d : Doc) (hd : d.ok) (pre post : List Byte) (s : Stream)
    (hb : s.buf = pre ++ d.enc pre.length ++ post) (hp : s.ptr = pre.length)
    (hl : (s.buf.length : ℤ) ≤ INT_MAX) :
    ∃ e, d.plan.read dbg s = .ok (d.fields pre.length, re { s with ptr := s.ptr + d.size } e) := by
  induction d generalizing pre post s with
  | done => exact ⟨s.readEndian, by cases s; simp [Doc.plan, Plan.read, pure_def, Doc.fields, re, Doc.size]⟩
  | scalar e v rest ih =>
    simp only [Doc.ok] at hd
    have h1 := kind_get_mid v.1 v.2 pre (rest.enc (pre.length + v.1.bytes) ++ post) (re s e)
      (by simp only [re]; rw [hb, Doc.enc]; simp) hp hl
    obtain ⟨e', h2⟩ := ih hd (pre ++ order e (leBytes v.1.bytes v.2.toNat)) post
      { re s e with ptr := s.ptr + v.1.bytes } (by simp [re, hb, Doc.enc, length_leBytes])
      (by simp [hp, length_leBytes]) hl
    refine ⟨e', ?_⟩
    rw [Doc.plan, Plan.read, bind_ok _ _ _ _ _ (setRead_re e s)]
    refine (bind_ok _ _ _ _ _ h1).trans ((pure_map h2).trans ?_)
    simp [Doc.fields, Doc.size, re, length_leBytes, add_assoc]
  | block data rest ih =>
    simp only [Doc.ok] at hd
    have h1 := read_mid data pre (rest.enc (pre.length + data.length) ++ post) hd.1 s
      (by rw [hb, Doc.enc]; simp) hp hl
    obtain ⟨e', h2⟩ := ih hd.2 (pre ++ data) post { s with ptr := s.ptr + data.length }
      (by simp [hb, Doc.enc]) (by simp [hp]) hl
    refine ⟨e', ?_⟩
    rw [Doc.plan, Plan.read]
    refine (bind_ok _ _ _ _ _ h1).trans ((pure_map h2).trans ?_)
    simp [Doc.fields, Doc.size, re, add_assoc]
  | text e str rest ih =>
    simp only [Doc.ok] at hd
    have h1 := get_string_mid e str pre (rest.enc (pre.length + (4 + (str.length + 1))) ++ post) (re s e) rfl
      (by simp only [re]; rw [hb, Doc.enc]; simp) hp hl
    obtain ⟨e', h2⟩ := ih hd (pre ++ (order e (leBytes 4 (str.length + 1)) ++ str ++ [0])) post
      { re s e with ptr := s.ptr + (4 + (str.length + 1) : ℕ) }
      (by
        simp only [re, hb, Doc.enc, List.length_append, length_order, length_leBytes, List.length_cons,
          List.length_nil]
        rw [show pre.length + (4 + str.length + (0 + 1)) = pre.length + (4 + (str.length + 1)) by omega]
        simp)
      (by simp [hp, length_leBytes]) hl
    refine ⟨e', ?_⟩
    rw [Doc.plan, Plan.read, bind_ok _ _ _ _ _ (setRead_re e s)]
    refine (bind_ok _ _ _ _ _ h1).trans ((pure_map h2).trans ?_)
    have : (pre ++ (order e (leBytes 4 (str.length + 1)) ++ str ++ [0])).length =
        pre.length + (4 + (str.length + 1)) := by simp [length_leBytes]
    rw [this]
    simp [Doc.fields, Doc.size, re, add_assoc]
  | sect w e skip body rest ihb ihr =>
    simp only [Doc.ok] at hd
    set q := pre.length + ptrBytes w + body.size with hq
    have hlen : s.buf.length = pre.length + ptrBytes w + body.size + rest.size + post.length := by
      rw [hb]; simp [enc_length, Doc.size]; omega
    have h1 := getPointer_eq w q pre (body.enc (pre.length + ptrBytes w) ++ rest.enc q ++ post) (re s e)
      (by simp only [re]; rw [hb, Doc.enc, ← hq]; simp) hp hl (by omega)
    have hpre : (pre ++ order e (leBytes (ptrBytes w) q)).length = pre.length + ptrBytes w := by
      simp [length_leBytes]
    have hpre2 : (pre ++ order e (leBytes (ptrBytes w) q) ++ body.enc (pre.length + ptrBytes w)).length = q := by
      rw [List.length_append, hpre, enc_length]
    cases skip with
    | false =>
      obtain ⟨e1, h2⟩ := ihb hd.1 (pre ++ order e (leBytes (ptrBytes w) q)) (rest.enc q ++ post)
        { re s e with ptr := s.ptr + ptrBytes w }
        (by rw [hpre]; simp only [re, hb, Doc.enc, ← hq]; simp) (by rw [hpre, hp]; push_cast; ring) hl
      obtain ⟨e2, h3⟩ := ihr hd.2 (pre ++ order e (leBytes (ptrBytes w) q) ++ body.enc (pre.length + ptrBytes w)) post
        (re { re s e with ptr := s.ptr + ptrBytes w + body.size } e1)
        (by rw [hpre2]; simp only [re, hb, Doc.enc, ← hq]; simp)
        (by rw [hpre2]; simp only [re]; rw [hp, hq]; push_cast; ring) hl
      refine ⟨e2, ?_⟩
      rw [hpre] at h2
      rw [hpre2] at h3
      rw [Doc.plan, Plan.read, bind_ok _ _ _ _ _ (setRead_re e s)]
      refine (bind_ok _ _ _ _ _ h1).trans ((bind_ok _ _ _ _ _ h2).trans ((pure_map h3).trans ?_))
      simp [Doc.fields, Doc.size, re, add_assoc, ← hq]
    | true =>
      have h2 : seekTo dbg q { re s e with ptr := s.ptr + ptrBytes w } =
          .ok ((), { re s e with ptr := q }) :=
        seekTo_eq dbg (by simp only [re]; omega) (by omega)
      obtain ⟨e2, h3⟩ := ihr hd.2 (pre ++ order e (leBytes (ptrBytes w) q) ++ body.enc (pre.length + ptrBytes w)) post
        { re s e with ptr := q }
        (by rw [hpre2]; simp only [re, hb, Doc.enc, ← hq]; simp)
        (by rw [hpre2]) hl
      refine ⟨e2, ?_⟩
      rw [hpre2] at h3
      rw [Doc.plan, Plan.read, bind_ok _ _ _ _ _ (setRead_re e s)]
      refine (bind_ok _ _ _ _ _ h1).trans ((bind_ok _ _ _ _ _ h2).trans ((pure_map h3).trans ?_))
      simp [Doc.fields, Doc.size, re, ← hq]
      rw [hp, hq]; push_cast; ring

end Mixed

open Mixed

/-- C135: whatever a stream holds, a document appended to it - scalars of all types in any byte orders, raw
blocks, texts, sections with back-patched pointers nested to any depth - is read back field by field by a
reader that knows only the layout, whichever sections it jumps over: every value, block and text is the one
written, and every pointer is the position after its section.  What the stream held before is unchanged, the
document occupies exactly its size, and the reader stops at its end. -/
theorem C135_documents (dbg : Bool) (s : Stream) (d : Doc) (hd : d.ok) (hend : s.ptr = s.buf.length)
    (hl : (s.buf.length : ℤ) + d.size ≤ 2147483647) :
    ∃ s', (do
      let start ← ftell
      d.write dbg
      seekTo dbg start
      d.plan.read dbg : SM (List Found)) s = .ok (d.fields s.buf.length, s') ∧
      s'.buf.take s.buf.length = s.buf ∧ s'.buf.length = s.buf.length + d.size ∧
      s'.ptr = s'.buf.length := by
  have hE : AtEnd s := hend
  have h0 : ftell s = .ok (s.buf.length, s) := by
    unfold ftell; rw [hend, toSize_nat (by omega)]
  obtain ⟨e, h1⟩ := write_eq dbg d hd hE hl
  have h2 : seekTo dbg s.buf.length (we (app s (d.enc s.buf.length)) e) =
      .ok ((), ⟨s.buf ++ d.enc s.buf.length, s.buf.length, s.readEndian, e⟩) :=
    seekTo_eq dbg (by simp [we, app]) (by unfold INT_MAX; omega)
  obtain ⟨e', h3⟩ := read_eq dbg d hd s.buf []
    ⟨s.buf ++ d.enc s.buf.length, s.buf.length, s.readEndian, e⟩ (by simp) rfl
    (by simp [enc_length]; unfold INT_MAX; omega)
  refine ⟨_, (bind_ok _ _ _ _ _ h0).trans ((bind_ok _ _ _ _ _ h1).trans ((bind_ok _ _ _ _ _ h2).trans h3)), ?_⟩
  simp [re, enc_length]

/-- The hypotheses are met: a big-endian half word, a text and a skipped section inside a section. -/
example : ∃ (s : Stream) (d : Doc), d.ok ∧ s.ptr = s.buf.length ∧
    (s.buf.length : ℤ) + d.size ≤ 2147483647 ∧ d.size = 37 :=
  ⟨⟨[1, 2, 3], 3, .LITTLE, .BIG⟩,
    .scalar .BIG ⟨.u16, 0x1234⟩ (.text .LITTLE [72, 105] (.sect true .BIG false
      (.sect false .LITTLE true (.block [9, 9, 9] .done) (.scalar .LITTLE ⟨.f64, 0⟩ .done))
      (.scalar .BIG ⟨.i32, 7⟩ (.scalar .LITTLE ⟨.u8, 1⟩ .done)))),
    by simp [Doc.ok], rfl, by simp [Doc.size, Kind.bytes, ptrBytes], by simp [Doc.size, Kind.bytes, ptrBytes]⟩

end CS
