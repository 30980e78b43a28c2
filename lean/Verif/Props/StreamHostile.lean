import Verif.Props.StreamMixed

/-!
# C136: reading untrusted bytes from a `MemoryStream`

C135 reads what was written.  Here the bytes are arbitrary: any content, any layout, so that lengths of
texts and pointers of sections are whatever an adversary put there.
-/

namespace CS
open Spec CS.Stream Mixed

namespace Hostile

/-- The layout has no raw blocks. -/
def noBlocks : Plan → Prop
  | .done => True
  | .scalar _ _ rest => noBlocks rest
  | .block _ _ => False
  | .text _ rest => noBlocks rest
  | .enter _ _ body rest => noBlocks body ∧ noBlocks rest
  | .jump _ _ rest => noBlocks rest

/-- Where the cursor may be: inside the content if asserts are active, else any `int`. -/
structure St (dbg : Bool) (s : Stream) : Prop where
  len : (s.buf.length : ℤ) ≤ 2147483647
  lo : -2147483648 ≤ s.ptr
  hi : s.ptr ≤ 2147483647
  inside : dbg = true → 0 ≤ s.ptr ∧ s.ptr ≤ s.buf.length

/-- The operation ends in a good state with the bytes unchanged, or (only with asserts) in a failed assert. -/
def Tame (dbg : Bool) {α : Type} (m : SM α) : Prop :=
  ∀ s, St dbg s → (∃ x s', m s = .ok (x, s') ∧ s'.buf = s.buf ∧ St dbg s') ∨
    (dbg = true ∧ m s = .error .assertFailed)
/-- The operation ends in a good state with the bytes unchanged. -/
def Safe (dbg : Bool) {α : Type} (m : SM α) : Prop :=
  ∀ s, St dbg s → ∃ x s', m s = .ok (x, s') ∧ s'.buf = s.buf ∧ St dbg s'

theorem Safe.tame {dbg : Bool} {α : Type} {m : SM α} (h : Safe dbg m) : Tame dbg m := fun s hs => Or.inl (h s hs)

theorem safe_pure (dbg : Bool) {α : Type} (x : α) : Safe dbg (pure x : SM α) := fun s hs => ⟨x, s, rfl, rfl, hs⟩
theorem safe_get (dbg : Bool) : Safe dbg (get : SM Stream) := fun s hs => ⟨s, s, rfl, rfl, hs⟩
theorem safe_bind {dbg : Bool} {α β : Type} {m : SM α} {f : α → SM β} (h : Safe dbg m) (hf : ∀ x, Safe dbg (f x)) :
    Safe dbg (m >>= f) := by
  intro s hs
  obtain ⟨x, s1, h1, h2, h3⟩ := h s hs
  obtain ⟨y, s2, h4, h5, h6⟩ := hf x s1 h3
  exact ⟨y, s2, (bind_ok _ _ _ _ _ h1).trans h4, h5.trans h2, h6⟩
theorem safe_ite {dbg : Bool} {α : Type} {c : Prop} [Decidable c] {a b : SM α} (ha : Safe dbg a) (hb : Safe dbg b) :
    Safe dbg (if c then a else b) := by split_ifs <;> assumption
theorem tame_bind {dbg : Bool} {α β : Type} {m : SM α} {f : α → SM β} (h : Tame dbg m) (hf : ∀ x, Tame dbg (f x)) :
    Tame dbg (m >>= f) := by
  intro s hs
  rcases h s hs with ⟨x, s1, h1, h2, h3⟩ | ⟨h1, h2⟩
  · rcases hf x s1 h3 with ⟨y, s2, h4, h5, h6⟩ | ⟨h4, h5⟩
    · exact Or.inl ⟨y, s2, (bind_ok _ _ _ _ _ h1).trans h4, h5.trans h2, h6⟩
    · exact Or.inr ⟨h4, (bind_ok _ _ _ _ _ h1).trans h5⟩
  · exact Or.inr ⟨h1, bind_err _ _ _ _ h2⟩

theorem getUint8_safe (dbg : Bool) : Safe dbg getUint8 := by
  intro s hs
  unfold getUint8
  by_cases h : toSize s.ptr < s.buf.length
  · have h0 : 0 ≤ s.ptr := by
      by_contra h0
      have := hs.len; have := hs.lo
      unfold toSize at h; omega
    have hp : s.ptr < s.buf.length := by unfold toSize at h; have := hs.len; have := hs.hi; omega
    have hv : vget s.buf (toSize s.ptr) = .ok (s.buf[toSize s.ptr]) := by
      unfold vget; rw [List.getElem?_eq_getElem h]
    refine ⟨s.buf[toSize s.ptr], { s with ptr := s.ptr + 1 }, ?_, rfl, hs.len, ?_, ?_, ?_⟩
    · rw [bind_ok _ _ _ _ _ (get_def s), ite_def, if_pos h, hv, bind_ok _ _ _ _ _ (lift_ok _ _), bind_def,
        setPtr_def, chk_ok (by unfold INT_MIN; omega) (by unfold INT_MAX; have := hs.len; omega)]
      rfl
    · simp only; omega
    · simp only; have := hs.len; omega
    · intro _; simp only; omega
  · refine ⟨0, s, ?_, rfl, hs⟩
    rw [bind_ok _ _ _ _ _ (get_def s), ite_def, if_neg h]; rfl

theorem getUint16_safe (dbg : Bool) : Safe dbg getUint16 :=
  safe_bind (getUint8_safe _) fun _ => safe_bind (getUint8_safe _) fun _ => safe_bind (safe_get _) fun _ => safe_pure _ _
theorem getInt16_safe (dbg : Bool) : Safe dbg getInt16 :=
  safe_bind (getUint8_safe _) fun _ => safe_bind (getUint8_safe _) fun _ => safe_bind (safe_get _) fun _ => safe_pure _ _
theorem getUint32_safe (dbg : Bool) : Safe dbg getUint32 :=
  safe_bind (getUint16_safe _) fun _ => safe_bind (getUint16_safe _) fun _ => safe_bind (safe_get _) fun _ => safe_pure _ _
theorem getInt32_safe (dbg : Bool) : Safe dbg getInt32 :=
  safe_bind (getUint16_safe _) fun _ => safe_bind (getUint16_safe _) fun _ => safe_bind (safe_get _) fun _ => safe_pure _ _
theorem getUint64_safe (dbg : Bool) : Safe dbg getUint64 :=
  safe_bind (safe_get _) fun _ => safe_ite
    (safe_bind (getUint32_safe _) fun _ => safe_bind (getUint32_safe _) fun _ => safe_pure _ _)
    (safe_bind (getUint32_safe _) fun _ => safe_bind (getUint32_safe _) fun _ => safe_pure _ _)
theorem getInt64_safe (dbg : Bool) : Safe dbg getInt64 :=
  safe_bind (safe_get _) fun _ => safe_ite
    (safe_bind (getInt32_safe _) fun _ => safe_bind (getUint32_safe _) fun _ => safe_pure _ _)
    (safe_bind (getUint32_safe _) fun _ => safe_bind (getInt32_safe _) fun _ => safe_pure _ _)
theorem kind_safe (dbg : Bool) (k : Kind) : Safe dbg k.get := by
  cases k
  · exact getUint8_safe _
  · exact getUint16_safe _
  · exact getUint32_safe _
  · exact getUint64_safe _
  · exact getUint8_safe _
  · exact getInt16_safe _
  · exact getInt32_safe _
  · exact getInt64_safe _
  · exact getUint32_safe _
  · exact getUint64_safe _
theorem getChars_safe (dbg : Bool) (n : ℕ) : Safe dbg (getChars n) := by
  induction n with
  | zero => exact safe_pure _ _
  | succ n ih => exact safe_bind (getUint8_safe _) fun _ => safe_bind ih fun _ => safe_pure _ _
theorem chk_safe (dbg : Bool) {i : ℤ} (h0 : INT_MIN ≤ i) (h1 : i ≤ INT_MAX) : Safe dbg (liftM (chk i) : SM ℤ) := by
  rw [chk_ok h0 h1]; exact fun s hs => ⟨i, s, rfl, rfl, hs⟩
theorem getSubstr_safe (dbg : Bool) (n : ℤ) (h0 : 0 < n) (h1 : n ≤ INT_MAX) : Safe dbg (getSubstr n) :=
  safe_bind (chk_safe _ (by unfold INT_MIN; omega) (by omega)) fun _ => safe_bind (getChars_safe _ _) fun _ =>
    safe_ite (safe_bind (getUint8_safe _) fun _ => safe_pure _ _) (safe_pure _ _)
theorem get_string_safe (dbg : Bool) : Safe dbg get_string := by
  refine safe_bind (getUint32_safe _) fun len => ?_
  by_cases h : 0 < len.toInt
  · rw [if_pos h]
    exact getSubstr_safe _ _ h (by unfold INT_MAX; have := BitVec.toInt_lt (x := len); norm_num at this; omega)
  · rw [if_neg h]; exact safe_pure _ _
theorem getPointer_safe (dbg wide : Bool) : Safe dbg (getPointer wide) := by
  cases wide
  · exact safe_bind (getUint32_safe _) fun _ => safe_pure _ _
  · exact safe_bind (getUint64_safe _) fun _ => safe_pure _ _
theorem setRead_safe (dbg : Bool) (e : Endian) : Safe dbg (setReadEndian e) := fun s hs =>
  ⟨(), re s e, rfl, rfl, hs.len, hs.lo, hs.hi, hs.inside⟩

theorem toI32_bounds (p : ℕ) : -2147483648 ≤ toI32 p ∧ toI32 p ≤ 2147483647 := by
  unfold toI32; rw [Int.bmod_def]; split_ifs <;> omega

theorem fseek_tame (dbg : Bool) (q : ℤ) (h1 : -2147483648 ≤ q) (h2 : q ≤ 2147483647) :
    Tame dbg (fseek dbg q .TOP) := by
  intro s hs
  have hm : move q .TOP s = .ok ((), { s with ptr := q }) := rfl
  have h2' : q ≤ INT_MAX := h2
  cases dbg
  · left
    exact ⟨q, { s with ptr := q }, (bind_ok _ _ _ _ _ hm).trans (checkCursor_ndebug _), rfl,
      ⟨hs.len, h1, h2, by simp⟩⟩
  · by_cases h : q < 0 ∨ (s.buf.length : ℤ) < q
    · right
      exact ⟨rfl, (bind_ok _ _ _ _ _ hm).trans (checkCursor_fail h h2')⟩
    · left
      rw [not_or, not_lt, not_lt] at h
      exact ⟨q, { s with ptr := q }, (bind_ok _ _ _ _ _ hm).trans (checkCursor_ok true h.1 h.2 h2'), rfl,
        ⟨hs.len, h1, h2, fun _ => h⟩⟩

theorem seekTo_tame (dbg : Bool) (p : ℕ) : Tame dbg (seekTo dbg p) :=
  tame_bind (fseek_tame dbg _ (toI32_bounds p).1 (toI32_bounds p).2) fun _ => (safe_pure _ _).tame

theorem read_tame (dbg : Bool) (pl : Plan) (h : noBlocks pl) : Tame dbg (pl.read dbg) := by
  induction pl with
  | done => exact (safe_pure _ _).tame
  | scalar e k rest ih =>
    rw [Plan.read]
    exact tame_bind (setRead_safe _ e).tame fun _ => tame_bind (kind_safe _ k).tame fun _ =>
      tame_bind (ih h) fun _ => (safe_pure _ _).tame
  | block n rest ih => exact h.elim
  | text e rest ih =>
    rw [Plan.read]
    exact tame_bind (setRead_safe _ e).tame fun _ => tame_bind (get_string_safe _).tame fun _ =>
      tame_bind (ih h) fun _ => (safe_pure _ _).tame
  | enter w e body rest ihb ihr =>
    rw [Plan.read]
    exact tame_bind (setRead_safe _ e).tame fun _ => tame_bind (getPointer_safe _ w).tame fun _ =>
      tame_bind (ihb h.1) fun _ => tame_bind (ihr h.2) fun _ => (safe_pure _ _).tame
  | jump w e rest ih =>
    rw [Plan.read]
    exact tame_bind (setRead_safe _ e).tame fun _ => tame_bind (getPointer_safe _ w).tame fun p =>
      tame_bind (seekTo_tame dbg p) fun _ => tame_bind (ih h) fun _ => (safe_pure _ _).tame

end Hostile

open Hostile

/-- C136 (without asserts): whatever the bytes and the layout of scalars, texts and sections, the reader
finishes - no undefined behaviour, no failure - and the bytes are unchanged, wherever the pointers in the
bytes send the cursor. -/
theorem C136_release (s : Stream) (pl : Plan) (h : noBlocks pl) (hl : (s.buf.length : ℤ) ≤ 2147483647)
    (h0 : -2147483648 ≤ s.ptr) (h1 : s.ptr ≤ 2147483647) :
    ∃ found s', pl.read false s = .ok (found, s') ∧ s'.buf = s.buf := by
  rcases read_tame false pl h s ⟨hl, h0, h1, by simp⟩ with ⟨x, s', g1, g2, -⟩ | ⟨g, -⟩
  · exact ⟨x, s', g1, g2⟩
  · cases g

/-- C136 (with asserts): from a cursor inside, the reader finishes with the bytes unchanged and the cursor
inside, or aborts on a failed assert; nothing else can happen. -/
theorem C136_debug (s : Stream) (pl : Plan) (h : noBlocks pl) (hl : (s.buf.length : ℤ) ≤ 2147483647)
    (h0 : 0 ≤ s.ptr) (h1 : s.ptr ≤ s.buf.length) :
    (∃ found s', pl.read true s = .ok (found, s') ∧ s'.buf = s.buf ∧ 0 ≤ s'.ptr ∧ s'.ptr ≤ s'.buf.length) ∨
    pl.read true s = .error .assertFailed := by
  rcases read_tame true pl h s ⟨hl, by omega, by omega, fun _ => ⟨h0, h1⟩⟩ with ⟨x, s', g1, g2, g3⟩ | ⟨-, g⟩
  · exact Or.inl ⟨x, s', g1, g2, g3.inside rfl⟩
  · exact Or.inr g

/-- C136 (jumps): with asserts the jump aborts exactly for pointers that do not lie in the content; the
pointer of a 64-bit section counts modulo 2^32. -/
theorem C136_jump (s : Stream) (p : ℕ) (hl : (s.buf.length : ℤ) ≤ 2147483647) :
    seekTo true p s = (if p % 4294967296 ≤ s.buf.length
      then .ok ((), { s with ptr := (p % 4294967296 : ℕ) }) else .error .assertFailed) := by
  have hm : move (toI32 p) .TOP s = .ok ((), { s with ptr := toI32 p }) := rfl
  have hb : toI32 p = if p % 4294967296 < 2147483648 then ((p % 4294967296 : ℕ) : ℤ)
      else ((p % 4294967296 : ℕ) : ℤ) - 4294967296 := by
    unfold toI32; rw [Int.bmod_def]; split_ifs <;> omega
  unfold seekTo fseek
  by_cases h : p % 4294967296 ≤ s.buf.length
  · rw [if_pos h]
    rw [if_pos (by omega)] at hb
    rw [hb] at hm ⊢
    rw [bind_def, bind_ok _ _ _ _ _ hm, checkCursor_ok true (by simp only; omega) (by simp only; omega)
      (by simp only [INT_MAX]; omega)]
    rfl
  · rw [if_neg h]
    refine bind_err _ _ _ _ ((bind_ok _ _ _ _ _ hm).trans (checkCursor_fail ?_ ?_))
    · simp only; split_ifs at hb <;> omega
    · simp only [INT_MAX]; split_ifs at hb <;> omega

/-- C136 (blocks): `read` is safe only before the end: at the end of the content it forms `&buffer_[size()]`
even for 0 bytes, so a reader of raw blocks has to ask `feof` first. -/
theorem C136_read_at_end (s : Stream) (n : ℕ) (hl : (s.buf.length : ℤ) ≤ 2147483647)
    (he : s.ptr = s.buf.length) :
    CS.Stream.read n s = .error .outOfBounds ∧ feof s = .ok (true, s) := by
  have hp : toSize s.ptr = s.buf.length := by rw [he]; exact toSize_nat (by omega)
  constructor
  · unfold CS.Stream.read
    rw [bind_ok _ _ _ _ _ (get_def s), hp]
    apply bind_err
    unfold read_at
    rw [bind_ok _ _ _ _ _ (get_def s), sub_self, chk_ok (by decide) (by decide), bind_ok _ _ _ _ _ (lift_ok _ _)]
    simp only [bind_def, ite_def, pure_def, addr, get_def, throw_def, lt_irrefl, if_false]
  · unfold feof; rw [hp]; simp

/-- C136 (a hostile pointer): without asserts four bytes `FF FF FF FF` in place of a pointer make the cursor
negative, and a block read after the jump leaves the buffer. -/
theorem C136_hostile_pointer :
    (Plan.jump false .LITTLE (.block 1 .done)).read false ⟨[255, 255, 255, 255, 7], 0, .LITTLE, .LITTLE⟩ =
      .error .outOfBounds := by
  have h : (match (Plan.jump false .LITTLE (.block 1 .done)).read false
      ⟨[255, 255, 255, 255, 7], 0, .LITTLE, .LITTLE⟩ with
    | .error .outOfBounds => true
    | _ => false) = true := by decide +kernel
  generalize Plan.read false _ _ = r at h ⊢
  rcases r with e | v
  · cases e <;> simp at h ⊢
  · simp at h

/-- The hypotheses are met by a text whose length is a lie. -/
example : noBlocks (.text .BIG (.jump true .LITTLE .done)) ∧
    ∃ r s', (Plan.text .BIG (.jump true .LITTLE .done)).read false ⟨[0, 0, 0, 9, 65], 0, .LITTLE, .LITTLE⟩ =
      .ok (r, s') := by
  refine ⟨trivial, ?_⟩
  obtain ⟨r, s', h, -⟩ := C136_release ⟨[0, 0, 0, 9, 65], 0, .LITTLE, .LITTLE⟩
    (.text .BIG (.jump true .LITTLE .done)) trivial (by simp) (by simp) (by simp)
  exact ⟨r, s', h⟩

end CS
