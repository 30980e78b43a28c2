import Verif.Lemmas.Stream

/-! Strings, alignment, pointers and the cursor invariant of the byte stream. -/

namespace CS.Stream

attribute [local irreducible] toI32 toSize
open Spec

/-! ### Strings -/

theorem putChars_eq (dbg : Bool) (str : List Byte) (n i : ℕ) {s : Stream} (h : AtEnd s)
    (hn : n + i ≤ str.length) (hi : (str.length : ℤ) ≤ INT_MAX)
    (hl : (s.buf.length : ℤ) + n ≤ INT_MAX) :
    putChars dbg str n i s = .ok ((), app s ((str.drop i).take n)) := by
  induction n generalizing i s with
  | zero => cases s; simp [putChars, pure_def, app]
  | succ n ih =>
    push_cast at hl
    have hlt : i < str.length := by omega
    have hc : chk ((i : ℤ) + 1) = .ok ((i : ℤ) + 1) :=
      chk_ok (by unfold INT_MIN; omega) (by omega)
    rw [putChars, if_pos hlt, bind_ok _ _ _ _ _ (putUint8_eq h (by omega) dbg _), hc]
    simp only
    rw [bind_ok _ _ _ _ _ (lift_ok _ _), ih (i + 1) (app_atEnd h _) (by omega) (by simp; omega), app_app]
    rw [List.drop_eq_getElem_cons hlt, List.take_succ_cons]
    simp [hlt]

theorem putSubstr_eq (dbg : Bool) (str : List Byte) (len : ℕ) {s : Stream} (h : AtEnd s)
    (h1 : 1 ≤ len) (hn : len ≤ str.length + 1) (hi : (str.length : ℤ) ≤ INT_MAX)
    (hl : (s.buf.length : ℤ) + len ≤ INT_MAX) :
    putSubstr dbg str len s = .ok ((), app s (str.take (len - 1) ++ [0])) := by
  unfold putSubstr
  unfold INT_MAX at hi hl
  have : (len + 2 ^ 64 - 1) % 2 ^ 64 = len - 1 := by omega
  rw [this, bind_ok _ _ _ _ _ (putChars_eq dbg str (len - 1) 0 h (by omega) hi (by unfold INT_MAX; omega)),
    ite_def, if_pos (by omega), putUint8_eq (app_atEnd h _) (by simp; unfold INT_MAX; omega), app_app]
  simp

theorem getChars_eq (pre mid post : List Byte) (s : Stream) (hb : s.buf = pre ++ mid ++ post)
    (hp : s.ptr = pre.length) (hl : (s.buf.length : ℤ) ≤ INT_MAX) :
    getChars mid.length s = .ok (mid, { s with ptr := s.ptr + mid.length }) := by
  induction mid generalizing pre s with
  | nil => cases s; simp [getChars, pure_def]
  | cons b mid ih =>
    have hlen : s.buf.length = pre.length + (mid.length + 1) + post.length := by
      rw [hb]; simp; omega
    have h1 : getUint8 s = .ok (b, { s with ptr := s.ptr + 1 }) := by
      rw [getUint8_eq ⟨by omega, by omega⟩ hl]
      have : ahead s 0 = b := by
        simp only [ahead, Nat.add_zero, hp, hb]
        simp
      rw [this]
      congr 2
      simp only [adv, Stream.mk.injEq, true_and, and_true]; push_cast; omega
    have h2 := ih (pre ++ [b]) { s with ptr := s.ptr + 1 } (by simp [hb]) (by simp [hp]) hl
    rw [List.length_cons, getChars, bind_ok _ _ _ _ _ h1, bind_ok _ _ _ _ _ h2, pure_def]
    congr 3
    push_cast; ring

theorem get_string_eq (e : Endian) (c post : List Byte) (s : Stream) (he : s.readEndian = e)
    (hb : s.buf = order e (leBytes 4 (c.length + 1)) ++ c ++ [0] ++ post)
    (hp : s.ptr = 0) (hl : (s.buf.length : ℤ) ≤ INT_MAX) :
    get_string s = .ok (c, { s with ptr := c.length + 5 }) := by
  have hlen : s.buf.length = 4 + c.length + 1 + post.length := by
    rw [hb]; simp [length_leBytes]; omega
  have hl' := hl
  unfold INT_MAX at hl
  have hn : (BitVec.ofNat 32 (c.length + 1)).toNat = c.length + 1 := by
    rw [BitVec.toNat_ofNat, Nat.mod_eq_of_lt (by omega)]
  have hi : (BitVec.ofNat 32 (c.length + 1)).toInt = c.length + 1 := by
    rw [BitVec.toInt_eq_toNat_of_lt (by rw [hn]; omega), hn]; push_cast; rfl
  have hg : getUint32 s = .ok (BitVec.ofNat 32 (c.length + 1), { s with ptr := 4 }) := by
    have := kind_get_mid .u32 (BitVec.ofNat 32 (c.length + 1)) [] (c ++ [0] ++ post) s
      (by
        show s.buf = [] ++ order s.readEndian (leBytes 4 (BitVec.ofNat 32 (c.length + 1)).toNat) ++ _
        rw [hn, he]; simpa using hb) (by simpa using hp) hl'
    rw [hp] at this
    exact this
  have hc := getChars_eq (order e (leBytes 4 (c.length + 1))) c ([0] ++ post) { s with ptr := 4 }
    (by simpa using hb) (by simp [length_leBytes]) hl'
  unfold get_string
  rw [bind_ok _ _ _ _ _ hg, ite_def, hi, if_pos (by omega)]
  unfold getSubstr
  rw [show ((c.length : ℤ) + 1 - 1) = c.length by ring, chk_ok (by unfold INT_MIN; omega) (by unfold INT_MAX; omega),
    bind_ok _ _ _ _ _ (lift_ok _ _), Int.toNat_natCast, bind_ok _ _ _ _ _ hc, ite_def, if_pos (by omega),
    bind_ok _ _ _ _ _ (getUint8_eq (s := ⟨s.buf, 4 + c.length, s.readEndian, s.writeEndian⟩)
      ⟨by simp only; omega, by simp only; omega⟩ hl'), pure_def]
  congr 2
  simp only [adv, Stream.mk.injEq, true_and, and_true]; push_cast; omega

theorem string_roundtrip (dbg : Bool) (e : Endian) (str : List Byte) (len : ℕ) (h1 : 1 ≤ len)
    (hn : len ≤ str.length + 1) (hl : (len : ℤ) + 4 ≤ 2147483647 ∧ (str.length : ℤ) ≤ 2147483647) :
    ∃ s', (do
      putUint32 dbg (BitVec.ofNat 32 len)
      putSubstr dbg str len
      seekTo dbg 0
      get_string : SM (List Byte)) ⟨[], 0, e, e⟩ = .ok (str.take (len - 1), s') := by
  have hE : AtEnd ⟨[], 0, e, e⟩ := rfl
  have hc : (str.take (len - 1)).length + 1 = len := by simp; omega
  have hlen : (BitVec.ofNat 32 len).toNat = len := by rw [BitVec.toNat_ofNat, Nat.mod_eq_of_lt (by omega)]
  have ha := putUint32_eq hE (by simp [INT_MAX]) dbg (BitVec.ofNat 32 len)
  rw [hlen] at ha
  have hb := putSubstr_eq dbg str len (app_atEnd hE (order e (leBytes 4 len))) h1 hn hl.2
    (by simp [length_leBytes]; unfold INT_MAX; omega)
  rw [app_app] at hb
  have hs : seekTo dbg 0 (app ⟨[], 0, e, e⟩ (order e (leBytes 4 len) ++ (str.take (len - 1) ++ [0]))) =
      .ok ((), ⟨order e (leBytes 4 len) ++ (str.take (len - 1) ++ [0]), 0, e, e⟩) :=
    seekTo_eq dbg (by omega) (by unfold INT_MAX; omega)
  have hg := get_string_eq e (str.take (len - 1)) []
    ⟨order e (leBytes 4 len) ++ (str.take (len - 1) ++ [0]), 0, e, e⟩ rfl (by rw [hc]; simp) rfl
    (by
      simp only [List.length_append, length_order, length_leBytes, List.length_cons, List.length_nil]
      unfold INT_MAX; omega)
  exact ⟨_, (bind_ok _ _ _ _ _ ha).trans ((bind_ok _ _ _ _ _ hb).trans ((bind_ok _ _ _ _ _ hs).trans hg))⟩

/-! ### Alignment -/

theorem align_dvd (p a : ℤ) : a ∣ p + (a - p % a) % a := by
  apply Int.dvd_of_emod_eq_zero
  rw [Int.add_emod, Int.emod_emod, ← Int.add_emod]
  have h1 := Int.emod_add_mul_ediv p a
  have h2 : p + (a - p % a) = a * (p / a + 1) := by linarith
  rw [h2]; exact Int.mul_emod_right a _

theorem align_eq (s : Stream) (a : ℤ) (ha : 0 < a) (ha' : a ≤ 2147483647) (h0 : 0 ≤ s.ptr)
    (h2 : s.ptr ≤ 2147483647) (dbg : Bool) :
    align dbg a s = (discard (fseek dbg ((a - s.ptr % a) % a) .CURRENT) : SM Unit) s := by
  unfold align ftell
  rw [bind_ok _ _ _ _ _ rfl]
  have hm : toI32 (((toSize a + 2 ^ 64 - toSize s.ptr % toSize a) % 2 ^ 64) % toSize a) =
      (a - s.ptr % a) % a := by
    rw [toSize_of_nonneg ha.le (by omega), toSize_of_nonneg h0 (by omega)]
    obtain ⟨n, rfl⟩ := Int.eq_ofNat_of_zero_le ha.le
    obtain ⟨p, hp⟩ := Int.eq_ofNat_of_zero_le h0
    rw [hp]
    simp only [Int.toNat_natCast]
    have hlt : p % n < n := Nat.mod_lt _ (by omega)
    have h3 : (n + 2 ^ 64 - p % n) % 2 ^ 64 = (n - p % n) := by omega
    have h4 : (n - p % n) % n < n := Nat.mod_lt _ (by omega)
    rw [h3, toI32_of_le (by unfold INT_MAX; omega)]
    push_cast [Nat.cast_sub hlt.le]
    rfl
  rw [ite_def, if_neg (by omega)]
  simp only [hm]
  rfl

theorem fseek_current (s : Stream) (m : ℤ) (dbg : Bool) :
    (discard (fseek dbg m .CURRENT) : SM Unit) s =
      if s.ptr + m < -2147483648 ∨ 2147483647 < s.ptr + m then .error .signedOverflow
      else if dbg = true ∧ (s.ptr + m < 0 ∨ (s.buf.length : ℤ) < s.ptr + m) then .error .assertFailed
      else .ok ((), { s with ptr := s.ptr + m }) := by
  show (fseek dbg m .CURRENT >>= fun _ => pure ()) s = _
  have hd : ∀ r, fseek dbg m .CURRENT s = r → (fseek dbg m .CURRENT >>= fun _ => pure ()) s =
      r.map fun p => ((), p.2) := by
    intro r hr; rw [bind_def, hr]; cases r <;> rfl
  by_cases h : s.ptr + m < -2147483648 ∨ 2147483647 < s.ptr + m
  · rw [if_pos h, hd (.error .signedOverflow)]
    · rfl
    · refine bind_err _ _ _ _ ?_
      rw [move, setPtr_def, chk, if_neg (by unfold INT_MIN INT_MAX; omega)]; rfl
  · rw [if_neg h]
    have hm : move m .CURRENT s = .ok ((), { s with ptr := s.ptr + m }) := by
      rw [move, setPtr_def, chk, if_pos (by unfold INT_MIN INT_MAX; omega)]; rfl
    have hi : s.ptr + m ≤ INT_MAX := by unfold INT_MAX; omega
    by_cases h2 : s.ptr + m < 0 ∨ (s.buf.length : ℤ) < s.ptr + m
    · cases dbg
      · rw [if_neg (by simp), hd _ ((bind_ok _ _ _ _ _ hm).trans (checkCursor_ndebug _))]; rfl
      · rw [if_pos ⟨rfl, h2⟩, hd _ ((bind_ok _ _ _ _ _ hm).trans (checkCursor_fail h2 hi))]; rfl
    · rw [if_neg (by tauto), hd _ ((bind_ok _ _ _ _ _ hm).trans
        (checkCursor_ok dbg (by simp only; omega) (by simp only; omega) hi))]; rfl

/-! ### Pointers -/

/-- Replace the bytes from `p`. -/
def patch (s : Stream) (p : ℕ) (bs : List Byte) : Stream :=
  { s with buf := s.buf.take p ++ bs ++ s.buf.drop (p + bs.length) }

theorem store_eq (bs : List Byte) (p : ℕ) (s : Stream) (h : p + bs.length ≤ s.buf.length)
    (hl : s.buf.length < 2 ^ 64) : store bs p s = .ok ((), patch s p bs) := by
  induction bs generalizing p s with
  | nil => cases s; simp [store, pure_def, patch]
  | cons b bs ih =>
    rw [List.length_cons] at h
    have hs : setBuf (fun l => vset l p b) s = .ok ((), { s with buf := s.buf.set p b }) := by
      rw [setBuf_def, vset, if_pos (by omega)]; rfl
    rw [store, bind_ok _ _ _ _ _ hs, Nat.mod_eq_of_lt (by omega), ih (p + 1) _ (by simp; omega) (by simpa using hl)]
    congr 2
    simp only [patch, Stream.mk.injEq, and_true]
    rw [List.set_eq_take_append_cons_drop, if_pos (by omega)]
    have h1 : (s.buf.take p).length = p := by simp; omega
    rw [List.take_append, List.drop_append, h1, List.take_of_length_le (by omega : (s.buf.take p).length ≤ p + 1),
      List.drop_of_length_le (by omega : (s.buf.take p).length ≤ p + 1 + bs.length),
      show p + 1 - p = 1 by omega, show p + 1 + bs.length - p = bs.length + 1 by omega]
    simp [Nat.add_assoc, Nat.add_comm 1 bs.length]

theorem byte_of (n w : ℕ) (x : BitVec w) (hx : x.toNat = n) : x.setWidth 8 = BitVec.ofNat 8 n := by
  apply BitVec.eq_of_toNat_eq; simp [hx]
theorem mask8' (x : BitVec 64) : (x &&& 0xFF).setWidth 8 = x.setWidth 8 := by
  apply BitVec.eq_of_toNat_eq
  have := Nat.and_two_pow_sub_one_eq_mod (x.toNat % 256) 8
  norm_num at this
  simp [this]
theorem shr_toNat {w : ℕ} (x : BitVec w) (k : ℕ) : (x >>> k).toNat = x.toNat / 2 ^ k := by
  simp [Nat.shiftRight_eq_div_pow]

theorem adjustPointer32_eq (s : Stream) (p : ℕ) (h : p + 4 ≤ s.buf.length) (hl : s.buf.length < 2 ^ 32) :
    adjustPointer32 p s = .ok ((), patch s p (order s.writeEndian (leBytes 4 s.buf.length))) := by
  unfold adjustPointer32
  rw [bind_ok _ _ _ _ _ (get_def s)]
  simp only [mask8]
  have hn : (BitVec.ofNat 32 s.buf.length).toNat = s.buf.length := by
    rw [BitVec.toNat_ofNat, Nat.mod_eq_of_lt hl]
  have hb : ∀ (x : BitVec 32), x.setWidth 8 = BitVec.ofNat 8 x.toNat := fun x => byte_of _ _ x rfl
  simp only [hb, shr_toNat, hn, ite_def]
  rw [store_eq _ _ _ (by simpa using h) (by omega), store_eq _ _ _ (by simpa using h) (by omega)]
  cases s.writeEndian <;> simp [order, leBytes]

theorem adjustPointer64_eq (s : Stream) (p : ℕ) (h : p + 8 ≤ s.buf.length) (hl : s.buf.length < 2 ^ 64) :
    adjustPointer64 p s = .ok ((), patch s p (order s.writeEndian (leBytes 8 s.buf.length))) := by
  unfold adjustPointer64
  rw [bind_ok _ _ _ _ _ (get_def s)]
  simp only [mask8']
  have hn : (BitVec.ofNat 64 s.buf.length).toNat = s.buf.length := by
    rw [BitVec.toNat_ofNat, Nat.mod_eq_of_lt hl]
  have hb : ∀ (x : BitVec 64), x.setWidth 8 = BitVec.ofNat 8 x.toNat := fun x => byte_of _ _ x rfl
  simp only [hb, shr_toNat, hn, ite_def]
  rw [store_eq _ _ _ (by simpa using h) (by omega), store_eq _ _ _ (by simpa using h) (by omega)]
  cases s.writeEndian <;> simp [order, leBytes]

/-! ### The cursor invariant -/

/-- Cursor inside the buffer and representable as an `int`. -/
structure CInv (s : Stream) : Prop where
  nonneg : 0 ≤ s.ptr
  le : s.ptr ≤ s.buf.length
  int : s.ptr ≤ INT_MAX

/-- A completed run preserves the invariant. -/
def Pres {α : Type} (m : SM α) : Prop := ∀ s, CInv s → ∀ x s', m s = .ok (x, s') → CInv s'
/-- A successful result keeps the invariant; a failure is not an out-of-bounds access. -/
def Fine {α : Type} : Except UB (α × Stream) → Prop
  | .ok (_, s') => CInv s'
  | .error e => e ≠ .outOfBounds
/-- From the invariant: no out-of-bounds access, and the invariant is preserved. -/
def Good {α : Type} (m : SM α) : Prop := ∀ s, CInv s → Fine (m s)

theorem good_pres {α : Type} {m : SM α} (h : Good m) : Pres m := by
  intro s hs x s' hm
  have := h s hs; rw [hm] at this; exact this
theorem good_safe {α : Type} {m : SM α} (h : Good m) {s : Stream} (hs : CInv s) :
    m s ≠ .error .outOfBounds := by
  intro hm; have := h s hs; rw [hm] at this; exact this rfl

theorem pres_bind {α β : Type} {m : SM α} {f : α → SM β} (h : Pres m) (hf : ∀ x, Pres (f x)) :
    Pres (m >>= f) := by
  intro s hs x s' he
  rw [bind_def] at he
  cases hm : m s with
  | error e => rw [hm] at he; cases he
  | ok p => rw [hm] at he; exact hf p.1 p.2 (h s hs p.1 p.2 hm) x s' he
theorem good_bind {α β : Type} {m : SM α} {f : α → SM β} (h : Good m) (hf : ∀ x, Good (f x)) :
    Good (m >>= f) := by
  intro s hs
  have h1 := h s hs
  rw [bind_def]
  cases hm : m s with
  | error e => rw [hm] at h1; exact h1
  | ok p => rw [hm] at h1; exact hf p.1 p.2 h1
theorem good_pure {α : Type} (x : α) : Good (pure x : SM α) := fun _ hs => hs
theorem pres_pure {α : Type} (x : α) : Pres (pure x : SM α) := good_pres (good_pure x)
theorem good_get : Good (get : SM Stream) := fun _ hs => hs
theorem good_throw {α : Type} {e : UB} (he : e ≠ .outOfBounds) : Good (throw e : SM α) := fun _ _ => he
theorem pres_throw {α : Type} (e : UB) : Pres (throw e : SM α) := by intro s _ x s' h; cases h
theorem good_ite {α : Type} {c : Prop} [Decidable c] {a b : SM α} (ha : Good a) (hb : Good b) :
    Good (if c then a else b) := by split_ifs <;> assumption
theorem pres_ite {α : Type} {c : Prop} [Decidable c] {a b : SM α} (ha : Pres a) (hb : Pres b) :
    Pres (if c then a else b) := by split_ifs <;> assumption
theorem pres_modify {f : Stream → Stream} (h : ∀ s, CInv s → CInv (f s)) : Pres (modify f : SM Unit) := by
  intro s hs x s' he
  rw [modify_def] at he
  obtain ⟨-, rfl⟩ := Prod.mk.inj (Except.ok.inj he)
  exact h s hs
theorem good_chk (i : ℤ) : Good (liftM (chk i) : SM ℤ) := by
  intro s hs
  unfold chk
  split_ifs
  · exact hs
  · exact (by decide : UB.signedOverflow ≠ UB.outOfBounds)
theorem pres_lift {α : Type} (x : Except UB α) : Pres (liftM x : SM α) := by
  intro s hs y s' he
  cases x with
  | error e => cases he
  | ok v => cases he; exact hs
theorem pres_discard {α : Type} {m : SM α} (h : Pres m) : Pres (discard m : SM Unit) :=
  pres_bind h fun _ => pres_pure ()
theorem pres_const {α : Type} {m : SM α} {f : Stream → α} (h : ∀ s, m s = .ok (f s, s)) : Pres m := by
  intro s hs x s' he
  rw [h] at he; cases he; exact hs

theorem getUint8_good : Good getUint8 := by
  intro s hs
  have h0 := hs.nonneg
  have h1 := hs.le
  have h2 := hs.int
  unfold INT_MAX at h2
  unfold getUint8
  rw [bind_ok _ _ _ _ _ (get_def s), ite_def, toSize_of_nonneg h0 (by omega)]
  split_ifs with hc
  · have hv : vget s.buf s.ptr.toNat = .ok s.buf[s.ptr.toNat] := by
      simp [vget, List.getElem?_eq_getElem hc]
    rw [hv, bind_ok _ _ _ _ _ (lift_ok _ _), bind_def, setPtr_def, chk]
    unfold INT_MIN INT_MAX
    split_ifs with hi
    · exact ⟨by simp only; omega, by simp only; omega, by simp only; unfold INT_MAX; omega⟩
    · exact (by decide : UB.signedOverflow ≠ UB.outOfBounds)
  · exact hs

theorem putUint8_good (b : Byte) : Good (putUint8 true b) := by
  intro s hs
  have h0 := hs.nonneg
  have h1 := hs.le
  have h2 := hs.int
  unfold INT_MAX at h2
  unfold putUint8
  rw [bind_ok _ _ _ _ _ (get_def s), ite_def, toSize_of_nonneg h0 (by omega)]
  split_ifs with hc hd he
  · rw [setBuf_def, vset, if_pos hc]
    exact ⟨h0, by simpa using h1, hs.int⟩
  · rw [bind_def, setBuf_def, vpush]
    split_ifs with hm
    · simp only [Except.map, setPtr_def, chk]
      unfold INT_MIN INT_MAX
      split_ifs with hi
      · exact ⟨by simp only; omega, by simp; omega, by simp only; unfold INT_MAX; omega⟩
      · exact (by decide : UB.signedOverflow ≠ UB.outOfBounds)
    · exact (by decide : UB.lengthError ≠ UB.outOfBounds)
  · omega
  · omega

theorem chk_cases (q : ℤ) : (chk q = .ok q ∧ q ≤ INT_MAX) ∨ chk q = .error .signedOverflow := by
  unfold chk
  split_ifs with hi
  · exact Or.inl ⟨rfl, hi.2⟩
  · exact Or.inr rfl
theorem endPos_cases' (q : ℤ) :
    (∃ p, ((chk q).bind fun a => chk (a - 1)) = .ok p ∧ p ≤ INT_MAX) ∨ ((chk q).bind fun a => chk (a - 1)) = .error .signedOverflow := by
  rcases chk_cases q with ⟨h, -⟩ | h <;> rw [h]
  · rcases chk_cases (q - 1) with ⟨h, h2⟩ | h 
    · exact Or.inl ⟨_, h, h2⟩
    · exact Or.inr h
  · exact Or.inr rfl
theorem endPos_cases (n : ℕ) (o : ℤ) :
    (∃ p, endPos n o = .ok p ∧ p ≤ INT_MAX) ∨ endPos n o = .error .signedOverflow := by
  have h : endPos n o = (chk (toI32 n - o)).bind fun a => chk (a - 1) := by
    unfold endPos; rfl
  rw [h]
  exact endPos_cases' _

theorem fseek_good (o : ℤ) (c : Cursor) (ho : c = .TOP → o ≤ INT_MAX) : Good (fseek true o c) := by
  intro s hs
  have key : ∀ (p : ℤ), p ≤ INT_MAX → Fine (checkCursor true { s with ptr := p }) := by
    intro p hp
    by_cases h : p < 0 ∨ (s.buf.length : ℤ) < p
    · rw [checkCursor_fail h hp]; exact (by decide : UB.assertFailed ≠ UB.outOfBounds)
    · rw [checkCursor_ok true (by simp only; omega) (by simp only; omega) hp]
      exact ⟨by simp only; omega, by simp only; omega, hp⟩
  unfold fseek
  cases c with
  | TOP =>
    rw [bind_def, move, setPtr_def]
    simpa only [Except.map] using key o (ho rfl)
  | CURRENT =>
    rw [bind_def, move, setPtr_def, chk]
    split_ifs with hi
    · simpa only [Except.map] using key _ hi.2
    · exact (by decide : UB.signedOverflow ≠ UB.outOfBounds)
  | END =>
    rcases endPos_cases s.buf.length o with ⟨p, hp, hle⟩ | he
    · have hm : move o .END s = .ok ((), { s with ptr := p }) := by
        rw [move, bind_ok _ _ _ _ _ (get_def s), setPtr_def, hp]; rfl
      rw [bind_ok _ _ _ _ _ hm]
      exact key p hle
    · have hm : move o .END s = .error .signedOverflow := by
        rw [move, bind_ok _ _ _ _ _ (get_def s), setPtr_def, he]; rfl
      rw [bind_err _ _ _ _ hm]
      exact (by decide : UB.signedOverflow ≠ UB.outOfBounds)
theorem fseek_pres (o : ℤ) (c : Cursor) (ho : -2147483648 ≤ o ∧ o ≤ 2147483647) : Pres (fseek true o c) :=
  good_pres (fseek_good o c fun _ => ho.2)
theorem toI32_le (n : ℕ) : toI32 n ≤ INT_MAX := by
  unfold toI32 INT_MAX; rw [Int.bmod_def]; split_ifs <;> omega
theorem seekTo_pres (p : ℕ) : Pres (seekTo true p) := by
  have h := toI32_le p
  unfold seekTo
  generalize toI32 p = q at h
  exact pres_bind (good_pres (fseek_good _ _ fun _ => h)) fun _ => pres_pure ()

theorem getUint16_good : Good getUint16 :=
  good_bind getUint8_good fun _ => good_bind getUint8_good fun _ => good_bind good_get fun _ => good_pure _
theorem getInt16_good : Good getInt16 :=
  good_bind getUint8_good fun _ => good_bind getUint8_good fun _ => good_bind good_get fun _ => good_pure _
theorem getUint32_good : Good getUint32 :=
  good_bind getUint16_good fun _ => good_bind getUint16_good fun _ => good_bind good_get fun _ => good_pure _
theorem getInt32_good : Good getInt32 :=
  good_bind getUint16_good fun _ => good_bind getUint16_good fun _ => good_bind good_get fun _ => good_pure _
theorem getUint64_good : Good getUint64 :=
  good_bind good_get fun _ => good_ite
    (good_bind getUint32_good fun _ => good_bind getUint32_good fun _ => good_pure _)
    (good_bind getUint32_good fun _ => good_bind getUint32_good fun _ => good_pure _)
theorem getInt64_good : Good getInt64 :=
  good_bind good_get fun _ => good_ite
    (good_bind getInt32_good fun _ => good_bind getUint32_good fun _ => good_pure _)
    (good_bind getUint32_good fun _ => good_bind getInt32_good fun _ => good_pure _)
theorem kind_get_good (k : Kind) : Good k.get := by
  cases k
  · exact getUint8_good
  · exact getUint16_good
  · exact getUint32_good
  · exact getUint64_good
  · exact getUint8_good
  · exact getInt16_good
  · exact getInt32_good
  · exact getInt64_good
  · exact getUint32_good
  · exact getUint64_good
theorem putUint16_good (u : BitVec 16) : Good (putUint16 true u) :=
  good_bind good_get fun _ => good_ite (good_bind (putUint8_good _) fun _ => putUint8_good _)
    (good_bind (putUint8_good _) fun _ => putUint8_good _)
theorem putInt16_good (u : BitVec 16) : Good (putInt16 true u) :=
  good_bind good_get fun _ => good_ite (good_bind (putUint8_good _) fun _ => putUint8_good _)
    (good_bind (putUint8_good _) fun _ => putUint8_good _)
theorem putUint32_good (u : BitVec 32) : Good (putUint32 true u) :=
  good_bind good_get fun _ => good_ite (good_bind (putUint16_good _) fun _ => putUint16_good _)
    (good_bind (putUint16_good _) fun _ => putUint16_good _)
theorem putInt32_good (u : BitVec 32) : Good (putInt32 true u) :=
  good_bind good_get fun _ => good_ite (good_bind (putInt16_good _) fun _ => putUint16_good _)
    (good_bind (putUint16_good _) fun _ => putInt16_good _)
theorem putUint64_good (u : BitVec 64) : Good (putUint64 true u) :=
  good_bind good_get fun _ => good_ite (good_bind (putUint32_good _) fun _ => putUint32_good _)
    (good_bind (putUint32_good _) fun _ => putUint32_good _)
theorem putInt64_good (u : BitVec 64) : Good (putInt64 true u) :=
  good_bind good_get fun _ => good_ite (good_bind (putInt32_good _) fun _ => putUint32_good _)
    (good_bind (putUint32_good _) fun _ => putInt32_good _)
theorem kind_put_good (k : Kind) (v : k.Carrier) : Good (k.put true v) := by
  cases k
  · exact putUint8_good v
  · exact putUint16_good v
  · exact putUint32_good v
  · exact putUint64_good v
  · exact putUint8_good v
  · exact putInt16_good v
  · exact putInt32_good v
  · exact putInt64_good v
  · exact putUint32_good v
  · exact putUint64_good v
theorem getChars_good (n : ℕ) : Good (getChars n) := by
  induction n with
  | zero => exact good_pure _
  | succ n ih => exact good_bind getUint8_good fun _ => good_bind ih fun _ => good_pure _
theorem getSubstr_good (n : ℤ) : Good (getSubstr n) :=
  good_bind (good_chk _) fun _ => good_bind (getChars_good _) fun _ =>
    good_ite (good_bind getUint8_good fun _ => good_pure _) (good_pure _)
theorem get_string_good : Good get_string :=
  good_bind getUint32_good fun _ => good_ite (getSubstr_good _) (good_pure _)
theorem ftell_good : Good ftell := fun _ hs => hs
theorem align_good (a : ℤ) : Good (align true a) := by
  refine good_bind ftell_good fun _ => ?_
  refine good_ite (good_bind (good_throw (by decide)) fun _ => ?_) ?_ <;>
    exact good_bind (fseek_good _ _ (by intro h; cases h)) fun _ => good_pure _
theorem getPointer32_good : Good getPointer32 := good_bind getUint32_good fun _ => good_pure _
theorem getPointer64_good : Good getPointer64 := good_bind getUint64_good fun _ => good_pure _
theorem putPointer32_good : Good (putPointer32 true) :=
  good_bind ftell_good fun _ => good_bind (putUint32_good _) fun _ => good_pure _
theorem putPointer64_good : Good (putPointer64 true) :=
  good_bind ftell_good fun _ => good_bind (putUint64_good _) fun _ => good_pure _

/-- Replacing the buffer by one at least as long. -/
theorem setBuf_pres {f : List Byte → Except UB (List Byte)}
    (h : ∀ l l', f l = .ok l' → l.length ≤ l'.length) : Pres (setBuf f) := by
  intro s hs x s' he
  rw [setBuf_def] at he
  cases hf : f s.buf with
  | error e => rw [hf] at he; cases he
  | ok l =>
    rw [hf] at he
    cases he
    have := h _ _ hf
    exact ⟨hs.nonneg, by have := hs.le; simp only; omega, hs.int⟩
theorem vset_len {p : ℕ} {b : Byte} (l l' : List Byte) (h : vset l p b = .ok l') : l.length ≤ l'.length := by
  unfold vset at h
  split_ifs at h
  cases h; simp
theorem store_pres (bs : List Byte) (p : ℕ) : Pres (store bs p) := by
  induction bs generalizing p with
  | nil => exact pres_pure ()
  | cons b bs ih => exact pres_bind (setBuf_pres vset_len) fun _ => ih _
theorem adjustPointer32_pres (p : ℕ) : Pres (adjustPointer32 p) :=
  pres_bind (good_pres good_get) fun _ => pres_ite (store_pres _ _) (store_pres _ _)
theorem adjustPointer64_pres (p : ℕ) : Pres (adjustPointer64 p) :=
  pres_bind (good_pres good_get) fun _ => pres_ite (store_pres _ _) (store_pres _ _)
theorem putChars_pres (str : List Byte) (n i : ℕ) : Pres (putChars true str n i) := by
  induction n generalizing i with
  | zero => exact pres_pure ()
  | succ n ih =>
    rw [putChars]
    refine pres_ite ?_ (pres_ite ?_ ?_)
    · exact pres_bind (good_pres (putUint8_good _)) fun _ => pres_bind (pres_lift _) fun _ => ih _
    · exact pres_bind (good_pres (putUint8_good _)) fun _ => pres_bind (pres_lift _) fun _ => ih _
    · exact pres_bind (pres_throw _) fun _ => pres_bind (pres_lift _) fun _ => ih _
theorem putSubstr_pres (str : List Byte) (n : ℕ) : Pres (putSubstr true str n) :=
  pres_bind (putChars_pres _ _ _) fun _ => pres_ite (good_pres (putUint8_good _)) (pres_pure ())
theorem get_at_pres (i : ℕ) : Pres (get_at i) :=
  pres_bind (good_pres good_get) fun _ => pres_ite (pres_lift _) (pres_pure _)
theorem addr_pres (p : ℕ) : Pres (addr p) :=
  pres_bind (good_pres good_get) fun _ => pres_ite (pres_pure _) (pres_throw _)
theorem read_at_pres (n p : ℕ) : Pres (read_at n p) :=
  pres_bind (good_pres good_get) fun _ => pres_bind (pres_lift _) fun _ => pres_ite (pres_pure _)
    (pres_bind (addr_pres _) fun _ => pres_ite (pres_pure _) (pres_throw _))

theorem put_at_pres (i : ℕ) (v : Byte) : Pres (put_at i v) := by
  intro s hs x s' he
  exfalso
  unfold put_at at he
  rw [bind_ok _ _ _ _ _ (get_def s), ite_def] at he
  split_ifs at he with h
  · rw [bind_def, setBuf_def] at he
    unfold vresize at he
    split_ifs at he with h2
    · simp only [Except.map, setBuf_def, vset] at he
      rw [if_neg (by simp; omega)] at he
      cases he
    · cases he
  · simp only [setBuf_def, vset] at he
    rw [if_neg h] at he; cases he

theorem bind_inv {α β : Type} {m : SM α} {f : α → SM β} {s s' : Stream} {y : β}
    (h : (m >>= f) s = .ok (y, s')) : ∃ x s1, m s = .ok (x, s1) ∧ f x s1 = .ok (y, s') := by
  rw [bind_def] at h
  cases hm : m s with
  | error e => rw [hm] at h; cases h
  | ok p => rw [hm] at h; exact ⟨p.1, p.2, rfl, h⟩
theorem modify_inv {f : Stream → Stream} {s s' : Stream} {x : Unit}
    (h : (modify f : SM Unit) s = .ok (x, s')) : s' = f s := by
  rw [modify_def] at h; cases h; rfl
theorem setBuf_inv {f : List Byte → Except UB (List Byte)} {s s' : Stream} {x : Unit}
    (h : setBuf f s = .ok (x, s')) : ∃ l, f s.buf = .ok l ∧ s' = { s with buf := l } := by
  rw [setBuf_def] at h
  cases hf : f s.buf with
  | error e => rw [hf] at h; cases h
  | ok l => rw [hf] at h; cases h; exact ⟨l, rfl, rfl⟩
theorem setPtr_inv {f : ℤ → Except UB ℤ} {s s' : Stream} {x : Unit}
    (h : setPtr f s = .ok (x, s')) : ∃ p, f s.ptr = .ok p ∧ s' = { s with ptr := p } := by
  rw [setPtr_def] at h
  cases hf : f s.ptr with
  | error e => rw [hf] at h; cases h
  | ok l => rw [hf] at h; cases h; exact ⟨l, rfl, rfl⟩
theorem chk_inv {i j : ℤ} (h : chk i = .ok j) : j = i ∧ -2147483648 ≤ i ∧ i ≤ 2147483647 := by
  unfold chk INT_MIN INT_MAX at h
  split_ifs at h with hc
  cases h; exact ⟨rfl, hc⟩
theorem lift_inv {α : Type} {e : Except UB α} {s s' : Stream} {x : α}
    (h : (liftM e : SM α) s = .ok (x, s')) : e = .ok x ∧ s' = s := by
  cases e with
  | error e => cases h
  | ok v => cases h; exact ⟨rfl, rfl⟩

theorem init_pres (d : Option (List Byte)) (n : ℕ) : Pres (init d n) := by
  intro s _ x s' he
  have : ∀ s1 : Stream, CInv { s1 with ptr := 0, readEndian := .LITTLE, writeEndian := .LITTLE } :=
    fun s1 => ⟨le_rfl, by simp only; omega, by simp [INT_MAX]⟩
  unfold init at he
  cases d with
  | none =>
    obtain ⟨_, s1, -, h⟩ := bind_inv he
    rw [modify_inv h]; exact this s1
  | some d =>
    simp only at he
    obtain ⟨_, s1, -, h⟩ := bind_inv he
    by_cases h0 : n = 0
    · rw [if_pos h0] at h
      obtain ⟨_, _, h, _⟩ := bind_inv h; cases h
    · rw [if_neg h0] at h
      by_cases h1 : d.length < n
      · rw [if_pos h1] at h
        obtain ⟨_, _, h, _⟩ := bind_inv h; cases h
      · rw [if_neg h1] at h
        obtain ⟨_, s2, -, h⟩ := bind_inv h
        rw [modify_inv h]; exact this s2

theorem addr_inv {p : ℕ} {s s' : Stream} {x : Unit} (h : addr p s = .ok (x, s')) :
    s' = s ∧ p < s.buf.length := by
  unfold addr at h
  rw [bind_ok _ _ _ _ _ (get_def s), ite_def] at h
  split_ifs at h with hc
  · cases h; exact ⟨rfl, hc⟩
  · cases h

theorem copyAt_inv {d : List Byte} {p : ℕ} {s s' : Stream} {x : Unit} (h : copyAt d p s = .ok (x, s')) :
    s'.ptr = s.ptr ∧ s.buf.length = s'.buf.length ∧ p + d.length ≤ s'.buf.length := by
  unfold copyAt at h
  obtain ⟨_, s2, ha, h'⟩ := bind_inv h
  obtain ⟨rfl, -⟩ := addr_inv ha
  clear h
  rename' h' => h
  rw [bind_ok _ _ _ _ _ (get_def s2), ite_def] at h
  split_ifs at h with hc
  · obtain ⟨l, hl', rfl⟩ := setBuf_inv h
    cases hl'
    simp
    omega
  · cases h

theorem write_at_inv {d : List Byte} {p n : ℕ} {s s' : Stream} (h : write_at d p s = .ok (n, s')) :
    s'.ptr = s.ptr ∧ s.buf.length ≤ s'.buf.length ∧ p + d.length ≤ s'.buf.length := by
  unfold write_at at h
  rw [bind_ok _ _ _ _ _ (get_def s)] at h
  have key : ∀ s1 : Stream, s1.ptr = s.ptr → s.buf.length ≤ s1.buf.length →
      (copyAt d p >>= fun _ => pure d.length : SM ℕ) s1 = .ok (n, s') →
      s'.ptr = s.ptr ∧ s.buf.length ≤ s'.buf.length ∧ p + d.length ≤ s'.buf.length := by
    intro s1 hp hl h
    obtain ⟨_, s2, ha, h⟩ := bind_inv h
    have := copyAt_inv ha
    rw [pure_def] at h
    cases h
    omega
  simp only at h
  by_cases hc : (p + d.length) % 2 ^ 64 > s.buf.length
  · rw [if_pos hc] at h
    obtain ⟨_, s1, hb, h⟩ := bind_inv h
    obtain ⟨l, hl, rfl⟩ := setBuf_inv hb
    refine key { s with buf := l } rfl ?_ h
    unfold vresize at hl
    split_ifs at hl
    cases hl
    simp; omega
  · rw [if_neg hc] at h
    exact key s rfl le_rfl h

theorem write_at_pres (d : List Byte) (p : ℕ) : Pres (write_at d p) := by
  intro s hs x s' he
  obtain ⟨h1, h2, -⟩ := write_at_inv he
  obtain ⟨a, b, c⟩ := hs
  exact ⟨by omega, by omega, by omega⟩

theorem read_at_inv {n p : ℕ} {d : List Byte} {s s' : Stream} (h : read_at n p s = .ok (d, s')) :
    s' = s ∧ (d.length = 0 ∨ p + d.length ≤ s.buf.length ∧ d.length ≤ 2147483647) := by
  unfold read_at at h
  rw [bind_ok _ _ _ _ _ (get_def s)] at h
  obtain ⟨r, s1, hr, h⟩ := bind_inv h
  obtain ⟨hr, rfl⟩ := lift_inv hr
  obtain ⟨hr0, hr1, hr2⟩ := chk_inv hr
  rw [← hr0] at hr1 hr2
  clear hr hr0
  simp only at h
  by_cases hc : r < 0
  · rw [if_pos hc, pure_def] at h
    cases h; exact ⟨rfl, Or.inl rfl⟩
  · rw [if_neg hc] at h
    obtain ⟨_, s2, ha, h⟩ := bind_inv h
    obtain ⟨rfl, hp⟩ := addr_inv ha
    rw [toSize_of_nonneg (by omega) (by omega)] at h
    by_cases hc : p + (if n < r.toNat then n else r.toNat) ≤ s2.buf.length
    · rw [if_pos hc, pure_def] at h
      cases h
      refine ⟨rfl, Or.inr ?_⟩
      simp only [List.length_take, List.length_drop]
      split_ifs at hc ⊢ <;> omega
    · rw [if_neg hc] at h
      cases h

theorem read_pres (n : ℕ) : Pres (Stream.read n) := by
  intro s hs x s' he
  have hn := hs.nonneg
  have hle := hs.le
  have hint := hs.int
  unfold INT_MAX at hint
  unfold Stream.read at he
  rw [bind_ok _ _ _ _ _ (get_def s)] at he
  obtain ⟨d, s1, hr, h⟩ := bind_inv he
  obtain ⟨rfl, hd⟩ := read_at_inv hr
  obtain ⟨_, s2, hp, h⟩ := bind_inv h
  obtain ⟨q, hq, rfl⟩ := setPtr_inv hp
  obtain ⟨rfl, h1, h2⟩ := chk_inv hq
  cases h
  rw [toSize_of_nonneg hn (by omega)] at hd
  rw [toI32_of_le (by unfold INT_MAX; omega)] at h1 h2 ⊢
  exact ⟨by simp only; omega, by simp only; omega, by simp only; unfold INT_MAX; omega⟩
theorem write_pres (d : List Byte) (hd : (d.length : ℤ) ≤ 2147483647) : Pres (write d) := by
  intro s hs x s' he
  have hn := hs.nonneg
  have hle := hs.le
  have hint := hs.int
  unfold INT_MAX at hint
  unfold write at he
  rw [bind_ok _ _ _ _ _ (get_def s)] at he
  obtain ⟨_, s1, hr, h⟩ := bind_inv he
  obtain ⟨e1, e2, e3⟩ := write_at_inv hr
  obtain ⟨_, s2, hp, h⟩ := bind_inv h
  obtain ⟨q, hq, rfl⟩ := setPtr_inv hp
  obtain ⟨rfl, h1, h2⟩ := chk_inv hq
  cases h
  rw [toSize_of_nonneg hn (by omega)] at e3
  rw [toI32_of_le (by unfold INT_MAX; omega)] at h1 h2 ⊢
  exact ⟨by simp only; omega, by simp only; omega, by simp only; unfold INT_MAX; omega⟩

end CS.Stream
