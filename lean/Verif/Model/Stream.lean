import Verif.Model.Gamut
import Verif.Model.Outcome

/-!
# `MemoryStream` and ICC loading  (`include/colorsystem.hpp` 788-1234)

Machine model: 8-bit bytes, 16/32/64-bit two's complement integers as `BitVec`, `int` 32 bits,
`size_t` 64 bits.  Left shifts of negative `int`s (`getInt16`, `getInt32`, `getInt64`) are taken as two's
complement shifts, as C++20 and every compiler in use define them.

The flag `dbg` says whether `assert` is active (`NDEBUG` not defined).
-/

namespace CS

/-- `uint8_t` -/
abbrev Byte := BitVec 8

/-- `MemoryStream::ENDIAN` (hpp:803-807). -/
inductive Endian where
  | LITTLE | BIG
  deriving DecidableEq, Repr

/-- `MemoryStream::CURSOR` (hpp:797-802). -/
inductive Cursor where
  | TOP | CURRENT | END
  deriving DecidableEq, Repr

/-- The data members of `MemoryStream` (hpp:812-817). -/
structure Stream where
  buf : List Byte
  ptr : ℤ
  readEndian : Endian
  writeEndian : Endian
  deriving DecidableEq, Repr

/-- Operations on a stream, with undefined behaviour and aborts as errors. -/
abbrev SM := StateT Stream (Except UB)

namespace Stream

/-- Largest `int`. -/
def INT_MAX : ℤ := 2147483647
/-- Smallest `int`. -/
def INT_MIN : ℤ := -2147483648
/-- `std::vector<uint8_t>::max_size()`. -/
def MAX_SIZE : ℕ := 2 ^ 63 - 1

/-- Conversion of an `int` to `size_t`. -/
def toSize (i : ℤ) : ℕ := (i % 2 ^ 64).toNat
/-- Conversion of a `size_t` to `int` (modulo 2^32). -/
def toI32 (n : ℕ) : ℤ := Int.bmod (n : ℤ) (2 ^ 32)
/-- Result of a signed `int` operation. -/
def chk (i : ℤ) : Except UB ℤ := if INT_MIN ≤ i ∧ i ≤ INT_MAX then .ok i else .error .signedOverflow

/-- `std::vector::resize` (value-initialising). -/
def vresize (l : List Byte) (n : ℕ) : Except UB (List Byte) :=
  if n ≤ MAX_SIZE then .ok (l.take n ++ List.replicate (n - l.length) 0) else .error .lengthError
/-- `v[i]` as an rvalue. -/
def vget (l : List Byte) (i : ℕ) : Except UB Byte :=
  match l[i]? with
  | some b => .ok b
  | none => .error .outOfBounds
/-- `v[i] = b`. -/
def vset (l : List Byte) (i : ℕ) (b : Byte) : Except UB (List Byte) :=
  if i < l.length then .ok (l.set i b) else .error .outOfBounds
/-- `v.push_back(b)`. -/
def vpush (l : List Byte) (b : Byte) : Except UB (List Byte) :=
  if l.length < MAX_SIZE then .ok (l ++ [b]) else .error .lengthError

/-- Replace the buffer. -/
def setBuf (f : List Byte → Except UB (List Byte)) : SM Unit :=
  fun s => (f s.buf).map fun b => ((), { s with buf := b })
/-- Replace the cursor. -/
def setPtr (f : ℤ → Except UB ℤ) : SM Unit :=
  fun s => (f s.ptr).map fun p => ((), { s with ptr := p })

/-- `MemoryStream::init` (hpp:819-834).  `data = none` is `NULL`; a block shorter than `sz` would be
read beyond its end. -/
def init (data : Option (List Byte)) (sz : ℕ) : SM Unit := do
  match data with
  | some d =>
    setBuf fun b => vresize b sz
    if sz = 0 then throw .emptyFront
    if d.length < sz then throw .outOfBounds
    setBuf fun b => .ok (d.take sz ++ b.drop sz)
  | none => setBuf fun b => vresize b sz
  modify fun s => { s with ptr := 0, readEndian := .LITTLE, writeEndian := .LITTLE }
/-- The members before the constructor body runs: an empty vector (the `int` and the enums are
indeterminate and are overwritten by `init`). -/
def blank : Stream := ⟨[], 0, .LITTLE, .LITTLE⟩
/-- `MemoryStream(data, sz)` and `MemoryStream()` (hpp:810-811). -/
def construct (data : Option (List Byte)) (sz : ℕ) : Except UB Stream :=
  (init data sz blank).map (·.2)

/-- `MemoryStream::ftell` (hpp:835). -/
def ftell : SM ℕ := fun s => .ok (toSize s.ptr, s)
/-- `MemoryStream::mark` (hpp:836). -/
def mark : SM ℕ := fun s => .ok (toSize s.ptr, s)
/-- `(int)buffer_.size() - offs - 1` (hpp:851). -/
def endPos (n : ℕ) (offs : ℤ) : Except UB ℤ := do
  let a ← chk (toI32 n - offs)
  chk (a - 1)
/-- The `switch` of `fseek` (hpp:840-854). -/
def move (offs : ℤ) (c : Cursor) : SM Unit :=
  match c with
  | .TOP => setPtr fun _ => .ok offs
  | .CURRENT => setPtr fun p => chk (p + offs)
  | .END => do
    let s ← get
    setPtr fun _ => endPos s.buf.length offs
/-- The two asserts of `fseek` and its result (hpp:855-857). -/
def checkCursor (dbg : Bool) : SM ℤ := do
  let s ← get
  if dbg ∧ ¬ 0 ≤ s.ptr then throw .assertFailed
  else if dbg ∧ ¬ toSize s.ptr ≤ s.buf.length then throw .assertFailed
  else return s.ptr
/-- `MemoryStream::fseek` (hpp:837-858). -/
def fseek (dbg : Bool) (offs : ℤ) (c : Cursor) : SM ℤ := do
  move offs c
  checkCursor dbg
/-- `MemoryStream::seekTo` (hpp:860). -/
def seekTo (dbg : Bool) (p : ℕ) : SM Unit := do let _ ← fseek dbg (toI32 p) .TOP
/-- `MemoryStream::feof` (hpp:864). -/
def feof : SM Bool := fun s => .ok (decide (s.buf.length ≤ toSize s.ptr), s)

/-- `MemoryStream::get_at` (hpp:867-872). -/
def get_at (abs : ℕ) : SM Byte := do
  let s ← get
  if abs < s.buf.length then vget s.buf abs else return 0
/-- `MemoryStream::put_at` (hpp:873-878). -/
def put_at (abs : ℕ) (val : Byte) : SM Unit := do
  let s ← get
  if abs < s.buf.length then setBuf fun b => vresize b abs
  setBuf fun b => vset b abs val
/-- `MemoryStream::ptr(p)` (hpp:863): forming `&buffer_[p]`. -/
def addr (p : ℕ) : SM Unit := do
  let s ← get
  if p < s.buf.length then return () else throw .outOfBounds
/-- `MemoryStream::ptr()` (hpp:862): forming `&buffer_[ptr_]`; the result is the bytes that may be
accessed through the pointer. -/
def here : SM (List Byte) := do
  let s ← get
  addr (toSize s.ptr)
  return s.buf.drop (toSize s.ptr)
/-- `MemoryStream::read_at` (hpp:879-887): the bytes copied to the caller's block (which is assumed
large enough). -/
def read_at (n : ℕ) (p : ℕ) : SM (List Byte) := do
  let s ← get
  let r ← (chk (toI32 s.buf.length - toI32 p) : Except UB ℤ)
  if r < 0 then return []
  let remain := if n < toSize r then n else toSize r
  addr p
  if p + remain ≤ s.buf.length then return (s.buf.drop p).take remain else throw .outOfBounds
/-- `memcpy(ptr(p), data, s)` (hpp:893). -/
def copyAt (data : List Byte) (p : ℕ) : SM Unit := do
  addr p
  let s ← get
  if p + data.length ≤ s.buf.length
    then setBuf fun b => .ok (b.take p ++ data ++ b.drop (p + data.length))
    else throw .outOfBounds
/-- `MemoryStream::write_at` (hpp:888-896); `data` is the caller's block of `s` bytes. -/
def write_at (data : List Byte) (p : ℕ) : SM ℕ := do
  let s ← get
  let s1 := s.buf.length
  let s2 := (p + data.length) % 2 ^ 64
  if s2 > s1 then setBuf fun b => vresize b s2
  copyAt data p
  return data.length
/-- `MemoryStream::read` (hpp:897-902). -/
def read (n : ℕ) : SM (List Byte) := do
  let s ← get
  let d ← read_at n (toSize s.ptr)
  setPtr fun p => chk (p + toI32 d.length)
  return d
/-- `MemoryStream::write` (hpp:903-909). -/
def write (data : List Byte) : SM ℕ := do
  let s ← get
  let _ ← write_at data (toSize s.ptr)
  setPtr fun p => chk (p + toI32 data.length)
  return data.length

/-- `MemoryStream::getUint8` (hpp:910-919). -/
def getUint8 : SM Byte := do
  let s ← get
  if toSize s.ptr < s.buf.length then
    let c ← (vget s.buf (toSize s.ptr) : Except UB Byte)
    setPtr fun p => chk (p + 1)
    return c
  else return 0
/-- `MemoryStream::putUint8` (hpp:920-935). -/
def putUint8 (dbg : Bool) (uc : Byte) : SM Unit := do
  let s ← get
  if toSize s.ptr < s.buf.length then setBuf fun b => vset b (toSize s.ptr) uc
  else if toSize s.ptr = s.buf.length then
    setBuf fun b => vpush b uc
    setPtr fun p => chk (p + 1)
  else if dbg then throw .assertFailed
  else return ()

/-- `setReadEndian` (hpp:936). -/
def setReadEndian (e : Endian) : SM Unit := modify fun s => { s with readEndian := e }
/-- `setWriteEndian` (hpp:937). -/
def setWriteEndian (e : Endian) : SM Unit := modify fun s => { s with writeEndian := e }

/-- `getInt8` (hpp:938-942). -/
def getInt8 : SM (BitVec 8) := getUint8
/-- `getUint16` (hpp:943-948). -/
def getUint16 : SM (BitVec 16) := do
  let a ← getUint8
  let b ← getUint8
  let s ← get
  return if s.readEndian = .BIG then ((a.setWidth 32 <<< 8) ||| b.setWidth 32).setWidth 16
    else ((b.setWidth 32 <<< 8) ||| a.setWidth 32).setWidth 16
/-- `getInt16` (hpp:949-954). -/
def getInt16 : SM (BitVec 16) := do
  let a ← getUint8
  let b ← getUint8
  let s ← get
  return if s.readEndian = .BIG then ((a.signExtend 32 <<< 8) ||| b.setWidth 32).setWidth 16
    else ((b.signExtend 32 <<< 8) ||| a.setWidth 32).setWidth 16
/-- `getUint32` (hpp:955-960). -/
def getUint32 : SM (BitVec 32) := do
  let a ← getUint16
  let b ← getUint16
  let s ← get
  return if s.readEndian = .BIG then (a.setWidth 32 <<< 16) ||| b.setWidth 32
    else (b.setWidth 32 <<< 16) ||| a.setWidth 32
/-- `getInt32` (hpp:961-966). -/
def getInt32 : SM (BitVec 32) := do
  let a ← getUint16
  let b ← getUint16
  let s ← get
  return if s.readEndian = .BIG then (a.signExtend 32 <<< 16) ||| b.setWidth 32
    else (b.signExtend 32 <<< 16) ||| a.setWidth 32
/-- `getUint64` (hpp:967-981). -/
def getUint64 : SM (BitVec 64) := do
  let s ← get
  if s.readEndian = .BIG then
    let hi ← getUint32
    let lo ← getUint32
    return lo.setWidth 64 ||| (hi.setWidth 64 <<< 32)
  else
    let lo ← getUint32
    let hi ← getUint32
    return lo.setWidth 64 ||| (hi.setWidth 64 <<< 32)
/-- `getInt64` (hpp:982-997). -/
def getInt64 : SM (BitVec 64) := do
  let s ← get
  if s.readEndian = .BIG then
    let hi ← getInt32
    let lo ← getUint32
    return lo.setWidth 64 ||| (hi.signExtend 64 <<< 32)
  else
    let lo ← getUint32
    let hi ← getInt32
    return lo.setWidth 64 ||| (hi.signExtend 64 <<< 32)
/-- `getFloat` (hpp:998-1007): the bits of the `float`. -/
def getFloat : SM (BitVec 32) := getUint32
/-- `getDouble` (hpp:1008-1017): the bits of the `double`. -/
def getDouble : SM (BitVec 64) := getUint64

/-- The loop of `getSubstr` (hpp:1021-1025), `n` iterations. -/
def getChars : ℕ → SM (List Byte)
  | 0 => return []
  | n + 1 => do
    let c ← getUint8
    let cs ← getChars n
    return c :: cs
/-- `getSubstr` (hpp:1018-1029). -/
def getSubstr (len : ℤ) : SM (List Byte) := do
  let m ← (chk (len - 1) : Except UB ℤ)
  let str ← getChars m.toNat
  if 0 < len then
    let _ ← getUint8
    return str
  else return str
/-- `get_string` (hpp:1030-1036). -/
def get_string : SM (List Byte) := do
  let len ← getUint32
  if 0 < len.toInt then getSubstr len.toInt else return []

/-- `align` (hpp:1038-1043).  The subtraction and the remainders are in `size_t`. -/
def align (dbg : Bool) (a : ℤ) : SM Unit := do
  let s ← ftell
  if a = 0 then throw .divByZero
  let a' := toSize a
  let m := toI32 (((a' + 2 ^ 64 - s % a') % 2 ^ 64) % a')
  let _ ← fseek dbg m .CURRENT
/-- `getPointer32` (hpp:1044-1048). -/
def getPointer32 : SM ℕ := do let p ← getUint32; return p.toNat
/-- `getPointer64` (hpp:1055-1059). -/
def getPointer64 : SM ℕ := do let p ← getUint64; return p.toNat

/-- `putInt8` (hpp:1134). -/
def putInt8 (dbg : Bool) (v : BitVec 8) : SM Unit := putUint8 dbg v
/-- `putUint16` (hpp:1135-1148). -/
def putUint16 (dbg : Bool) (u : BitVec 16) : SM Unit := do
  let s ← get
  if s.writeEndian = .BIG then
    putUint8 dbg (((u.setWidth 32).sshiftRight 8 &&& 0xFF).setWidth 8)
    putUint8 dbg ((u.setWidth 32 &&& 0xFF).setWidth 8)
  else
    putUint8 dbg ((u.setWidth 32 &&& 0xFF).setWidth 8)
    putUint8 dbg (((u.setWidth 32).sshiftRight 8 &&& 0xFF).setWidth 8)
/-- `putInt16` (hpp:1149-1162). -/
def putInt16 (dbg : Bool) (u : BitVec 16) : SM Unit := do
  let s ← get
  if s.writeEndian = .BIG then
    putInt8 dbg (((u.signExtend 32).sshiftRight 8 &&& 0xFF).setWidth 8)
    putUint8 dbg ((u.signExtend 32 &&& 0xFF).setWidth 8)
  else
    putUint8 dbg ((u.signExtend 32 &&& 0xFF).setWidth 8)
    putInt8 dbg (((u.signExtend 32).sshiftRight 8 &&& 0xFF).setWidth 8)
/-- `putUint32` (hpp:1163-1175). -/
def putUint32 (dbg : Bool) (u : BitVec 32) : SM Unit := do
  let s ← get
  if s.writeEndian = .BIG then
    putUint16 dbg ((u >>> 16 &&& 0xFFFF).setWidth 16)
    putUint16 dbg ((u &&& 0xFFFF).setWidth 16)
  else
    putUint16 dbg ((u &&& 0xFFFF).setWidth 16)
    putUint16 dbg ((u >>> 16 &&& 0xFFFF).setWidth 16)
/-- `putInt32` (hpp:1176-1188). -/
def putInt32 (dbg : Bool) (u : BitVec 32) : SM Unit := do
  let s ← get
  if s.writeEndian = .BIG then
    putInt16 dbg ((u.sshiftRight 16 &&& 0xFFFF).setWidth 16)
    putUint16 dbg ((u &&& 0xFFFF).setWidth 16)
  else
    putUint16 dbg ((u &&& 0xFFFF).setWidth 16)
    putInt16 dbg ((u.sshiftRight 16 &&& 0xFFFF).setWidth 16)
/-- `putUint64` (hpp:1190-1202). -/
def putUint64 (dbg : Bool) (v : BitVec 64) : SM Unit := do
  let s ← get
  if s.writeEndian = .BIG then
    putUint32 dbg ((v >>> 32).setWidth 32)
    putUint32 dbg ((v &&& 0xFFFFFFFF).setWidth 32)
  else
    putUint32 dbg ((v &&& 0xFFFFFFFF).setWidth 32)
    putUint32 dbg ((v >>> 32).setWidth 32)
/-- `putInt64` (hpp:1203-1215). -/
def putInt64 (dbg : Bool) (v : BitVec 64) : SM Unit := do
  let s ← get
  if s.writeEndian = .BIG then
    putInt32 dbg ((v.sshiftRight 32).setWidth 32)
    putUint32 dbg ((v &&& 0xFFFFFFFF).setWidth 32)
  else
    putUint32 dbg ((v &&& 0xFFFFFFFF).setWidth 32)
    putInt32 dbg ((v.sshiftRight 32).setWidth 32)
/-- `putFloat` (hpp:1216): the argument is the bits of the `float`. -/
def putFloat (dbg : Bool) (v : BitVec 32) : SM Unit := putUint32 dbg v
/-- `putDouble` (hpp:1217). -/
def putDouble (dbg : Bool) (v : BitVec 64) : SM Unit := putUint64 dbg v

/-- The loop of `putSubstr` (hpp:1220-1223): `n` iterations still to go, loop variable `i`.
`str[i]` is defined for `i <= str.size()` (the terminating zero); `i` is an `int`. -/
def putChars (dbg : Bool) (str : List Byte) : ℕ → ℕ → SM Unit
  | 0, _ => return ()
  | n + 1, i => do
    if i < str.length then putUint8 dbg (str.getD i 0)
    else if i = str.length then putUint8 dbg 0
    else throw .outOfBounds
    let _ ← (chk (i + 1) : Except UB ℤ)
    putChars dbg str n (i + 1)
/-- `putSubstr` (hpp:1218-1226); `len - 1` is in `size_t`. -/
def putSubstr (dbg : Bool) (str : List Byte) (len : ℕ) : SM Unit := do
  putChars dbg str ((len + 2 ^ 64 - 1) % 2 ^ 64) 0
  if 0 < len then putUint8 dbg 0
/-- `putString` (hpp:1227). -/
def putString (dbg : Bool) (str : List Byte) : SM Unit := putSubstr dbg str str.length

/-- `putPointer32` (hpp:1049-1054). -/
def putPointer32 (dbg : Bool) : SM ℕ := do
  let p ← mark
  putUint32 dbg 0
  return p
/-- `putPointer64` (hpp:1060-1065). -/
def putPointer64 (dbg : Bool) : SM ℕ := do
  let p ← mark
  putUint64 dbg 0
  return p

/-- `buffer_[p] = b0; buffer_[p + 1] = b1; …` (indices in `size_t`). -/
def store : List Byte → ℕ → SM Unit
  | [], _ => return ()
  | b :: bs, p => do
    setBuf fun l => vset l p b
    store bs ((p + 1) % 2 ^ 64)
/-- `adjustPointer32` (hpp:1067-1090). -/
def adjustPointer32 (p : ℕ) : SM Unit := do
  let s ← get
  let ui : BitVec 32 := BitVec.ofNat 32 s.buf.length
  let uc0 : Byte := (ui &&& 0xFF).setWidth 8
  let ui := ui >>> 8
  let uc1 : Byte := (ui &&& 0xFF).setWidth 8
  let ui := ui >>> 8
  let uc2 : Byte := (ui &&& 0xFF).setWidth 8
  let ui := ui >>> 8
  let uc3 : Byte := (ui &&& 0xFF).setWidth 8
  if s.writeEndian = .BIG then store [uc3, uc2, uc1, uc0] p
  else store [uc0, uc1, uc2, uc3] p
/-- `adjustPointer64` (hpp:1092-1132). -/
def adjustPointer64 (p : ℕ) : SM Unit := do
  let s ← get
  let ui : BitVec 64 := BitVec.ofNat 64 s.buf.length
  let uc0 : Byte := (ui &&& 0xFF).setWidth 8
  let ui := ui >>> 8
  let uc1 : Byte := (ui &&& 0xFF).setWidth 8
  let ui := ui >>> 8
  let uc2 : Byte := (ui &&& 0xFF).setWidth 8
  let ui := ui >>> 8
  let uc3 : Byte := (ui &&& 0xFF).setWidth 8
  let ui := ui >>> 8
  let uc4 : Byte := (ui &&& 0xFF).setWidth 8
  let ui := ui >>> 8
  let uc5 : Byte := (ui &&& 0xFF).setWidth 8
  let ui := ui >>> 8
  let uc6 : Byte := (ui &&& 0xFF).setWidth 8
  let ui := ui >>> 8
  let uc7 : Byte := (ui &&& 0xFF).setWidth 8
  if s.writeEndian = .BIG then store [uc7, uc6, uc5, uc4, uc3, uc2, uc1, uc0] p
  else store [uc0, uc1, uc2, uc3, uc4, uc5, uc6, uc7] p

end Stream

/-- `loadGamutFromICCProfileMemory` (hpp:1230-1234). -/
def loadGamutFromICCProfileMemory {α : Type} [Arith α] (mem : Option (List Byte)) (size : ℕ) :
    Except UB (Gamut α) := do
  let _ ← Stream.construct mem size
  return Gamut.ofFromXYZ "" ⟨lit 1, lit 0, lit 0, lit 0, lit 1, lit 0, lit 0, lit 0, lit 1⟩

end CS
