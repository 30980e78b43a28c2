import Verif.Model.Stream

/-! Specification vocabulary for the byte stream, independent of how the code computes. -/

namespace CS.Spec

/-- The `k` bytes of `n`, least significant first. -/
def leBytes : ℕ → ℕ → List Byte
  | 0, _ => []
  | k + 1, n => BitVec.ofNat 8 n :: leBytes k (n / 256)
/-- The number whose base-256 digits, least significant first, are the given bytes. -/
def leNat : List Byte → ℕ
  | [] => 0
  | b :: bs => b.toNat + 256 * leNat bs
/-- Byte order: `LITTLE` keeps least-significant-first, `BIG` reverses. -/
def order (e : Endian) (l : List Byte) : List Byte :=
  match e with
  | .LITTLE => l
  | .BIG => l.reverse
/-- The `k` bytes of an infinite zero-padded buffer from position `i`. -/
def window (l : List Byte) (i k : ℕ) : List Byte := (List.range k).map fun j => (l[i + j]?).getD 0

/-- The scalar types a stream can hold. -/
inductive Kind where
  | u8 | u16 | u32 | u64 | i8 | i16 | i32 | i64 | f32 | f64
  deriving DecidableEq, Repr
/-- `sizeof`. -/
def Kind.bytes : Kind → ℕ
  | .u8 | .i8 => 1
  | .u16 | .i16 => 2
  | .u32 | .i32 | .f32 => 4
  | .u64 | .i64 | .f64 => 8
/-- A scalar's bit pattern. -/
abbrev Kind.Carrier (k : Kind) : Type := BitVec (8 * k.bytes)
/-- The `putX` of a type. -/
def Kind.put (dbg : Bool) : (k : Kind) → k.Carrier → SM Unit
  | .u8, v => Stream.putUint8 dbg v
  | .u16, v => Stream.putUint16 dbg v
  | .u32, v => Stream.putUint32 dbg v
  | .u64, v => Stream.putUint64 dbg v
  | .i8, v => Stream.putInt8 dbg v
  | .i16, v => Stream.putInt16 dbg v
  | .i32, v => Stream.putInt32 dbg v
  | .i64, v => Stream.putInt64 dbg v
  | .f32, v => Stream.putFloat dbg v
  | .f64, v => Stream.putDouble dbg v
/-- The `getX` of a type. -/
def Kind.get : (k : Kind) → SM k.Carrier
  | .u8 => Stream.getUint8
  | .u16 => Stream.getUint16
  | .u32 => Stream.getUint32
  | .u64 => Stream.getUint64
  | .i8 => Stream.getInt8
  | .i16 => Stream.getInt16
  | .i32 => Stream.getInt32
  | .i64 => Stream.getInt64
  | .f32 => Stream.getFloat
  | .f64 => Stream.getDouble
/-- A scalar with its type. -/
abbrev Scalar := (k : Kind) × k.Carrier
/-- Put a sequence of scalars. -/
def putAll (dbg : Bool) : List Scalar → SM Unit
  | [] => return ()
  | v :: vs => do v.1.put dbg v.2; putAll dbg vs
/-- Get a sequence of scalars of the given types. -/
def getAll : List Kind → SM (List Scalar)
  | [] => return []
  | k :: ks => do
    let v ← k.get
    let vs ← getAll ks
    return ⟨k, v⟩ :: vs
/-- Total size. -/
def totalBytes (vs : List Scalar) : ℕ := (vs.map fun v => v.1.bytes).sum
/-- Concatenated encodings. -/
def encodeAll (e : Endian) (vs : List Scalar) : List Byte :=
  vs.flatMap fun v => order e (leBytes v.1.bytes v.2.toNat)

end CS.Spec
