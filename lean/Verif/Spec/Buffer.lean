import Verif.Model.RwBuffer
import Verif.Spec.Schnorr
/-!
# What a read/write buffer should do

A tape: cells, the number of cells filled and the position of the next cell to read.  No addresses, no
fixed width numbers.
-/
namespace Ergo.Spec

/-- Number of a byte sequence. -/
def intValue : Endian → Bytes → Nat
  | .be, bs => be bs
  | .le, bs => be bs.reverse

/-- The `n` bytes of a number. -/
def intBytes (e : Endian) (n v : Nat) : Bytes :=
  let bs := (List.range n).map fun k => UInt8.ofNat (v / 256 ^ k)
  match e with
  | .le => bs
  | .be => bs.reverse

/-- Big-endian 32-bit numbers. -/
def words : Bytes → List UInt32
  | a :: b :: c :: d :: r => UInt32.ofNat (be [a, b, c, d]) :: words r
  | _ => []

structure Tape where
  cells : Bytes
  filled : Nat
  pos : Nat
  deriving DecidableEq, Repr

namespace Tape

/-- The bytes that can be read. -/
def data (t : Tape) : Bytes := (t.cells.take t.filled).drop t.pos

/-- A read of `n` bytes, or a refusal that changes nothing. -/
def read (t : Tape) (n : Nat) (f : Bytes → RwVal) (zero : RwVal) : (Bool × RwVal) × Tape :=
  if n ≤ t.data.length then ((true, f (t.data.take n)), { t with pos := t.pos + n })
  else ((false, zero), t)

/-- A write, or a refusal that changes nothing. -/
def write (t : Tape) (bs : Bytes) : (Bool × RwVal) × Tape :=
  if t.filled + bs.length ≤ t.cells.length then
    ((true, .unit),
      { t with
        cells := t.cells.take t.filled ++ bs ++ t.cells.drop (t.filled + bs.length)
        filled := t.filled + bs.length })
  else ((false, .unit), t)

/-- Move the reading position. -/
def seekRead (t : Tape) (p : Nat) : (Bool × RwVal) × Tape :=
  if p ≤ t.filled then ((true, .unit), { t with pos := p }) else ((false, .unit), t)

/-- Move the writing position. -/
def seekWrite (t : Tape) (p : Nat) : (Bool × RwVal) × Tape :=
  if p ≤ t.cells.length then ((true, .unit), { t with filled := p }) else ((false, .unit), t)

/-- The operations. -/
def step (t : Tape) : RwOp → (Bool × RwVal) × Tape
  | .empty => ((true, .unit), { t with filled := 0, pos := 0 })
  | .shift =>
    ((true, .unit), ⟨t.data ++ t.cells.drop t.data.length, t.data.length, 0⟩)
  | .seekReadSet n => t.seekRead n.toNat
  | .seekReadCur n => t.seekRead (t.pos + n.toNat)
  | .seekReadEnd n =>
    if n.toNat ≤ t.filled then t.seekRead (t.filled - n.toNat) else ((false, .unit), t)
  | .seekWriteSet n => t.seekWrite n.toNat
  | .seekWriteCur n => t.seekWrite (t.filled + n.toNat)
  | .seekWriteEnd n =>
    if n.toNat ≤ t.cells.length then t.seekWrite (t.cells.length - n.toNat)
    else ((false, .unit), t)
  | .readU8 => t.read 1 (fun b => .u8 (UInt8.ofNat (be b))) (.u8 0)
  | .readU16 e => t.read 2 (fun b => .u16 (UInt16.ofNat (intValue e b))) (.u16 0)
  | .readU32 e => t.read 4 (fun b => .u32 (UInt32.ofNat (intValue e b))) (.u32 0)
  | .readU64 e => t.read 8 (fun b => .u64 (UInt64.ofNat (intValue e b))) (.u64 0)
  | .readBytes n => t.read n.toNat .bytes (.bytes [])
  | .copyBytes n => ((t.read n.toNat .bytes (.bytes [])).1, t)
  | .readPath n =>
    if 1 ≤ n.toNat ∧ n.toNat ≤ 10 then t.read (4 * n.toNat) (fun b => .path (words b)) (.path [])
    else ((false, .path []), t)
  | .writeU8 v => t.write (intBytes .be 1 v.toNat)
  | .writeU16 v e => t.write (intBytes e 2 v.toNat)
  | .writeU32 v e => t.write (intBytes e 4 v.toNat)
  | .writeU64 v e => t.write (intBytes e 8 v.toNat)
  | .writeBytes bs => t.write bs

/-- A sequence of operations. -/
def steps (t : Tape) : List RwOp → List (Bool × RwVal) × Tape
  | [] => ([], t)
  | op :: ops =>
    let r := t.step op
    let rs := r.2.steps ops
    (r.1 :: rs.1, rs.2)

/-- A byte array to write is shorter than `2^32`; the writing position is not moved behind the reading
position. -/
def Allowed (t : Tape) : RwOp → Prop
  | .seekWriteSet n => t.pos ≤ n.toNat
  | .seekWriteEnd n => t.pos + n.toNat ≤ t.cells.length
  | .writeBytes bs => bs.length < 2 ^ 32
  | _ => True

/-- The same along a sequence. -/
def AllAllowed (t : Tape) : List RwOp → Prop
  | [] => True
  | op :: ops => t.Allowed op ∧ (t.step op).2.AllAllowed ops

end Tape

/-- What the cells hold. -/
def tape (m : Mem) (b : RwBuffer) : Tape :=
  ⟨(List.range b.size.toNat).map (fun k => m.byte (b.read.ptr + k)), b.read.size.toNat,
    b.read.offset.toNat⟩

/-- Reading position ≤ writing position ≤ allocated size. -/
def Sound (b : RwBuffer) : Prop := b.read.offset ≤ b.read.size ∧ b.read.size ≤ b.size

/-- The address belongs to the array of the buffer. -/
def InArea (b : RwBuffer) (a : Nat) : Prop := b.read.ptr ≤ a ∧ a < b.read.ptr + b.size.toNat

/-- The address belongs to a byte that was written and not yet read. -/
def InData (b : RwBuffer) (a : Nat) : Prop :=
  b.read.ptr + b.read.offset.toNat ≤ a ∧ a < b.read.ptr + b.read.size.toNat

end Ergo.Spec

namespace Ergo.Spec

/-- The bytes an operation writes. -/
def written : RwOp → Option Bytes
  | .writeU8 v => some (intBytes .be 1 v.toNat)
  | .writeU16 v e => some (intBytes e 2 v.toNat)
  | .writeU32 v e => some (intBytes e 4 v.toNat)
  | .writeU64 v e => some (intBytes e 8 v.toNat)
  | .writeBytes bs => some bs
  | _ => none

/-- Something to be written and read back. -/
inductive Item where
  | u8 (v : UInt8)
  | u16 (v : UInt16) (e : Endian)
  | u32 (v : UInt32) (e : Endian)
  | u64 (v : UInt64) (e : Endian)
  | bytes (bs : Bytes)

namespace Item

def size : Item → Nat
  | .u8 _ => 1
  | .u16 _ _ => 2
  | .u32 _ _ => 4
  | .u64 _ _ => 8
  | .bytes bs => bs.length

/-- The operation that writes it. -/
def put : Item → RwOp
  | .u8 v => .writeU8 v
  | .u16 v e => .writeU16 v e
  | .u32 v e => .writeU32 v e
  | .u64 v e => .writeU64 v e
  | .bytes bs => .writeBytes bs

/-- The operation that reads it. -/
def get : Item → RwOp
  | .u8 _ => .readU8
  | .u16 _ e => .readU16 e
  | .u32 _ e => .readU32 e
  | .u64 _ e => .readU64 e
  | .bytes bs => .readBytes (UInt32.ofNat bs.length)

/-- What the reader gets. -/
def val : Item → RwVal
  | .u8 v => .u8 v
  | .u16 v _ => .u16 v
  | .u32 v _ => .u32 v
  | .u64 v _ => .u64 v
  | .bytes bs => .bytes bs

end Item

/-- The unread bytes of a buffer. -/
def view (m : Mem) (b : Buffer) : Bytes :=
  (List.range (b.size.toNat - b.offset.toNat)).map fun k => m.byte (b.ptr + b.offset.toNat + k)

end Ergo.Spec
