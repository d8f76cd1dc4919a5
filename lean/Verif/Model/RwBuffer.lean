import Verif.Model.Bytes
import Verif.Model.Bip32
/-!
# `buffer_t` and `rw_buffer_t` with pointer, sizes and offsets

unit-tests/utils/buffer.c, read.c, write.c (the SDK's code), src/common/buffer_ext.{h,c},
src/common/rwbuffer.{h,c}.

Memory is a function from addresses to bytes, with a record of the addresses read and written.
`size_t` is 32 bits wide, as on the devices; addresses are natural numbers, so that nothing is
assumed about where a pointer that left its object leads to.

Simplification: the other operand of a transfer (`out`, `value`, `from`) is a C object different from
the buffer's array; it is passed and returned as a value and its accesses are not recorded.
-/
namespace Ergo

/-- Memory and the record of accesses. -/
structure Mem where
  byte : Nat → UInt8
  reads : List Nat
  writes : List Nat

/-- `endianness_t`. -/
inductive Endian where
  | be
  | le
  deriving DecidableEq, Repr

/-- Record reads. -/
def Mem.touch (m : Mem) (as : List Nat) : Mem := { m with reads := m.reads ++ as }

/-- One store. -/
def Mem.store (m : Mem) (a : Nat) (v : UInt8) : Mem :=
  { m with byte := fun x => if x = a then v else m.byte x, writes := m.writes ++ [a] }

/-- Stores at the given addresses. -/
def Mem.stores (m : Mem) : List Nat → List UInt8 → Mem
  | a :: as, v :: vs => (m.store a v).stores as vs
  | _, _ => m

/-- Addresses of `p[i + 0] … p[i + (n-1)]`; the index is a `size_t`. -/
def indexed (p : Nat) (i : UInt32) (n : Nat) : List Nat :=
  (List.range n).map fun k => p + (i + UInt32.ofNat k).toNat

/-- Addresses of `n` bytes from address `a`, as used by `memmove`. -/
def span (a n : Nat) : List Nat := (List.range n).map fun k => a + k

/-- `memmove`: all bytes are read before the first is written. -/
def Mem.move (m : Mem) (dst src n : Nat) : Mem :=
  (m.touch (span src n)).stores (span dst n) ((span src n).map m.byte)

/-- `buffer_t`, unit-tests/utils/buffer.h. -/
structure Buffer where
  ptr : Nat
  size : UInt32
  offset : UInt32
  deriving DecidableEq, Repr

/-- `rw_buffer_t`, rwbuffer.h:29-32: the size of `read` is the write offset. -/
structure RwBuffer where
  read : Buffer
  size : UInt32
  deriving DecidableEq, Repr

/-- `read_u16_le`, unit-tests/utils/read.c:48-52. -/
def readU16le (b0 b1 : UInt8) : UInt16 := b0.toUInt16 ||| b1.toUInt16 <<< 8

/-- `read_u32_le`, unit-tests/utils/read.c:54-60. -/
def readU32le (b0 b1 b2 b3 : UInt8) : UInt32 :=
  b0.toUInt32 ||| b1.toUInt32 <<< 8 ||| b2.toUInt32 <<< 16 ||| b3.toUInt32 <<< 24

/-- `read_u64_le`, unit-tests/utils/read.c:62-72. -/
def readU64le (b0 b1 b2 b3 b4 b5 b6 b7 : UInt8) : UInt64 :=
  b0.toUInt64 ||| b1.toUInt64 <<< 8 ||| b2.toUInt64 <<< 16 ||| b3.toUInt64 <<< 24 |||
  b4.toUInt64 <<< 32 ||| b5.toUInt64 <<< 40 ||| b6.toUInt64 <<< 48 ||| b7.toUInt64 <<< 56

/-- `write_u16_le`, unit-tests/utils/write.c:48-52. -/
def writeU16le (v : UInt16) : Bytes := [v.toUInt8, (v >>> 8).toUInt8]

/-- `write_u32_le`, unit-tests/utils/write.c:54-60. -/
def writeU32le (v : UInt32) : Bytes :=
  [v.toUInt8, (v >>> 8).toUInt8, (v >>> 16).toUInt8, (v >>> 24).toUInt8]

/-- `write_u64_le`, unit-tests/utils/write.c:62-72. -/
def writeU64le (v : UInt64) : Bytes :=
  [v.toUInt8, (v >>> 8).toUInt8, (v >>> 16).toUInt8, (v >>> 24).toUInt8,
   (v >>> 32).toUInt8, (v >>> 40).toUInt8, (v >>> 48).toUInt8, (v >>> 56).toUInt8]

namespace Buffer

/-- `buffer_can_read`, buffer.c:27-30. -/
def canRead (b : Buffer) (n : UInt32) : Bool := b.size - b.offset ≥ n

/-- `buffer_seek_set`, buffer.c:32-41. -/
def seekSet (b : Buffer) (n : UInt32) : Bool × Buffer :=
  if n > b.size then (false, b) else (true, { b with offset := n })

/-- `buffer_seek_cur`, buffer.c:43-53. -/
def seekCur (b : Buffer) (n : UInt32) : Bool × Buffer :=
  if b.offset + n < b.offset ∨ b.offset + n > b.size then (false, b)
  else (true, { b with offset := b.offset + n })

/-- `buffer_seek_end`, buffer.c:55-64. -/
def seekEnd (b : Buffer) (n : UInt32) : Bool × Buffer :=
  if n > b.size then (false, b) else (true, { b with offset := b.size - n })

/-- `b->ptr[b->offset + k]`. -/
def peek (b : Buffer) (m : Mem) (k : UInt32) : UInt8 := m.byte (b.ptr + (b.offset + k).toNat)

/-- `buffer_read_u8`, buffer.c:66-78. -/
def readU8 (b : Buffer) (m : Mem) : Bool × UInt8 × Buffer × Mem :=
  if !b.canRead 1 then (false, 0, b, m)
  else (true, b.peek m 0, (b.seekCur 1).2, m.touch (indexed b.ptr b.offset 1))

/-- `buffer_read_u16`, buffer.c:80-94. -/
def readU16 (b : Buffer) (e : Endian) (m : Mem) : Bool × UInt16 × Buffer × Mem :=
  if !b.canRead 2 then (false, 0, b, m)
  else
    let p := b.peek m
    (true, match e with | .be => readU16be (p 0) (p 1) | .le => readU16le (p 0) (p 1),
      (b.seekCur 2).2, m.touch (indexed b.ptr b.offset 2))

/-- `buffer_read_u32`, buffer.c:96-110. -/
def readU32 (b : Buffer) (e : Endian) (m : Mem) : Bool × UInt32 × Buffer × Mem :=
  if !b.canRead 4 then (false, 0, b, m)
  else
    let p := b.peek m
    (true, match e with
      | .be => readU32be (p 0) (p 1) (p 2) (p 3)
      | .le => readU32le (p 0) (p 1) (p 2) (p 3),
      (b.seekCur 4).2, m.touch (indexed b.ptr b.offset 4))

/-- `buffer_read_u64`, buffer.c:112-126. -/
def readU64 (b : Buffer) (e : Endian) (m : Mem) : Bool × UInt64 × Buffer × Mem :=
  if !b.canRead 8 then (false, 0, b, m)
  else
    let p := b.peek m
    (true, match e with
      | .be => readU64be (p 0) (p 1) (p 2) (p 3) (p 4) (p 5) (p 6) (p 7)
      | .le => readU64le (p 0) (p 1) (p 2) (p 3) (p 4) (p 5) (p 6) (p 7),
      (b.seekCur 8).2, m.touch (indexed b.ptr b.offset 8))

/-- `buffer_copy_bytes`, buffer_ext.c:8-12: the bytes copied to `out`. -/
def copyBytes (b : Buffer) (n : UInt32) (m : Mem) : Bool × Bytes × Mem :=
  if !b.canRead n then (false, [], m)
  else
    let as := span (b.ptr + b.offset.toNat) n.toNat
    (true, as.map m.byte, m.touch as)

/-- `buffer_read_bytes`, buffer_ext.c:14-19. -/
def readBytes (b : Buffer) (n : UInt32) (m : Mem) : Bool × Bytes × Buffer × Mem :=
  let r := b.copyBytes n m
  if !r.1 then (false, r.2.1, b, r.2.2)
  else
    let s := b.seekCur n
    (s.1, r.2.1, s.2, r.2.2)

/-- Loop of `bip32_path_read`, bip32.c:34-40, over the `inLen` bytes at `p`; `o` is its `offset`.  A
partly filled `out` is not returned. -/
def pathLoop (p : Nat) (inLen : UInt32) : Nat → UInt32 → Mem → Option (List UInt32) × Mem
  | 0, _, m => (some [], m)
  | n + 1, o, m =>
    if o + 4 > inLen then (none, m)
    else
      let q := fun k : UInt32 => m.byte (p + (o + k).toNat)
      let r := pathLoop p inLen n (o + 4) (m.touch (indexed p o 4))
      (r.1.map (readU32be (q 0) (q 1) (q 2) (q 3) :: ·), r.2)

/-- `buffer_read_bip32_path`, buffer.c:141-151, and `bip32_path_read`, bip32.c:26-43. -/
def readPath (b : Buffer) (n : UInt32) (m : Mem) : Bool × List UInt32 × Buffer × Mem :=
  if n = 0 ∨ n > 10 then (false, [], b, m)
  else
    match pathLoop (b.ptr + b.offset.toNat) (b.size - b.offset) n.toNat 0 m with
    | (none, m) => (false, [], b, m)
    | (some l, m) => (true, l, (b.seekCur (4 * n)).2, m)

end Buffer

namespace RwBuffer

/-- `rw_buffer_init`, rwbuffer.h:47-53. -/
def init (ptr : Nat) (bufSize dataSize : UInt32) : RwBuffer := ⟨⟨ptr, dataSize, 0⟩, bufSize⟩

/-- `rw_buffer_can_write`, rwbuffer.h:141-143, with `rw_buffer_empty_space_len`, rwbuffer.h:89-91. -/
def canWrite (b : RwBuffer) (n : UInt32) : Bool := b.size - b.read.size ≥ n

/-- `rw_buffer_seek_write_set`, rwbuffer.c:9-15. -/
def seekWriteSet (b : RwBuffer) (n : UInt32) : Bool × RwBuffer :=
  if n > b.size then (false, b) else (true, { b with read.size := n })

/-- `rw_buffer_seek_write_cur`, rwbuffer.c:17-24. -/
def seekWriteCur (b : RwBuffer) (n : UInt32) : Bool × RwBuffer :=
  if b.read.size + n < b.read.size ∨ b.read.size + n > b.size then (false, b)
  else (true, { b with read.size := b.read.size + n })

/-- `rw_buffer_seek_write_end`, rwbuffer.c:26-32. -/
def seekWriteEnd (b : RwBuffer) (n : UInt32) : Bool × RwBuffer :=
  if n > b.size then (false, b) else (true, { b with read.size := b.size - n })

/-- `rw_buffer_empty`, rwbuffer.h:62-65. -/
def empty (b : RwBuffer) : RwBuffer := { b with read := { b.read with offset := 0, size := 0 } }

/-- The common shape of `rw_buffer_write_u8/16/32/64`, rwbuffer.c:34-91: `bs` are the bytes that the
function of write.c puts at `ptr[size + 0]`, `ptr[size + 1]`, … -/
def writeInt (b : RwBuffer) (bs : Bytes) (m : Mem) : Bool × RwBuffer × Mem :=
  if !b.canWrite (UInt32.ofNat bs.length) then (false, b, m)
  else
    (true, (b.seekWriteCur (UInt32.ofNat bs.length)).2,
      m.stores (indexed b.read.ptr b.read.size bs.length) bs)

/-- `rw_buffer_write_u8`, rwbuffer.c:34-43. -/
def writeU8 (b : RwBuffer) (v : UInt8) (m : Mem) : Bool × RwBuffer × Mem := b.writeInt [v] m

/-- `rw_buffer_write_u16`, rwbuffer.c:45-59. -/
def writeU16 (b : RwBuffer) (v : UInt16) (e : Endian) (m : Mem) : Bool × RwBuffer × Mem :=
  b.writeInt (match e with | .be => writeU16be v | .le => writeU16le v) m

/-- `rw_buffer_write_u32`, rwbuffer.c:61-75. -/
def writeU32 (b : RwBuffer) (v : UInt32) (e : Endian) (m : Mem) : Bool × RwBuffer × Mem :=
  b.writeInt (match e with | .be => writeU32be v | .le => writeU32le v) m

/-- `rw_buffer_write_u64`, rwbuffer.c:77-91. -/
def writeU64 (b : RwBuffer) (v : UInt64) (e : Endian) (m : Mem) : Bool × RwBuffer × Mem :=
  b.writeInt (match e with | .be => writeU64be v | .le => writeU64le v) m

/-- `rw_buffer_write_bytes`, rwbuffer.c:93-103; `from_len` is the length of `bs`. -/
def writeBytes (b : RwBuffer) (bs : Bytes) (m : Mem) : Bool × RwBuffer × Mem :=
  let n := UInt32.ofNat bs.length
  if !b.canWrite n then (false, b, m)
  else
    (true, (b.seekWriteCur n).2, m.stores (span (b.read.ptr + b.read.size.toNat) n.toNat) bs)

/-- `rw_buffer_shift_data`, rwbuffer.c:105-111. -/
def shiftData (b : RwBuffer) (m : Mem) : RwBuffer × Mem :=
  if b.read.offset = 0 then (b, m)
  else
    let n := b.read.size - b.read.offset
    let m := m.move b.read.ptr (b.read.ptr + b.read.offset.toNat) n.toNat
    let b := { b with read := (b.read.seekSet 0).2 }
    ((b.seekWriteSet n).2, m)

end RwBuffer

/-- The operations on a read/write buffer. -/
inductive RwOp where
  | empty
  | shift
  | seekReadSet (n : UInt32)
  | seekReadCur (n : UInt32)
  | seekReadEnd (n : UInt32)
  | seekWriteSet (n : UInt32)
  | seekWriteCur (n : UInt32)
  | seekWriteEnd (n : UInt32)
  | readU8
  | readU16 (e : Endian)
  | readU32 (e : Endian)
  | readU64 (e : Endian)
  | readBytes (n : UInt32)
  | copyBytes (n : UInt32)
  | readPath (n : UInt32)
  | writeU8 (v : UInt8)
  | writeU16 (v : UInt16) (e : Endian)
  | writeU32 (v : UInt32) (e : Endian)
  | writeU64 (v : UInt64) (e : Endian)
  | writeBytes (bs : Bytes)
  deriving DecidableEq, Repr

/-- What an operation gives back beside the flag. -/
inductive RwVal where
  | unit
  | u8 (v : UInt8)
  | u16 (v : UInt16)
  | u32 (v : UInt32)
  | u64 (v : UInt64)
  | bytes (bs : Bytes)
  | path (p : List UInt32)
  deriving DecidableEq, Repr

/-- Calling an operation (the readers go through the inline functions of rwbuffer.h:182-359). -/
def RwBuffer.call (b : RwBuffer) (m : Mem) : RwOp → (Bool × RwVal) × RwBuffer × Mem
  | .empty => ((true, .unit), b.empty, m)
  | .shift => let r := b.shiftData m; ((true, .unit), r.1, r.2)
  | .seekReadSet n => let r := b.read.seekSet n; ((r.1, .unit), { b with read := r.2 }, m)
  | .seekReadCur n => let r := b.read.seekCur n; ((r.1, .unit), { b with read := r.2 }, m)
  | .seekReadEnd n => let r := b.read.seekEnd n; ((r.1, .unit), { b with read := r.2 }, m)
  | .seekWriteSet n => let r := b.seekWriteSet n; ((r.1, .unit), r.2, m)
  | .seekWriteCur n => let r := b.seekWriteCur n; ((r.1, .unit), r.2, m)
  | .seekWriteEnd n => let r := b.seekWriteEnd n; ((r.1, .unit), r.2, m)
  | .readU8 => let r := b.read.readU8 m; ((r.1, .u8 r.2.1), { b with read := r.2.2.1 }, r.2.2.2)
  | .readU16 e =>
    let r := b.read.readU16 e m; ((r.1, .u16 r.2.1), { b with read := r.2.2.1 }, r.2.2.2)
  | .readU32 e =>
    let r := b.read.readU32 e m; ((r.1, .u32 r.2.1), { b with read := r.2.2.1 }, r.2.2.2)
  | .readU64 e =>
    let r := b.read.readU64 e m; ((r.1, .u64 r.2.1), { b with read := r.2.2.1 }, r.2.2.2)
  | .readBytes n =>
    let r := b.read.readBytes n m; ((r.1, .bytes r.2.1), { b with read := r.2.2.1 }, r.2.2.2)
  | .copyBytes n => let r := b.read.copyBytes n m; ((r.1, .bytes r.2.1), b, r.2.2)
  | .readPath n =>
    let r := b.read.readPath n m; ((r.1, .path r.2.1), { b with read := r.2.2.1 }, r.2.2.2)
  | .writeU8 v => let r := b.writeU8 v m; ((r.1, .unit), r.2.1, r.2.2)
  | .writeU16 v e => let r := b.writeU16 v e m; ((r.1, .unit), r.2.1, r.2.2)
  | .writeU32 v e => let r := b.writeU32 v e m; ((r.1, .unit), r.2.1, r.2.2)
  | .writeU64 v e => let r := b.writeU64 v e m; ((r.1, .unit), r.2.1, r.2.2)
  | .writeBytes bs => let r := b.writeBytes bs m; ((r.1, .unit), r.2.1, r.2.2)

/-- A sequence of operations, with the results. -/
def RwBuffer.calls (b : RwBuffer) (m : Mem) : List RwOp → List (Bool × RwVal) × RwBuffer × Mem
  | [] => ([], b, m)
  | op :: ops =>
    let r := b.call m op
    let rs := r.2.1.calls r.2.2 ops
    (r.1 :: rs.1, rs.2)

end Ergo
