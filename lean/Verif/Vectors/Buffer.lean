import Verif.Model.RwBuffer
/-!
# test_buffer.c, run on the model

These are tests, not proofs: the calls of unit-tests/test_buffer.c in their order, with what they are expected to
give.  The array of a test starts at address 100.  Tests of the macros that set a buffer up are tests of
`RwBuffer.init`, which they expand to.
-/
namespace Ergo.Vectors

/-- Memory with an array at address 100. -/
def arrayAt (bs : Bytes) : Mem := ⟨fun a => bs.getD (a - 100) 0, [], []⟩

/-- `RW_BUFFER_FROM_ARRAY_FULL`, rwbuffer.h:5-7. -/
def fullBuf (bs : Bytes) : RwBuffer := .init 100 (UInt32.ofNat bs.length) (UInt32.ofNat bs.length)

/-- `RW_BUFFER_FROM_ARRAY_EMPTY`, rwbuffer.h:9-11. -/
def emptyBuf (n : UInt32) : RwBuffer := .init 100 n 0

/-- What the calls return, and the read and write positions after them. -/
def bufCalls (b : RwBuffer) (bs : Bytes) (ops : List RwOp) : List (Bool × RwVal) × UInt32 × UInt32 :=
  let r := b.calls (arrayAt bs) ops
  (r.1, r.2.1.read.offset, r.2.1.read.size)

/-- The flags the calls return, and the read and write positions after them. -/
def bufFlags (b : RwBuffer) (bs : Bytes) (ops : List RwOp) : List Bool × UInt32 × UInt32 :=
  let r := bufCalls b bs ops
  (r.1.map (·.1), r.2)

/-- The first bytes of the array after the calls. -/
def bufArray (b : RwBuffer) (bs : Bytes) (ops : List RwOp) (n : Nat) : Bytes :=
  (List.range n).map fun k => (b.calls (arrayAt bs) ops).2.2.byte (100 + k)

/-- `test_buffer_init`, test_buffer.c:11-23, and the macros, test_buffer.c:25-77. -/
example : RwBuffer.init 100 3 2 = ⟨⟨100, 2, 0⟩, 3⟩ ∧ fullBuf [1] = ⟨⟨100, 1, 0⟩, 1⟩ ∧
    emptyBuf 1 = ⟨⟨100, 0, 0⟩, 1⟩ := by
  decide +kernel

/-- `test_buffer_empty`, test_buffer.c:79-88. -/
example : bufFlags (fullBuf [1]) [1] [.seekReadCur 1, .empty] = ([true, true], 0, 0) := by
  decide +kernel

/-- `test_buffer_can_read`, test_buffer.c:109-119. -/
example : (fullBuf (List.replicate 20 0)).read.canRead 20 = true ∧
    ((fullBuf (List.replicate 20 0)).read.seekCur 20).1 = true ∧
    ((fullBuf (List.replicate 20 0)).read.seekCur 20).2.canRead 1 = false := by
  decide +kernel

/-- `test_buffer_can_write`, test_buffer.c:121-130, and `test_buffer_empty_space_len`, test_buffer.c:132-140. -/
example : (emptyBuf 1).canWrite 1 = true ∧ (emptyBuf 1).canWrite 2 = false ∧
    ((emptyBuf 1).seekWriteCur 1).1 = true ∧ ((emptyBuf 1).seekWriteCur 1).2.canWrite 1 = false ∧
    ((emptyBuf 1).seekWriteCur 1).2.canWrite 0 = true := by
  decide +kernel

/-- `test_buffer_data_len`, test_buffer.c:142-152, and the positions, test_buffer.c:154-172. -/
example : bufFlags (emptyBuf 1) [1] [] = ([], 0, 0) ∧
    bufFlags (emptyBuf 1) [1] [.seekWriteCur 1] = ([true], 0, 1) ∧
    bufFlags (emptyBuf 1) [1] [.seekWriteCur 1, .seekReadCur 1] = ([true, true], 1, 1) ∧
    bufFlags (fullBuf [1]) [1] [.seekReadCur 1] = ([true], 1, 1) := by
  decide +kernel

/-- `test_buffer_seek_read`, test_buffer.c:174-193. -/
example : bufFlags (fullBuf (List.replicate 20 0)) (List.replicate 20 0)
      [.seekReadCur 20, .seekReadCur 1, .seekReadEnd 19] = ([true, false, true], 1, 20) ∧
    bufFlags (fullBuf (List.replicate 20 0)) (List.replicate 20 0)
      [.seekReadCur 20, .seekReadCur 1, .seekReadEnd 19, .seekReadEnd 21, .seekReadSet 10] =
      ([true, false, true, false, true], 10, 20) ∧
    bufFlags (fullBuf (List.replicate 20 0)) (List.replicate 20 0) [.seekReadSet 21] = ([false], 0, 20) := by
  decide +kernel

/-- `test_buffer_seek_write`, test_buffer.c:195-214. -/
example : bufFlags (emptyBuf 20) (List.replicate 20 0) [.seekWriteCur 20, .seekWriteCur 1, .seekWriteEnd 19] =
      ([true, false, true], 0, 1) ∧
    bufFlags (emptyBuf 20) (List.replicate 20 0)
      [.seekWriteCur 20, .seekWriteCur 1, .seekWriteEnd 19, .seekWriteEnd 21, .seekWriteSet 10,
        .seekWriteSet 21] = ([true, false, true, false, true, false], 0, 10) := by
  decide +kernel

/-- The array of `test_buffer_read`. -/
def readBytes15 : Bytes := [0xFF, 1, 2, 3, 4, 5, 6, 7, 8, 9, 10, 11, 12, 13, 14]

/-- `test_buffer_read`, test_buffer.c:216-263. -/
example : bufCalls (fullBuf readBytes15) readBytes15
      [.readU8, .seekReadEnd 0, .readU8,
       .seekReadSet 1, .readU16 .be, .seekReadSet 1, .readU16 .le, .seekReadSet 14, .readU16 .be,
       .seekReadSet 3, .readU32 .be, .seekReadSet 3, .readU32 .le, .seekReadSet 12, .readU32 .be,
       .seekReadSet 7, .readU64 .be, .seekReadSet 7, .readU64 .le, .seekReadSet 8, .readU64 .be] =
    ([(true, .u8 255), (true, .unit), (false, .u8 0),
      (true, .unit), (true, .u16 258), (true, .unit), (true, .u16 513), (true, .unit), (false, .u16 0),
      (true, .unit), (true, .u32 50595078), (true, .unit), (true, .u32 100992003), (true, .unit),
      (false, .u32 0),
      (true, .unit), (true, .u64 506664896818842894), (true, .unit), (true, .u64 1012478732780767239),
      (true, .unit), (false, .u64 0)], 8, 15) := by
  decide +kernel

/-- The array of `test_buffer_read_bip32_path`. -/
def pathBytes20 : Bytes := [0x80, 0, 0, 0x2C, 0x80, 0, 0, 1, 0x80, 0, 0, 0, 0, 0, 0, 0, 0, 0, 0, 0]

/-- `test_buffer_read_bip32_path`, test_buffer.c:265-282. -/
example : bufCalls (fullBuf pathBytes20) pathBytes20 [.readPath 5, .readPath 6] =
    ([(true, .path [0x8000002C, 0x80000001, 0x80000000, 0, 0]), (false, .path [])], 20, 20) := by
  decide +kernel

/-- `test_buffer_write`, test_buffer.c:284-332: flags of all calls. -/
example : (bufFlags (emptyBuf 8) []
      [.writeU8 0xFF, .seekWriteEnd 0, .writeU8 0xFF,
       .seekWriteSet 0, .writeU16 0x0102 .be, .seekWriteSet 0, .writeU16 0x0102 .le, .seekWriteSet 7,
       .writeU16 0x0102 .be,
       .seekWriteSet 0, .writeU32 0x03040506 .be, .seekWriteSet 0, .writeU32 0x03040506 .le, .seekWriteSet 5,
       .writeU32 0x03040506 .be,
       .seekWriteSet 0, .writeU64 0x0708090A0B0C0D0E .be, .seekWriteSet 0, .writeU64 0x0708090A0B0C0D0E .le,
       .seekWriteSet 1, .writeU64 0x0708090A0B0C0D0E .be]).1 =
    [true, true, false, true, true, true, true, true, false, true, true, true, true, true, false,
     true, true, true, true, true, false] := by
  decide +kernel

/-- `test_buffer_write`: the bytes. -/
example : bufArray (emptyBuf 8) [] [.writeU8 0xFF] 8 = [0xFF, 0, 0, 0, 0, 0, 0, 0] ∧
    bufArray (emptyBuf 8) [] [.writeU16 0x0102 .be] 2 = [1, 2] ∧
    bufArray (emptyBuf 8) [] [.writeU16 0x0102 .le] 2 = [2, 1] ∧
    bufArray (emptyBuf 8) [] [.writeU32 0x03040506 .be] 4 = [3, 4, 5, 6] ∧
    bufArray (emptyBuf 8) [] [.writeU32 0x03040506 .le] 4 = [6, 5, 4, 3] ∧
    bufArray (emptyBuf 8) [] [.writeU64 0x0708090A0B0C0D0E .be] 8 = [7, 8, 9, 10, 11, 12, 13, 14] ∧
    bufArray (emptyBuf 8) [] [.writeU64 0x0708090A0B0C0D0E .le] 8 = [14, 13, 12, 11, 10, 9, 8, 7] := by
  decide +kernel

/-- `test_buffer_read_bytes`, test_buffer.c:334-347. -/
example : bufCalls (fullBuf [1, 2, 3, 4, 5]) [1, 2, 3, 4, 5] [.readBytes 5, .readBytes 3] =
    ([(true, .bytes [1, 2, 3, 4, 5]), (false, .bytes [])], 5, 5) := by
  decide +kernel

/-- `test_buffer_copy_bytes`, test_buffer.c:349-365. -/
example : bufCalls (fullBuf [1, 2, 3, 4, 5]) [1, 2, 3, 4, 5]
      [.copyBytes 5, .seekReadSet 2, .copyBytes 3, .seekReadSet 3, .copyBytes 3] =
    ([(true, .bytes [1, 2, 3, 4, 5]), (true, .unit), (true, .bytes [3, 4, 5]), (true, .unit),
      (false, .bytes [])], 3, 5) := by
  decide +kernel

/-- `test_buffer_write_bytes`, test_buffer.c:367-388. -/
example : bufFlags (emptyBuf 5) [] [.writeBytes [1, 2]] = ([true], 0, 2) ∧
    bufFlags (emptyBuf 5) [] [.writeBytes [1, 2], .writeBytes [3, 4, 5], .writeBytes [1]] =
      ([true, true, false], 0, 5) ∧
    bufArray (emptyBuf 5) [] [.writeBytes [1, 2], .writeBytes [3, 4, 5], .writeBytes [1]] 5 =
      [1, 2, 3, 4, 5] := by
  decide +kernel

/-- `test_buffer_shift_data`, test_buffer.c:390-402. -/
example : bufFlags (fullBuf [1, 2, 3, 4, 5]) [1, 2, 3, 4, 5] [.seekReadCur 2, .shift] =
      ([true, true], 0, 3) ∧
    bufArray (fullBuf [1, 2, 3, 4, 5]) [1, 2, 3, 4, 5] [.seekReadCur 2, .shift] 3 = [3, 4, 5] := by
  decide +kernel

end Ergo.Vectors
