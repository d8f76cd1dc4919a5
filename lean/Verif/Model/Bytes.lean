/-!
# Bytes and the list view of command data

`buffer_t` (ptr, size, offset) used for reading command data is modelled as the list of its unread
bytes.  `Verif/Model/RwBuffer.lean` models the pointer/size/offset structure itself and
`Verif/Proof/RwBuffer.lean` shows that its operations agree with this view.
-/
namespace Ergo

abbrev Bytes := List UInt8

/-- `read_u16_be`, unit-tests/utils/read.c:22-26. -/
def readU16be (b0 b1 : UInt8) : UInt16 :=
  b0.toUInt16 <<< 8 ||| b1.toUInt16

/-- `read_u32_be`, unit-tests/utils/read.c:28-34. -/
def readU32be (b0 b1 b2 b3 : UInt8) : UInt32 :=
  b0.toUInt32 <<< 24 ||| b1.toUInt32 <<< 16 ||| b2.toUInt32 <<< 8 ||| b3.toUInt32

/-- `read_u64_be`, unit-tests/utils/read.c:36-46. -/
def readU64be (b0 b1 b2 b3 b4 b5 b6 b7 : UInt8) : UInt64 :=
  b0.toUInt64 <<< 56 ||| b1.toUInt64 <<< 48 ||| b2.toUInt64 <<< 40 ||| b3.toUInt64 <<< 32 |||
  b4.toUInt64 <<< 24 ||| b5.toUInt64 <<< 16 ||| b6.toUInt64 <<< 8 ||| b7.toUInt64

/-- `write_u16_be`, unit-tests/utils/write.c:22-26. -/
def writeU16be (v : UInt16) : Bytes := [(v >>> 8).toUInt8, v.toUInt8]

/-- `write_u32_be`, unit-tests/utils/write.c:28-34. -/
def writeU32be (v : UInt32) : Bytes :=
  [(v >>> 24).toUInt8, (v >>> 16).toUInt8, (v >>> 8).toUInt8, v.toUInt8]

/-- `write_u64_be`, unit-tests/utils/write.c:36-46. -/
def writeU64be (v : UInt64) : Bytes :=
  [(v >>> 56).toUInt8, (v >>> 48).toUInt8, (v >>> 40).toUInt8, (v >>> 32).toUInt8,
   (v >>> 24).toUInt8, (v >>> 16).toUInt8, (v >>> 8).toUInt8, v.toUInt8]

/-- `buffer_read_u8`, unit-tests/utils/buffer.c:66-78. -/
def bufU8 : Bytes → Option (UInt8 × Bytes)
  | b :: r => some (b, r)
  | [] => none

/-- `buffer_read_u16(_, _, BE)`, unit-tests/utils/buffer.c:80-94. -/
def bufU16 : Bytes → Option (UInt16 × Bytes)
  | b0 :: b1 :: r => some (readU16be b0 b1, r)
  | _ => none

/-- `buffer_read_u32(_, _, BE)`, unit-tests/utils/buffer.c:96-110. -/
def bufU32 : Bytes → Option (UInt32 × Bytes)
  | b0 :: b1 :: b2 :: b3 :: r => some (readU32be b0 b1 b2 b3, r)
  | _ => none

/-- `buffer_read_u64(_, _, BE)`, unit-tests/utils/buffer.c:112-126. -/
def bufU64 : Bytes → Option (UInt64 × Bytes)
  | b0 :: b1 :: b2 :: b3 :: b4 :: b5 :: b6 :: b7 :: r =>
      some (readU64be b0 b1 b2 b3 b4 b5 b6 b7, r)
  | _ => none

/-- `buffer_read_bytes`, src/common/buffer_ext.c:14-19. -/
def bufBytes (n : Nat) (b : Bytes) : Option (Bytes × Bytes) :=
  if b.length < n then none else some (b.take n, b.drop n)

end Ergo
