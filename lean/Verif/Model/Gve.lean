import Verif.Model.Bytes
/-!
# Zigzag and VLQ ("GVE") encodings, src/common/zigzag.h, src/common/gve.h, src/common/gve.c
-/
namespace Ergo

/-- `zigzag_encode_i32`, zigzag.h:12-14: the `int` result is sign-extended by the cast. -/
def zigzagEncodeI32 (v : Int32) : UInt64 := ((v <<< 1) ^^^ (v >>> 31)).toInt64.toUInt64

/-- `zigzag_decode_i32`, zigzag.h:16-18. -/
def zigzagDecodeI32 (v : UInt64) : Int32 :=
  (v.toUInt32 >>> 1).toInt32 ^^^ -(v.toUInt32.toInt32 &&& 1)

/-- `zigzag_encode_i64`, zigzag.h:20-22. -/
def zigzagEncodeI64 (v : Int64) : UInt64 := ((v <<< 1) ^^^ (v >>> 63)).toUInt64

/-- `zigzag_decode_i64`, zigzag.h:24-26. -/
def zigzagDecodeI64 (v : UInt64) : Int64 :=
  ((v >>> 1) ^^^ (-(v &&& 1).toInt64).toUInt64).toInt64

/-- `gve_result_e`, gve.h:15. -/
inductive GveErr where
  | intTooBig
  | dataSize
  deriving DecidableEq, Repr

/-- Loop of `gve_get_u64`, gve.c:64-72; `fuel` counts the iterations left before
`shift < 64` fails (`shift = 7 * (10 - fuel)`). -/
def gveGetLoop : Nat → UInt64 → UInt64 → Bytes → Except GveErr (UInt64 × Bytes)
  | 0, _, val, b => .ok (val, b)
  | fuel + 1, shift, val, b =>
    match b with
    | [] => .error .dataSize
    | byte :: rest =>
      let val' := val ||| ((byte &&& 0x7F).toUInt64 <<< shift)
      if byte &&& 0x80 = 0 then .ok (val', rest)
      else gveGetLoop fuel (shift + 7) val' rest

/-- `gve_get_u64`, gve.c:59-74.  Ten iterations: `shift = 0, 7, …, 63`. -/
def gveGetU64 (b : Bytes) : Except GveErr (UInt64 × Bytes) := gveGetLoop 10 0 0 b

/-- `gve_get_i64`, gve.c:50-57. -/
def gveGetI64 (b : Bytes) : Except GveErr (Int64 × Bytes) :=
  match gveGetU64 b with
  | .error e => .error e
  | .ok (v, r) => .ok (zigzagDecodeI64 v, r)

/-- `gve_get_u32`, gve.c:40-48. -/
def gveGetU32 (b : Bytes) : Except GveErr (UInt32 × Bytes) :=
  match gveGetU64 b with
  | .error e => .error e
  | .ok (v, r) => if v > 0xFFFFFFFF then .error .intTooBig else .ok (v.toUInt32, r)

/-- `gve_get_i32`, gve.c:30-38. -/
def gveGetI32 (b : Bytes) : Except GveErr (Int32 × Bytes) :=
  match gveGetU64 b with
  | .error e => .error e
  | .ok (v, r) => if v > 0xFFFFFFFF then .error .intTooBig else .ok (zigzagDecodeI32 v, r)

/-- `gve_get_u16`, gve.c:20-28. -/
def gveGetU16 (b : Bytes) : Except GveErr (UInt16 × Bytes) :=
  match gveGetU64 b with
  | .error e => .error e
  | .ok (v, r) => if v > 0xFFFF then .error .intTooBig else .ok (v.toUInt16, r)

/-- `gve_get_i16`, gve.c:10-18. -/
def gveGetI16 (b : Bytes) : Except GveErr (Int16 × Bytes) :=
  match gveGetI32 b with
  | .error e => .error e
  | .ok (v, r) => if v > 32767 ∨ v < -32768 then .error .intTooBig else .ok (v.toInt16, r)

/-- Loop of `gve_put_u64`, gve.c:79-84.  `fuel` is the space left in `out[10]`; `none` would be a
write behind the array (shown impossible). -/
def gvePutLoop : Nat → UInt64 → Option Bytes
  | 0, _ => none
  | fuel + 1, val =>
    let byte := (val &&& 0x7F).toUInt8
    let val' := val >>> 7
    if val' = 0 then some [byte]
    else
      match gvePutLoop fuel val' with
      | none => none
      | some bs => some ((byte ||| 0x80) :: bs)

/-- `gve_put_u64`, gve.c:76-86: the bytes handed to `rw_buffer_write_bytes`. -/
def gvePutU64 (v : UInt64) : Bytes := (gvePutLoop 10 v).getD []

/-- `gve_put_u32`, gve.h:38-40. -/
def gvePutU32 (v : UInt32) : Bytes := gvePutU64 v.toUInt64
/-- `gve_put_u16`, gve.h:58-60. -/
def gvePutU16 (v : UInt16) : Bytes := gvePutU64 v.toUInt64
/-- `gve_put_i64`, gve.h:34-36. -/
def gvePutI64 (v : Int64) : Bytes := gvePutU64 (zigzagEncodeI64 v)
/-- `gve_put_i32`, gve.h:42-44. -/
def gvePutI32 (v : Int32) : Bytes := gvePutU64 (zigzagEncodeI32 v)
/-- `gve_put_i16`, gve.h:54-56. -/
def gvePutI16 (v : Int16) : Bytes := gvePutU32 (zigzagEncodeI32 v.toInt32).toUInt32
/-- `gve_put_u8`, gve.h:46-48: the byte itself. -/
def gvePutU8 (v : UInt8) : Bytes := [v]

end Ergo
