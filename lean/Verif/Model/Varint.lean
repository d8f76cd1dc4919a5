import Verif.Model.RwBuffer
/-!
# Variable length integers of the SDK

unit-tests/utils/varint.c and `buffer_read_varint` of unit-tests/utils/buffer.c.  The application itself
does not use them (its own variable length integers are those of src/common/gve.c).
-/
namespace Ergo

/-- `varint_size`, varint.c:25-40. -/
def varintSize (v : UInt64) : UInt8 :=
  if v ≤ 0xFC then 1 else if v ≤ 0xFFFF then 3 else if v ≤ 0xFFFFFFFF then 5 else 9

/-- `varint_read`, varint.c:42-80, on the `inLen` bytes at address `p`: the value and the result of the
function; `none` is the result -1, which leaves `*value` as it was. -/
def varintRead (p : Nat) (inLen : UInt32) (m : Mem) : Option (UInt64 × UInt32) × Mem :=
  if inLen < 1 then (none, m)
  else
    let q := fun k : Nat => m.byte (p + k)
    let m := m.touch [p]
    if q 0 = 0xFD then
      if inLen < 3 then (none, m)
      else (some ((readU16le (q 1) (q 2)).toUInt64, 3), m.touch (indexed p 1 2))
    else if q 0 = 0xFE then
      if inLen < 5 then (none, m)
      else (some ((readU32le (q 1) (q 2) (q 3) (q 4)).toUInt64, 5), m.touch (indexed p 1 4))
    else if q 0 = 0xFF then
      if inLen < 9 then (none, m)
      else (some (readU64le (q 1) (q 2) (q 3) (q 4) (q 5) (q 6) (q 7) (q 8), 9), m.touch (indexed p 1 8))
    else (some ((q 0).toUInt64, 1), m)

/-- `varint_write`, varint.c:82-108: stores and result (`none`: -1). -/
def varintWrite (out : Nat) (offset : UInt32) (v : UInt64) (m : Mem) : Option UInt8 × Mem :=
  let len := varintSize v
  if len = 1 then (some len, m.stores (indexed out offset 1) [v.toUInt8])
  else if len = 3 then
    (some len, (m.stores (indexed out offset 1) [0xFD]).stores (indexed out (offset + 1) 2)
      (writeU16le v.toUInt16))
  else if len = 5 then
    (some len, (m.stores (indexed out offset 1) [0xFE]).stores (indexed out (offset + 1) 4)
      (writeU32le v.toUInt32))
  else if len = 9 then
    (some len, (m.stores (indexed out offset 1) [0xFF]).stores (indexed out (offset + 1) 8)
      (writeU64le v))
  else (none, m)

/-- `buffer_read_varint`, buffer.c:128-139. -/
def Buffer.readVarint (b : Buffer) (m : Mem) : Bool × UInt64 × Buffer × Mem :=
  match varintRead (b.ptr + b.offset.toNat) (b.size - b.offset) m with
  | (none, m) => (false, 0, b, m)
  | (some (v, n), m) => let s := b.seekCur n; (s.1, v, s.2, m)

end Ergo
