import Verif.Spec.Buffer
/-!
# Variable length integers of Bitcoin

Numbers up to 252 are one byte; larger ones are 253, 254 or 255, followed by 2, 4 or 8 bytes, lowest byte
first.
-/
namespace Ergo.Spec

/-- The shortest representation of a number below 2^64. -/
def varintBytes (v : Nat) : Bytes :=
  if v ≤ 252 then [UInt8.ofNat v]
  else if v < 2 ^ 16 then 253 :: intBytes .le 2 v
  else if v < 2 ^ 32 then 254 :: intBytes .le 4 v
  else 255 :: intBytes .le 8 v

/-- Number of bytes that follow a first byte. -/
def varintMore (b : UInt8) : Nat := if b = 253 then 2 else if b = 254 then 4 else if b = 255 then 8 else 0

/-- The number at the beginning, and what follows it. -/
def varintOf : Bytes → Option (Nat × Bytes)
  | [] => none
  | b :: bs =>
    if bs.length < varintMore b then none
    else some (if varintMore b = 0 then b.toNat else intValue .le (bs.take (varintMore b)),
      bs.drop (varintMore b))

/-- The bytes of a buffer that were not yet read. -/
def unread (m : Mem) (b : Buffer) : Bytes :=
  (List.range (b.size.toNat - b.offset.toNat)).map (fun k => m.byte (b.ptr + b.offset.toNat + k))

end Ergo.Spec
