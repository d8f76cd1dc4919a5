import Verif.Model.Base58
/-!
# Base58 decoder, unit-tests/utils/base58.c:46-107

The function of the SDK that reads base58 text back, as it comes with the unit tests of the app.  Characters
are given by their code; a `char` is compared as `size_t`, so that codes from 128 on are refused whether
`char` is signed or not.  Digits are kept as numbers; the casts to 8 and 16 bits are written out.
-/
namespace Ergo

/-- `BASE58_TABLE`, base58.c:24-36. -/
def base58Table : List Nat :=
  [0xFF, 0xFF, 0xFF, 0xFF, 0xFF, 0xFF, 0xFF, 0xFF, 0xFF, 0xFF, 0xFF, 0xFF,
   0xFF, 0xFF, 0xFF, 0xFF, 0xFF, 0xFF, 0xFF, 0xFF, 0xFF, 0xFF, 0xFF, 0xFF,
   0xFF, 0xFF, 0xFF, 0xFF, 0xFF, 0xFF, 0xFF, 0xFF, 0xFF, 0xFF, 0xFF, 0xFF,
   0xFF, 0xFF, 0xFF, 0xFF, 0xFF, 0xFF, 0xFF, 0xFF, 0xFF, 0xFF, 0xFF, 0xFF,
   0xFF, 0x00, 0x01, 0x02, 0x03, 0x04, 0x05, 0x06, 0x07, 0x08, 0xFF, 0xFF,
   0xFF, 0xFF, 0xFF, 0xFF, 0xFF, 0x09, 0x0A, 0x0B, 0x0C, 0x0D, 0x0E, 0x0F,
   0x10, 0xFF, 0x11, 0x12, 0x13, 0x14, 0x15, 0xFF, 0x16, 0x17, 0x18, 0x19,
   0x1A, 0x1B, 0x1C, 0x1D, 0x1E, 0x1F, 0x20, 0xFF, 0xFF, 0xFF, 0xFF, 0xFF,
   0xFF, 0x21, 0x22, 0x23, 0x24, 0x25, 0x26, 0x27, 0x28, 0x29, 0x2A, 0x2B,
   0xFF, 0x2C, 0x2D, 0x2E, 0x2F, 0x30, 0x31, 0x32, 0x33, 0x34, 0x35, 0x36,
   0x37, 0x38, 0x39, 0xFF, 0xFF, 0xFF, 0xFF, 0xFF]

/-- `MAX_DEC_INPUT_SIZE`, unit-tests/utils/base58.h:10. -/
def maxDecInput : Nat := 164

/-- The first loop, base58.c:60-70: the digits, `none` for a character that is none. -/
def b58Digits : List Char → Option (List Nat)
  | [] => some []
  | c :: cs =>
    if c.toNat ≥ base58Table.length then none
    else if base58Table.getD c.toNat 0xFF = 0xFF then none
    else
      match b58Digits cs with
      | none => none
      | some ds => some (base58Table.getD c.toNat 0xFF :: ds)

/-- The division loop, base58.c:80-85, on the digits from `start_at` on: quotient digits, remainder. -/
def b58Div : Nat → List Nat → List Nat × Nat
  | r, [] => ([], r)
  | r, d :: ds =>
    let t := (r * 58 + d % 256) % 65536
    let q := b58Div (t % 256) ds
    (t / 256 % 256 :: q.1, q.2)

/-- The outer loop, base58.c:76-92.  `tmp` are the digits from `start_at` on, `buf` the bytes of `buffer`
from `j` on.  `none`: the loop would write before the start of `buffer`. -/
def b58Bytes : Nat → List Nat → Bytes → Option (Nat × Bytes)
  | j, [], buf => some (j, buf)
  | 0, _ :: _, _ => none
  | j + 1, d :: ds, buf =>
    let q := b58Div 0 (d :: ds)
    b58Bytes j (if q.1.headD 0 = 0 then q.1.tail else q.1) (UInt8.ofNat q.2 :: buf)
  termination_by j _ _ => j

/-- Result of the decoder: the bytes written, -1, or undefined. -/
inductive DecRes where
  | ok (b : Bytes)
  | fail
  | ub
  deriving DecidableEq, Repr

/-- `base58_decode`, base58.c:46-107. -/
def base58Decode (input : List Char) (outLen : Nat) : DecRes :=
  if input.length > maxDecInput ∨ input.length < 2 then .fail
  else
    match b58Digits input with
    | none => .fail
    | some tmp =>
      let zeroCount := (tmp.takeWhile (· == 0)).length
      match b58Bytes input.length (tmp.drop zeroCount) [] with
      | none => .ub
      | some (j, buf) =>
        let j' := j + (buf.takeWhile (· == 0)).length
        if j' < zeroCount then .ub
        else if outLen < input.length - (j' - zeroCount) then .fail
        else .ok ((List.replicate j 0 ++ buf).drop (j' - zeroCount))

end Ergo
