import Verif.Model.Bytes
/-!
# Base58 encoder, unit-tests/utils/base58.c (SDK function used by the application)

The digit buffer is kept least significant digit first: list position `p` is C index
`j = output_size - 1 - p`.  `stop_at` is an integer; the C value after running through the whole
buffer is `SIZE_MAX`, modelled by `-1`.
-/
namespace Ergo

/-- `MAX_ENC_INPUT_SIZE`, unit-tests/utils/base58.h:14. -/
def maxEncInput : Nat := 120

/-- `BASE58_ALPHABET`, base58.c:39-44. -/
def base58Alphabet : List Char :=
  ['1', '2', '3', '4', '5', '6', '7', '8', '9', 'A', 'B', 'C', 'D', 'E', 'F',
   'G', 'H', 'J', 'K', 'L', 'M', 'N', 'P', 'Q', 'R', 'S', 'T', 'U', 'V', 'W',
   'X', 'Y', 'Z', 'a', 'b', 'c', 'd', 'e', 'f', 'g', 'h', 'i', 'j', 'k', 'm',
   'n', 'o', 'p', 'q', 'r', 's', 't', 'u', 'v', 'w', 'x', 'y', 'z']

/-- The test `j <= stop_at - 1` in `size_t` arithmetic, base58.c:134. -/
def b58StopTest (j : Nat) (stopAt : Int) : Bool := stopAt ≤ 0 || (j : Int) ≤ stopAt - 1

/-- Inner loop, base58.c:129-138, on the digits from `j` downwards: new digits and final `j`
(`-1` if the loop ran out of digits). -/
def b58Inner (stopAt : Int) : Nat → List Nat → Nat → List Nat × Int
  | _, [], _ => ([], -1)
  | j, d :: ds, carry =>
    let c := carry + 256 * d
    if b58StopTest j stopAt && c / 58 == 0 then (c % 58 :: ds, j)
    else
      let r := b58Inner stopAt (j - 1) ds (c / 58)
      (c % 58 :: r.1, r.2)

/-- Outer loop, base58.c:127-139. -/
def b58Outer (outSize : Nat) : Bytes → List Nat → Int → List Nat
  | [], buf, _ => buf
  | b :: bs, buf, stopAt =>
    let r := b58Inner stopAt (outSize - 1) buf b.toNat
    b58Outer outSize bs r.1 r.2

/-- `base58_encode`, base58.c:109-157: the text written, or `none` for the result -1. -/
def base58Encode (input : Bytes) (outLen : Nat) : Option (List Char) :=
  if input.length > maxEncInput then none
  else
    let zeroCount := (input.takeWhile (· == 0)).length
    let outSize := (input.length - zeroCount) * 138 / 100 + 1
    let buf := b58Outer outSize (input.drop zeroCount) (List.replicate outSize 0) (outSize - 1)
    let digits := buf.reverse.dropWhile (· == 0)
    if outLen < zeroCount + digits.length then none
    else some (List.replicate zeroCount '1' ++ digits.map (fun d => base58Alphabet.getD d '?'))

end Ergo
