import Verif.Model.Bytes
import Mathlib.Data.Nat.Digits.Defs
/-!
# Specification of base58 text
-/
namespace Ergo.Spec

/-- Big-endian value of a byte string. -/
def value256 : Bytes → Nat
  | [] => 0
  | b :: bs => b.toNat * 256 ^ bs.length + value256 bs

/-- The base58 alphabet: digits and letters without `0`, `O`, `I`, `l`. -/
def alphabet58 : String := "123456789ABCDEFGHJKLMNPQRSTUVWXYZabcdefghijkmnopqrstuvwxyz"

/-- Number of leading zero bytes. -/
def leadingZeros : Bytes → Nat
  | [] => 0
  | b :: bs => if b = 0 then leadingZeros bs + 1 else 0

/-- Base58 text: one `1` per leading zero byte, then the base-58 digits of the value, most
significant first. -/
def base58 (b : Bytes) : List Char :=
  List.replicate (leadingZeros b) '1' ++
    (Nat.digits 58 (value256 b)).reverse.map (fun d => alphabet58.toList.getD d '?')

end Ergo.Spec
