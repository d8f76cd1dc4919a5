import Verif.Model.Bytes
/-!
# Specification of the VLQ format (independent of the C loops)
-/
namespace Ergo.Spec

/-- Base-128 digits, least significant first, all but the last with 128 added. -/
def vlq (n : Nat) : Bytes :=
  if n < 128 then [UInt8.ofNat n] else UInt8.ofNat (n % 128 + 128) :: vlq (n / 128)
termination_by n
decreasing_by omega

/-- Number denoted by a string of base-128 groups, least significant first. -/
def groupsValue : Bytes → Nat
  | [] => 0
  | b :: bs => b.toNat % 128 + 128 * groupsValue bs

/-- The bytes up to and including the first one below 128, but at most `n` bytes; `none` if the
input ends before. -/
def scan : Nat → Bytes → Option (Bytes × Bytes)
  | 0, b => some ([], b)
  | _ + 1, [] => none
  | n + 1, x :: xs =>
    if x.toNat < 128 then some ([x], xs)
    else match scan n xs with
      | none => none
      | some (p, r) => some (x :: p, r)

end Ergo.Spec
