import Verif.Model.Bytes
import Mathlib.Algebra.Group.Defs
/-!
# Specification of the verification of an Ergo P2PK proof

Written for an arbitrary additive group with a chosen point `g` and an encoding of points.
-/
namespace Ergo.Spec

/-- Big-endian value. -/
def be : Bytes → Nat
  | [] => 0
  | b :: bs => b.toNat * 256 ^ bs.length + be bs

/-- Group order of secp256k1. -/
def groupOrder : Nat := 2 ^ 256 - 432420386565659656852420866394968145599

/-- The 56-byte string `sig = c ‖ z` (24 + 32 bytes) is a valid proof for the point `P` and the
message: the first 24 bytes of the hash of the transcript with the commitment `z·g − c·P` are `c`.
`ser` is the 33-byte point serialization. -/
def ValidSig {G : Type} [AddCommGroup G] (g : G) (ser : G → Bytes) (hash : Bytes → Bytes) (P : G)
    (msg sig : Bytes) : Prop :=
  ∃ c z : Bytes, c.length = 24 ∧ z.length = 32 ∧ sig = c ++ z ∧ be z < groupOrder ∧
    (hash ([0x01, 0x00, 0x27, 0x10, 0x01, 0x08, 0xcd] ++ ser P ++ [0x73, 0x00, 0x00, 0x21] ++
      ser (be z • g - be c • P) ++ msg)).take 24 = c

end Ergo.Spec
