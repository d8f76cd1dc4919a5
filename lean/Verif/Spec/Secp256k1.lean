import Verif.Spec.Schnorr
import Mathlib.AlgebraicGeometry.EllipticCurve.Affine.Point
import Mathlib.Algebra.Field.ZMod
/-!
# The curve secp256k1 as a group

The curve `y² = x³ + 7` over the integers modulo `2^256 - 2^32 - 977` (SEC 2), with the group of its points
taken from Mathlib.
-/
namespace Ergo.Spec

/-- The prime of the coordinates. -/
def fieldPrime : Nat := 2 ^ 256 - 2 ^ 32 - 977

/-- `y² = x³ + 7`. -/
abbrev secpCurve : WeierstrassCurve (ZMod fieldPrime) := ⟨0, 0, 0, 0, 7⟩

/-- Its points. -/
abbrev SecpPoint : Type := secpCurve.toAffine.Point

/-- Number as 32 bytes, big-endian. -/
def bytes32 (v : Nat) : Bytes := (List.range 32).map fun i => UInt8.ofNat (v / 256 ^ (31 - i))

/-- Uncompressed form (SEC 1): 4 and both coordinates. -/
def uncompressed (x y : ZMod fieldPrime) : Bytes := 4 :: (bytes32 x.val ++ bytes32 y.val)

/-- The 33 bytes by which Ergo writes a point: 2 or 3 by the parity of the second coordinate, then the
first coordinate; zeros for the point at infinity. -/
def serPoint : SecpPoint → Bytes
  | .zero => List.replicate 33 0
  | .some x y _ => (if y.val % 2 = 1 then 3 else 2) :: bytes32 x.val

/-- The base point of SEC 2. -/
def IsBase (P : SecpPoint) : Prop :=
  ∃ h, P = .some 0x79be667ef9dcbbac55a06295ce870b07029bfcdb2dce28d959f2815b16f81798
    0x483ada7726a3c4655da4fbfc0e1108a8fd17b448a68554199c47d08ffb10d4b8 h

end Ergo.Spec
