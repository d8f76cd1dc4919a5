import Verif.Model.Schnorr
/-!
# The curve secp256k1 in affine coordinates

The operating system computes on the curve (`cx_ecfp_scalar_mult`, `cx_ecfp_generate_pair`); its sources
are not in /repo.  These are the textbook formulas on numbers, an instance of the fields `mulG` and
`pubOf` of `Env`.  The curve is named in src/ergo/schnorr.c:46-52,68-74 and src/helpers/crypto.c:67-79
(`CX_CURVE_SECP256K1`), its base point in src/ergo/schnorr.c:12-17.
-/
namespace Ergo

/-- `a ^ e` modulo `m` by squaring, for `e < 2 ^ fuel`. -/
def powMod (m a : Nat) : Nat → Nat → Nat
  | 0, _ => 1 % m
  | fuel + 1, e =>
    let h := powMod m a fuel (e / 2)
    if e % 2 = 1 then h * h % m * a % m else h * h % m

/-- The prime of the coordinates. -/
def secpP : Nat := 2 ^ 256 - 2 ^ 32 - 977

/-- Inverse modulo the prime (Fermat). -/
def secpInv (x : Nat) : Nat := powMod secpP x 256 (secpP - 2)

/-- Sum of two points of `y² = x³ + 7`; `none` is the point at infinity. -/
def curveAdd : Option (Nat × Nat) → Option (Nat × Nat) → Option (Nat × Nat)
  | none, q => q
  | p, none => p
  | some (x₁, y₁), some (x₂, y₂) =>
    if x₁ = x₂ ∧ (y₁ + y₂) % secpP = 0 then none
    else
      let l :=
        if x₁ = x₂ then 3 * x₁ * x₁ * secpInv (2 * y₁ % secpP) % secpP
        else (y₁ + (secpP - y₂)) * secpInv ((x₁ + (secpP - x₂)) % secpP) % secpP
      let x := (l * l + (secpP - x₁) + (secpP - x₂)) % secpP
      some (x, (l * (x₁ + (secpP - x)) + (secpP - y₁)) % secpP)

/-- Multiple of a point by doubling and adding, for `k < 2 ^ fuel`. -/
def curveMul (p : Option (Nat × Nat)) : Nat → Nat → Option (Nat × Nat)
  | 0, _ => none
  | fuel + 1, k =>
    let h := curveMul p fuel (k / 2)
    if k % 2 = 1 then curveAdd (curveAdd h h) p else curveAdd h h

/-- `SECP256K1_G`, schnorr.c:12-17. -/
def secpGxy : Nat × Nat :=
  (0x79be667ef9dcbbac55a06295ce870b07029bfcdb2dce28d959f2815b16f81798,
   0x483ada7726a3c4655da4fbfc0e1108a8fd17b448a68554199c47d08ffb10d4b8)

/-- The 65 bytes of a point. -/
def pointBytes (p : Nat × Nat) : Bytes := 4 :: (beBytes 32 p.1 ++ beBytes 32 p.2)

/-- Multiple of the base point; no bytes for the point at infinity. -/
def secpMul (k : Bytes) : Option Bytes :=
  (curveMul (some secpGxy) (8 * k.length) (beNat k)).map pointBytes

end Ergo
