import Verif.Model.Env
/-!
# Schnorr signing, src/ergo/schnorr.c

`cx_math_multm`/`cx_math_addm` are taken as multiplication/addition modulo `n` of big-endian
numbers; random draws of `cx_rng` are given by a function of the iteration index.
-/
namespace Ergo

/-- Big-endian value of a byte string. -/
def beNat (b : Bytes) : Nat := b.foldl (fun a x => a * 256 + x.toNat) 0

/-- Big-endian bytes of a number, `len` bytes (reduced modulo `256^len`). -/
def beBytes : Nat → Nat → Bytes
  | 0, _ => []
  | len + 1, v => UInt8.ofNat (v / 256 ^ len) :: beBytes len v

/-- `SECP256K1_N`, schnorr.c:20-22. -/
def secpN : Nat := 0xfffffffffffffffffffffffffffffffebaaedce6af48a03bbfd25e8cd0364141

/-- `P2PK_PREFIX`, schnorr.c:24. -/
def schnorrPrefix : Bytes := [0x01, 0x00, 0x27, 0x10, 0x01, 0x08, 0xcd]
/-- `P2PK_SUFFIX`, schnorr.c:26. -/
def schnorrSuffix : Bytes := [0x73, 0x00, 0x00, 0x21]

/-- Scalar check of schnorr.c:42-45 and 64-67: not zero and not greater than `n`. -/
def scalarOk (k : Bytes) : Bool := beNat k ≠ 0 && !(beNat k > secpN)

/-- One pass of the loop body, schnorr.c:34-81: transcript and ephemeral key. -/
def schnorrTry (env : Env) (secret draw : Bytes) : Option (Bytes × Bytes) :=
  if ¬ scalarOk secret then none
  else
    match env.mulG secret with
    | none => none
    | some pk =>
      if ¬ scalarOk draw then none
      else
        match env.mulG draw with
        | none => none
        | some w =>
          some (schnorrPrefix ++ compress pk ++ schnorrSuffix ++ compress w, draw)

/-- Loop of `ergo_secp256k1_schnorr_p2pk_sign_init`, schnorr.c:32-86. -/
def schnorrInitLoop (env : Env) (secret : Bytes) (draws : Nat → Bytes) : Nat → Nat →
    Option (Bytes × Bytes)
  | 0, _ => none
  | fuel + 1, i =>
    match schnorrTry env secret (draws i) with
    | some r => some r
    | none => schnorrInitLoop env secret draws fuel (i + 1)

/-- `ergo_secp256k1_schnorr_p2pk_sign_init`, schnorr.c:28-88: hash transcript and key. -/
def schnorrInit (env : Env) (secret : Bytes) (draws : Nat → Bytes) : Option (Bytes × Bytes) :=
  schnorrInitLoop env secret draws 100 0

/-- `ergo_secp256k1_schnorr_p2pk_sign_finish`, schnorr.c:90-118: `c` is the first 24 bytes of the
hash, `z = c·secret + key mod n`. -/
def schnorrFinish (env : Env) (transcript secret key : Bytes) : Option Bytes :=
  let c := (env.blake transcript).take 24
  if beNat c = 0 then none
  else
    let prod := beNat c * beNat secret % secpN
    some (c ++ beBytes 32 ((beNat key + prod) % secpN))

end Ergo
