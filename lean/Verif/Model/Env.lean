import Verif.Model.Bytes
/-!
# External functions (Ledger OS / SDK)

Hash, HMAC, BIP-32 derivation and curve operations are parameters of the model.
-/
namespace Ergo

/-- Cryptographic services the application calls.  Nothing is assumed about them in general. -/
structure Env where
  /-- Blake2b-256 of a byte string (`blake2b_256`, helpers/blake2b.c:20-22; also
  init/update/finalize, helpers/blake2b.c:3-18, on the concatenation of the updates). -/
  blake : Bytes → Bytes
  /-- HMAC-SHA256 `key data` (`cx_hmac_sha256`). -/
  hmac : Bytes → Bytes → Bytes
  /-- `crypto_derive_private_key`, helpers/crypto.c:24-47: private key and chain code. -/
  derive : List UInt32 → Option (Bytes × Bytes)
  /-- `cx_ecfp_generate_pair` on a private key, helpers/crypto.c:67-79: the 65-byte point. -/
  pubOf : Bytes → Option Bytes
  /-- `cx_ecfp_scalar_mult` of the generator with a scalar, ergo/schnorr.c:48-50,70-72:
  the 65-byte point. -/
  mulG : Bytes → Option Bytes
  /-- APPNAME and version bytes (Makefile constants). -/
  appName : Bytes
  appVersion : Bytes

/-- Output lengths of the external functions, and: the OS key generation and the scalar
multiplication agree on points (not needed by most theorems). -/
structure Env.WF (env : Env) : Prop where
  blake_len : ∀ b, (env.blake b).length = 32
  hmac_len : ∀ k b, (env.hmac k b).length = 32
  derive_len : ∀ p k c, env.derive p = some (k, c) → k.length = 32 ∧ c.length = 32
  pub_len : ∀ k p, env.pubOf k = some p → p.length = 65
  mul_len : ∀ k p, env.mulG k = some p → p.length = 65

/-- `crypto_generate_public_key`, helpers/crypto.c:81-106: public key (65 bytes) and chain code. -/
def Env.genPublic (env : Env) (path : List UInt32) : Option (Bytes × Bytes) :=
  match env.derive path with
  | none => none
  | some (k, c) =>
    match env.pubOf k with
    | none => none
    | some p => some (p, c)

/-- `crypto_generate_private_key`, helpers/crypto.c:49-65. -/
def Env.genPrivate (env : Env) (path : List UInt32) : Option Bytes :=
  (env.derive path).map (·.1)

/-- Compressed form of a 65-byte point: parity byte and the first coordinate
(address.c:35-42, ergo_tree.c:44-45, schnorr.c:53,75). -/
def compress (p : Bytes) : Bytes :=
  (if p.getD 64 0 &&& 1 = 1 then 0x03 else 0x02) :: (p.drop 1).take 32

end Ergo
