import Verif.Model.P2pk
/-!
# The cryptographic functions with their memory, src/helpers/crypto.c, src/ergo/schnorr.c,
src/commands/signtx/operations/stx_op_p2pk.c

The rest of the model calls the functions of `Env`.  Here the same C functions are written statement
by statement on the arrays they use, with every call into the SDK: a call may fail at any time and
may leave anything in the array it was to fill.

Simplified: of `cx_ecfp_256_private_key_t` and `cx_ecfp_256_public_key_t` only the arrays `d` and `W`
are kept; the hash context is the list of bytes given to it, and a failed hash call leaves it as it is;
`cx_math_is_zero` and the result of `cx_math_cmp` are exact.
-/
namespace Ergo

/-- The arrays: locals of the functions, and the fields of the context they write to. -/
inductive WArr where
  /-- `raw_private_key`, crypto.c:28 (64 bytes) -/
  | raw
  /-- `ecfp_private_key.d`, crypto.c:53 -/
  | ecfp
  /-- `chain_code`, crypto.c:52 -/
  | chain
  /-- `private_key.d`, crypto.c:90 -/
  | priv
  /-- `public_key.W`, crypto.c:91 (65 bytes) -/
  | pub
  /-- `temp_chain_code`, crypto.c:86 -/
  | tempChain
  /-- the caller's `raw_public_key`, crypto.c:83 (65 bytes) -/
  | rawPub
  /-- the caller's `chain_code`, crypto.c:84 -/
  | chainOut
  /-- `secret`, stx_op_p2pk.c:80 and 385 -/
  | secret
  /-- `ctx->schnorr_key`, stx_op_p2pk.h -/
  | nonce
  /-- `buf`, schnorr.c:31 and 94 (65 bytes) -/
  | buf
  /-- `signature`, stx_op_p2pk.c:386 (56 bytes) -/
  | sig
  deriving DecidableEq, Repr

/-- Calls into the SDK that can fail. -/
inductive SdkCall where
  | derive | initKey | genPair | hash | cmp | mult | multm | addm
  deriving DecidableEq, Repr

/-- The SDK.  The first argument is the number of calls made before: the same call may succeed once
and fail another time.  Codes are `cx_err_t`, 0 is `CX_OK`; bytes are what the call leaves in its
output array, also if it fails. -/
structure Sdk where
  /-- `os_derive_bip32_no_throw`: code, private key (64 bytes), chain code. -/
  derive : Nat → List UInt32 → UInt32 × Bytes × Bytes
  /-- `cx_ecfp_init_private_key_no_throw`. -/
  initKey : Nat → Bytes → UInt32 × Bytes
  /-- `cx_ecfp_generate_pair_no_throw` (keeping the private key). -/
  genPair : Nat → Bytes → UInt32 × Bytes
  /-- Do `cx_blake2b_init_no_throw` and `cx_hash_no_throw` succeed? -/
  hashOk : Nat → Bool
  /-- Blake2b-256. -/
  digest : Bytes → Bytes
  /-- Code of `cx_math_cmp_no_throw`. -/
  cmp : Nat → UInt32
  /-- `cx_ecfp_scalar_mult_no_throw`: point, scalar. -/
  mult : Nat → Bytes → Bytes → UInt32 × Bytes
  /-- `cx_rng_no_throw`, by the number of draws made before. -/
  rng : Nat → Bytes
  /-- `cx_math_multm_no_throw` modulo the group order. -/
  multm : Nat → Bytes → Bytes → UInt32 × Bytes
  /-- `cx_math_addm_no_throw` modulo the group order. -/
  addm : Nat → Bytes → Bytes → UInt32 × Bytes

/-- Arrays, hash context, number of draws, and the calls so far with their outcome (newest first). -/
structure Work where
  arr : WArr → Bytes
  hash : Bytes
  draws : Nat
  calls : List (SdkCall × Bool)

/-- `n` zero bytes. -/
def zeros (n : Nat) : Bytes := List.replicate n 0

/-- What `n` bytes of an output array hold. -/
def fit (n : Nat) (b : Bytes) : Bytes := (b ++ zeros n).take n

namespace Work

/-- Write at an offset. -/
def put (s : Work) (a : WArr) (off : Nat) (b : Bytes) : Work :=
  { s with arr := fun x => if x = a then (s.arr a).take off ++ b ++ (s.arr a).drop (off + b.length) else s.arr x }

/-- `explicit_bzero` of the whole array, or its initialization with `{0}`. -/
def wipe (s : Work) (a : WArr) (n : Nat) : Work :=
  { s with arr := fun x => if x = a then zeros n else s.arr x }

/-- A call was made. -/
def call (s : Work) (c : SdkCall) (ok : Bool) : Work := { s with calls := (c, ok) :: s.calls }

/-- Number of calls so far. -/
def time (s : Work) : Nat := s.calls.length

/-! ## crypto.c -/

/-- `crypto_derive_private_key`, crypto.c:24-47, into the arrays `key` and `chain`. -/
def derivePrivate (sdk : Sdk) (path : List UInt32) (key chain : WArr) (s : Work) : Work × UInt16 :=
  let s := s.wipe .raw 64
  let r := sdk.derive s.time path
  let s := ((s.call .derive (r.1 = 0)).put .raw 0 (fit 64 r.2.1)).put chain 0 (fit 32 r.2.2)
  if r.1 ≠ 0 then (s, r.1.toUInt16)
  else
    let r := sdk.initKey s.time ((s.arr .raw).take 32)
    let s := (s.call .initKey (r.1 = 0)).put key 0 (fit 32 r.2)
    (s.wipe .raw 64, r.1.toUInt16)

/-- `crypto_generate_private_key`, crypto.c:49-65; the caller's array is `secret`. -/
def generatePrivate (sdk : Sdk) (path : List UInt32) (s : Work) : Work × UInt16 :=
  let s := s.wipe .ecfp 32
  let r := s.derivePrivate sdk path .ecfp .chain
  let s := if r.2 = 0 then r.1.put .secret 0 ((r.1.arr .ecfp).take 32) else r.1
  ((s.wipe .ecfp 32).wipe .chain 32, r.2)

/-- `crypto_init_public_key`, crypto.c:67-79. -/
def initPublic (sdk : Sdk) (s : Work) : Work × UInt16 :=
  let r := sdk.genPair s.time (s.arr .priv)
  let s := (s.call .genPair (r.1 = 0)).put .pub 0 (fit 65 r.2)
  (if r.1 = 0 then s.put .rawPub 0 ((s.arr .pub).take 65) else s, r.1.toUInt16)

/-- `crypto_generate_public_key`, crypto.c:81-106; `has`: the caller wants the chain code. -/
def generatePublic (sdk : Sdk) (path : List UInt32) (has : Bool) (s : Work) : Work × UInt16 :=
  let chain := if has then WArr.chainOut else .tempChain
  let s := (s.wipe .priv 32).wipe .pub 65
  let r := s.derivePrivate sdk path .priv chain
  let r := if r.2 = 0 then r.1.initPublic sdk else r
  let s := r.1.wipe .priv 32
  (if has then s else s.wipe .tempChain 32, r.2)

/-! ## schnorr.c -/

/-- `SECP256K1_G`, schnorr.c:12-17. -/
def secpG : Bytes :=
  [0x79, 0xbe, 0x66, 0x7e, 0xf9, 0xdc, 0xbb, 0xac, 0x55, 0xa0, 0x62, 0x95, 0xce, 0x87, 0x0b, 0x07,
   0x02, 0x9b, 0xfc, 0xdb, 0x2d, 0xce, 0x28, 0xd9, 0x59, 0xf2, 0x81, 0x5b, 0x16, 0xf8, 0x17, 0x98,
   0x48, 0x3a, 0xda, 0x77, 0x26, 0xa3, 0xc4, 0x65, 0x5d, 0xa4, 0xfb, 0xfc, 0x0e, 0x11, 0x08, 0xa8,
   0xfd, 0x17, 0xb4, 0x48, 0xa6, 0x85, 0x54, 0x19, 0x9c, 0x47, 0xd0, 0x8f, 0xfb, 0x10, 0xd4, 0xb8]

/-- `blake2b_256_init`, helpers/blake2b.c:3-5. -/
def hashInit (sdk : Sdk) (s : Work) : Work × Bool :=
  let ok := sdk.hashOk s.time
  let s := s.call .hash ok
  (if ok then { s with hash := [] } else s, ok)

/-- `blake2b_update`, helpers/blake2b.c:7-9. -/
def hashUpdate (sdk : Sdk) (b : Bytes) (s : Work) : Work × Bool :=
  let ok := sdk.hashOk s.time
  let s := s.call .hash ok
  (if ok then { s with hash := s.hash ++ b } else s, ok)

/-- `if (!…) break;`, schnorr.c:34-81, and `if (!…) return false;`, schnorr.c:96-113: go on if the
last step went well. -/
def next (r : Work × Bool) (f : Work → Work × Bool) : Work × Bool := if r.2 then f r.1 else (r.1, false)

/-- Not `cx_math_cmp_no_throw(k, n) != 0 || cmp_diff > 0`, schnorr.c:43-44 and 65-66. -/
def notLarge (sdk : Sdk) (k : Bytes) (s : Work) : Work × Bool :=
  let c := sdk.cmp s.time
  (s.call .cmp (c = 0), c = 0 && !(beNat k > secpN))

/-- Generator times scalar into `buf`, then the first byte of the compressed point,
schnorr.c:48-53 and 70-75. -/
def mulBase (sdk : Sdk) (k : Bytes) (s : Work) : Work × Bool :=
  let s := (s.put .buf 0 [0x04]).put .buf 1 secpG
  let r := sdk.mult s.time (s.arr .buf) k
  let s := (s.call .mult (r.1 = 0)).put .buf 0 (fit 65 r.2)
  if r.1 ≠ 0 then (s, false)
  else (s.put .buf 0 [if (s.arr .buf).getD 64 0 &&& 1 = 1 then 0x03 else 0x02], true)

/-- `cx_rng_no_throw(key, PRIVATE_KEY_LEN)`, schnorr.c:61. -/
def drawNonce (sdk : Sdk) (s : Work) : Work :=
  { s.put .nonce 0 (fit 32 (sdk.rng s.draws)) with draws := s.draws + 1 }

/-- The body of the loop, schnorr.c:34-81. -/
def tryInit (sdk : Sdk) (s : Work) : Work × Bool :=
  next (s.hashInit sdk) fun s =>
  next (s.hashUpdate sdk schnorrPrefix) fun s =>
  next (s, beNat (s.arr .secret) ≠ 0) fun s =>
  next (s.notLarge sdk (s.arr .secret)) fun s =>
  next (s.mulBase sdk (s.arr .secret)) fun s =>
  next (s.hashUpdate sdk ((s.arr .buf).take 33)) fun s =>
  next (s.hashUpdate sdk schnorrSuffix) fun s =>
  next (s.drawNonce sdk, true) fun s =>
  next (s, beNat (s.arr .nonce) ≠ 0) fun s =>
  next (s.notLarge sdk (s.arr .nonce)) fun s =>
  next (s.mulBase sdk (s.arr .nonce)) fun s =>
  s.hashUpdate sdk ((s.arr .buf).take 33)

/-- The loop, schnorr.c:32-87. -/
def signInitLoop (sdk : Sdk) : Nat → Work → Work × Bool
  | 0, s => (s, false)
  | fuel + 1, s =>
    let r := s.tryInit sdk
    let s := r.1.wipe .buf 65
    if r.2 then (s, true) else signInitLoop sdk fuel s

/-- `ergo_secp256k1_schnorr_p2pk_sign_init`, schnorr.c:28-88. -/
def signInit (sdk : Sdk) (s : Work) : Work × Bool := s.signInitLoop sdk 100

/-- `blake2b_256_finalize(hash, signature)`, schnorr.c:96, helpers/blake2b.c:11-18. -/
def hashFinal (sdk : Sdk) (s : Work) : Work × Bool :=
  let ok := sdk.hashOk s.time
  let s := s.call .hash ok
  (if ok then s.put .sig 0 (fit 32 (sdk.digest s.hash)) else s, ok)

/-- The challenge, schnorr.c:100-101: eight zeros and the first 24 bytes of the hash. -/
def challenge (s : Work) : Work := (s.put .buf 0 (zeros 8)).put .buf 8 ((s.arr .sig).take 24)

/-- `cx_math_multm_no_throw(buf, buf, secret, n)`, schnorr.c:106. -/
def mulSecret (sdk : Sdk) (s : Work) : Work × Bool :=
  let r := sdk.multm s.time ((s.arr .buf).take 32) (s.arr .secret)
  ((s.call .multm (r.1 = 0)).put .buf 0 (fit 32 r.2), r.1 = 0)

/-- `cx_math_addm_no_throw(signature + 24, key, buf, n)`, schnorr.c:108-112. -/
def addNonce (sdk : Sdk) (s : Work) : Work × Bool :=
  let r := sdk.addm s.time (s.arr .nonce) ((s.arr .buf).take 32)
  ((s.call .addm (r.1 = 0)).put .sig 24 (fit 32 r.2), r.1 = 0)

/-- `ergo_secp256k1_schnorr_p2pk_sign_finish`, schnorr.c:90-118. -/
def signFinish (sdk : Sdk) (s : Work) : Work × Bool :=
  next (s.hashFinal sdk) fun s =>
  next (s.challenge, beNat ((s.challenge.arr .buf).take 32) ≠ 0) fun s =>
  next (s.mulSecret sdk) fun s =>
  next (s.addNonce sdk) fun s =>
  (s.wipe .buf 65, true)

/-! ## stx_op_p2pk.c -/

/-- `stx_operation_p2pk_init`, stx_op_p2pk.c:65-99: status word. -/
def opInit (sdk : Sdk) (path : List UInt32) (network : UInt8) (s : Work) : Work × UInt16 :=
  if ¬ pathValidate path .addressGe5 then (s, Sw.bip32BadPath)
  else if ¬ networkSupported network then (s, Sw.badNetType)
  else
    let r := s.generatePrivate sdk path
    if r.2 ≠ 0 then (r.1.wipe .secret 32, Sw.internalCryptoError)
    else
      let r := r.1.signInit sdk
      let s := r.1.wipe .secret 32
      if ¬ r.2 then (s.wipe .nonce 32, Sw.internalCryptoError)
      else (s, Sw.ok)

/-- `ui_stx_operation_p2pk_send_response`, stx_op_p2pk.c:381-413, for a finalized operation:
signature or status word. -/
def opFinish (sdk : Sdk) (path : List UInt32) (s : Work) : Work × Except UInt16 Bytes :=
  let r := s.generatePrivate sdk path
  if r.2 ≠ 0 then (r.1.wipe .nonce 32, .error Sw.internalCryptoError)
  else
    let r := r.1.signFinish sdk
    let s := (r.1.wipe .secret 32).wipe .nonce 32
    (s, if r.2 then .ok ((s.arr .sig).take 56) else .error Sw.schnorrSigningFailed)

end Work
end Ergo
