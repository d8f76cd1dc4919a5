import Verif.Model.Crypto
import Verif.Spec.Schnorr
/-!
# What the cryptographic functions leave behind, and what makes them succeed
-/
namespace Ergo.Spec

/-- The arrays that hold private keys, parts of them, or values computed from them for a moment, with
their sizes.  (The ephemeral key in the context lives as long as the session.) -/
def temporaries : List (WArr × Nat) :=
  [(.raw, 64), (.ecfp, 32), (.chain, 32), (.priv, 32), (.tempChain, 32), (.secret, 32), (.buf, 65)]

/-- Nothing is left in them. -/
def Clean (s : Work) : Prop := ∀ a ∈ temporaries, s.arr a.1 = List.replicate a.2 0

/-- Sizes of all arrays. -/
def size : WArr → Nat
  | .raw => 64
  | .pub => 65
  | .rawPub => 65
  | .buf => 65
  | .sig => 56
  | _ => 32

/-- Every array has its size. -/
def Sized (s : Work) : Prop := ∀ a, (s.arr a).length = size a

/-- The calls made between two states (newest first). -/
def Made (s s' : Work) (l : List (SdkCall × Bool)) : Prop := s'.calls = l ++ s.calls

/-- The derivation and the two calls that compute with the private key do not fail. -/
def NoLeakingFailure (l : List (SdkCall × Bool)) : Prop :=
  (SdkCall.derive, false) ∉ l ∧ (SdkCall.multm, false) ∉ l ∧ (SdkCall.addm, false) ∉ l

/-- Error codes of the SDK that are still errors when cut to 16 bits. -/
def CodesSurvive (sdk : Sdk) : Prop :=
  (∀ t path, (sdk.derive t path).1 ≠ 0 → (sdk.derive t path).1.toNat % 65536 ≠ 0) ∧
  (∀ t k, (sdk.initKey t k).1 ≠ 0 → (sdk.initKey t k).1.toNat % 65536 ≠ 0) ∧
  ∀ t k, (sdk.genPair t k).1 ≠ 0 → (sdk.genPair t k).1.toNat % 65536 ≠ 0

/-- An error, also after being cut to 16 bits. -/
def Error16 (c : UInt32) : Prop := c.toNat % 65536 ≠ 0

/-- The first 32 bytes of what the derivation left in its 64 bytes. -/
def keyPart (b : Bytes) : Bytes := (b ++ List.replicate 32 0).take 32

/-- An SDK whose calls behave as the functions of `env`. -/
structure Serves (sdk : Sdk) (env : Env) : Prop where
  derive_some : ∀ path k c, env.derive path = some (k, c) → ∀ t t', ∃ raw, sdk.derive t path = (0, raw, c) ∧
    sdk.initKey t' (keyPart raw) = (0, k)
  derive_none : ∀ path, env.derive path = none → ∀ t t', Error16 (sdk.derive t path).1 ∨
    (sdk.derive t path).1 = 0 ∧ Error16 (sdk.initKey t' (keyPart (sdk.derive t path).2.1)).1
  pub_some : ∀ k p, env.pubOf k = some p → ∀ t, sdk.genPair t k = (0, p)
  pub_none : ∀ k, env.pubOf k = none → ∀ t, Error16 (sdk.genPair t k).1
  hash : ∀ t, sdk.hashOk t = true
  digest : sdk.digest = env.blake
  cmp : ∀ t, sdk.cmp t = 0
  mul_some : ∀ k p, env.mulG k = some p → ∀ t, sdk.mult t (0x04 :: Work.secpG) k = (0, p)
  mul_none : ∀ k, env.mulG k = none → ∀ t, (sdk.mult t (0x04 :: Work.secpG) k).1 ≠ 0
  multm : ∀ t a b, sdk.multm t a b = (0, beBytes 32 (be a * be b % groupOrder))
  addm : ∀ t a b, sdk.addm t a b = (0, beBytes 32 ((be a + be b) % groupOrder))

end Ergo.Spec
