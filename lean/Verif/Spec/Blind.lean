import Verif.Spec.Secrets
import Verif.Spec.Consent
/-!
# Two worlds with different wallets
-/
namespace Ergo.Spec

/-- Two devices with different seeds: private and public keys may all be different.  The hash functions,
name and version of the application are the same, and a key exists for the same paths. -/
structure OtherWallet (env env' : Env) : Prop where
  blake : env'.blake = env.blake
  hmac : env'.hmac = env.hmac
  name : env'.appName = env.appName
  version : env'.appVersion = env.appVersion
  exist : ∀ path, (env'.genPublic path).isSome = (env.genPublic path).isSome

/-- The same step on the screen, except for the text of an address. -/
def SameStep : Option FlowStep → Option FlowStep → Prop
  | some (.info ⟨.address, .text _⟩), some (.info ⟨.address, .text _⟩) => True
  | s, s' => s' = s

/-- A key or an address is exported: both devices answer with success and as many bytes, either to the
user's approval of the export or directly to the command. -/
def Exported (o o' : Obs) : Prop :=
  (∃ out out', o.reply = .sw 0x9000 out ∧ o'.reply = .sw 0x9000 out' ∧ out.length = out'.length) ∧
    (Approval o ∧ (o.asked = some .extPubKeyExport ∨ o.asked = some .confirmSendAddress) ∨
      ∃ ins p1 p2 data rnd, o.event = .apdu 0xE0 ins p1 p2 data rnd ∧ (ins = 0x10 ∨ ins = 0x11))

/-- The user approves the final question of a signing session and both devices answer. -/
def SignedBoth (o o' : Obs) : Prop :=
  Approval o ∧ o.asked = some .approveSigning ∧
    (∃ sw out, o.reply = .sw sw out) ∧ ∃ sw out, o'.reply = .sw sw out

/-- The same observation, except for the text of an address on the screen, for exported keys and
addresses, and for the answer to the approval of a signature. -/
def SameBlind (o o' : Obs) : Prop :=
  o'.asked = o.asked ∧ SameStep o.here o'.here ∧
    (o'.reply = o.reply ∨ Exported o o' ∨ SignedBoth o o')

end Ergo.Spec
