import Verif.Spec.Commands
import Verif.Model.Env
import Verif.Spec.Path
import Verif.Spec.Base58
/-!
# Exports and consent, in terms of requests and observations
-/
namespace Ergo.Spec

/-- The event of a request. -/
def Request.event (a : Request) : Event := .apdu 0xE0 a.ins a.p1 a.p2 a.data a.rnd

/-- A request to export a key or to send an address. -/
def Request.IsExport (a : Request) : Prop := a.ins = 0x10 ∨ a.ins = 0x11 ∧ a.p1 = 1

/-- The P2PK address of a public key: type and network, compressed key, 4 bytes of hash. -/
def p2pkAddress (env : Env) (network : UInt8) (pub : Bytes) : Bytes :=
  let body := (1 + network) :: compress pub
  body ++ (env.blake body).take 4

/-- What a request asks for: the compressed public key and the chain code of its path; or the
address, in the network of its first byte, of the key of its path. -/
def Request.exports (env : Env) (a : Request) : Option Bytes :=
  if a.ins = 0x10 then (env.genPublic (pathOf a.data)).map (fun k => compress k.1 ++ k.2)
  else (env.genPublic (pathOf (a.data.drop 1))).map (fun k => p2pkAddress env (a.data.headD 0) k.1)

/-- The question for an export. -/
def Request.question (a : Request) : Title :=
  if a.ins = 0x10 then .extPubKeyExport else .confirmSendAddress

/-- The user presses both buttons on an approving step. -/
def Approval (o : Obs) : Prop :=
  o.event = .both ∧ (o.here = some .approve ∨ ∃ p, o.here = some (.pathApprove p))

/-- A command that starts another operation and is not refused: it makes the device ask the user, or
it is answered at once. -/
def Restarts (o : Obs) : Prop :=
  ∃ cla ins p1 p2 data rnd, o.event = .apdu cla ins p1 p2 data rnd ∧
    (o.reply = .wait ∧ ¬ (ins = 0x21 ∧ p1 ≠ 0x01) ∨
      (∃ out, o.reply = .sw 0x9000 out) ∧ (ins = 0x10 ∨ ins = 0x11 ∨ ins = 0x20 ∧ p1 = 0x01))

/-- The user approves the final screen and the device answers with success. -/
def ClosesSign (o : Obs) : Prop :=
  o.event = .both ∧ o.asked = some .approveSigning ∧ ∃ out, o.reply = .sw 0x9000 out

/-- What an observation adds to the signing session in progress. -/
def signEntry (o : Obs) : Option Entry :=
  match o.event, o.reply with
  | .apdu _ ins p1 _ data _, .wait =>
    if ins = 0x21 ∧ p1 ≠ 0x01 ∧ p1 ≠ 0x20 then some (.cmd p1 data) else none
  | .apdu _ ins p1 _ data _, .sw code _ =>
    if ins = 0x21 ∧ code = 0x9000 then some (.cmd p1 data) else none
  | .both, .sw code _ =>
    if code = 0x9000 ∧ o.asked = some .confirmOutput then some .approve else none
  | _, _ => none

/-- What an observation adds to the attestation session in progress. -/
def attestEntry (o : Obs) : Option (UInt8 × Bytes) :=
  match o.event, o.reply with
  | .apdu _ ins p1 _ data _, .sw code _ =>
    if ins = 0x20 ∧ p1 ≠ 0x01 ∧ code = 0x9000 then some (p1, data) else none
  | _, _ => none

/-- A signature: a success answer with 56 bytes. -/
def Signs (o : Obs) : Prop := ∃ out, o.reply = .sw 0x9000 out ∧ out.length = 56

/-- The command that asks for the start of signing, put on screen. -/
def AsksSign (a : Request) (o : Obs) : Prop :=
  a.ins = 0x21 ∧ a.p1 = 0x01 ∧ o.event = a.event ∧ o.reply = .wait

/-- Path text as shown: cut to 59 characters. -/
def pathPage (title : Title) (path : List UInt32) : Page := ⟨title, .text ((pathText path).take 59)⟩

/-- Pages for an application token: none for 0. -/
def tokenPages (token : UInt32) : List Page :=
  if token = 0 then [] else [⟨.application, .appToken token⟩]

end Ergo.Spec
