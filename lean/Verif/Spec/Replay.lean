import Verif.Spec.Trace
/-!
# Specification of C70: the shortest execution that leads to a session
-/
namespace Ergo.Spec

/-- No random values. -/
def emptyRnd : Rnd := ⟨[], fun _ => []⟩

/-- From the first page of a question to Approve, and both buttons. -/
def toApprove : List Event := [.left, .left, .both]

/-- An accepted step of a signing session, as events. -/
def entryEvents (id : UInt8) : Entry → List Event
  | .cmd sub data => [.apdu 0xE0 0x21 sub id data emptyRnd]
  | .approve => toApprove

/-- The first command of a signing session, its approval, and what was accepted since; nothing else. -/
def replaySign (S : SignSess) : List Event :=
  .apdu 0xE0 0x21 0x01 S.start.p2 S.start.data S.start.rnd :: .both :: S.log.flatMap (entryEvents S.id)

/-- The same, and then the command asking for the signature. -/
def replayConfirm (S : SignSess) : List Event :=
  replaySign S ++ [.apdu 0xE0 0x21 0x20 S.id [] emptyRnd]

/-- The first command of an attestation session, its approval if the user was asked, and what was
accepted since; nothing else. -/
def replayAttest (S : AttestSess) : List Event :=
  .apdu 0xE0 0x20 0x01 S.start.p2 S.start.data S.start.rnd ::
    ((if S.asked then toApprove else []) ++
      S.log.map (fun c => .apdu 0xE0 0x20 c.1 S.id c.2 emptyRnd))

/-- A device after power-on, except for the application token. -/
def powerOn (key : Bytes) (app : UInt32) : Device := { Device.boot key with connectedApp := app }

/-- These events lead from `d0` to `d`, and none of them is answered with an error. -/
def Leads (env : Env) (nanoS : Bool) (d0 : Device) (es : List Event) (d : Device) : Prop :=
  (d0.run env nanoS es).1 = d ∧
    ∀ r ∈ (d0.run env nanoS es).2, r = .wait ∨ ∃ out, r = .sw 0x9000 out

end Ergo.Spec
