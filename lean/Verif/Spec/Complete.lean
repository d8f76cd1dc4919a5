import Verif.Spec.Accept
import Verif.Spec.Start
/-!
# Whole signing sessions
-/
namespace Ergo.Spec

/-- A signing command after the start of the session and before the confirmation: subcommand, data,
and the random values of the moment (which these commands do not use). -/
structure SignCmd where
  sub : UInt8
  data : Bytes
  rnd : Rnd

/-- What is described after more commands. -/
def TxDesc.after (D : TxDesc) (cs : List SignCmd) : TxDesc :=
  cs.foldl (fun D c => D.step (.cmd c.sub c.data)) D

/-- Commands that fit one after the other. -/
def FitsAll (env : Env) (key : Bytes) : TxDesc → List SignCmd → Prop
  | _, [] => True
  | D, c :: cs => (0x10 ≤ c.sub ∧ c.sub ≤ 0x1A) ∧ c.data.length ≤ 255 ∧ Fits env key D c.sub c.data ∧
    FitsAll env key (D.step (.cmd c.sub c.data)) cs

/-- Everything that was announced is there: the confirmation fits. -/
def Whole (D : TxDesc) : Prop := 0 < D.nIn ∧ D.outputs.countP (·.box.complete) = D.nOut

/-- The description without the approvals of the user. -/
def TxDesc.forget (D : TxDesc) : TxDesc :=
  { D with outputs := D.outputs.map (fun o => { o with approved := false }) }

/-- One question, asked by the first of these observations (newest first), and the user going left
twice, over Reject to Approve, and approving. -/
def Approving (t : Title) (e : Event) (r : Reply) (l : List Obs) : Prop :=
  ∃ a b b1 b2, l = [⟨some t, some .approve, .both, r⟩, ⟨some t, b2, .left, .wait⟩,
    ⟨some t, b1, .left, .wait⟩, ⟨a, b, e, .wait⟩]

/-- The command is accepted at once, or a question about an output is asked and approved. -/
def Served (s : UInt8) (c : SignCmd) (l : List Obs) : Prop :=
  (∃ a b, l = [⟨a, b, .apdu 0xE0 0x21 c.sub s c.data c.rnd, .sw 0x9000 []⟩]) ∨
  Approving .confirmOutput (.apdu 0xE0 0x21 c.sub s c.data c.rnd) (.sw 0x9000 []) l

/-- Observations (newest first) in which exactly these signing commands are sent with session id `s`,
one after the other, all of them are accepted, and each question about an output is approved. -/
def ServedAll (s : UInt8) : List SignCmd → List Obs → Prop
  | [], l => l = []
  | c :: cs, l => ∃ p q, l = q ++ p ∧ Served s c p ∧ ServedAll s cs q

/-- A signing session is asked for and, on the first screen, approved; the session id is sent. -/
def Starting (a : Request) (id : UInt8) (l : List Obs) : Prop :=
  ∃ p b b', l = [⟨some .p2pkSigning, some (.pathApprove p), .both, .sw 0x9000 [id]⟩,
    ⟨b, b', a.event, .wait⟩]

end Ergo.Spec
