import Verif.Model.Run
import Verif.Spec.Tx
/-!
# What an observer knows

The observer sees commands, replies, what is asked on screen and button presses; it does not see the
device memory.  From these it keeps: the last request that is waiting for the user, the application
token of the last approval, and the signing or attestation session in progress with everything that
was accepted in it.
-/
namespace Ergo.Spec

/-- A command as sent by the host (with the random values of that moment). -/
structure Request where
  ins : UInt8
  p1 : UInt8
  p2 : UInt8
  data : Bytes
  rnd : Rnd

/-- The request says that it carries an application token. -/
def Request.hasToken (a : Request) : Bool := if a.ins = 0x10 then a.p1 = 2 else a.p2 = 2

/-- The application token of a request: its last four bytes, or 0. -/
def Request.token (a : Request) : UInt32 :=
  if a.hasToken then UInt32.ofNat (be (a.data.drop (a.data.length - 4))) else 0

/-- A signing session: its first command, its id, and what was accepted since, oldest first. -/
structure SignSess where
  start : Request
  id : UInt8
  log : List Entry

/-- An attestation session: its first command, its id, whether the user was asked, the application
token of the last approval at that moment, and the accepted commands (subcommand, data), oldest
first. -/
structure AttestSess where
  start : Request
  id : UInt8
  asked : Bool
  app : UInt32
  log : List (UInt8 × Bytes)

/-- The observer's knowledge. -/
structure Ghost where
  pending : Option Request
  app : UInt32
  sign : Option SignSess
  attest : Option AttestSess

/-- At power-on. -/
def Ghost.start : Ghost := ⟨none, 0, none, none⟩

/-- No session. -/
def Ghost.close (g : Ghost) : Ghost := { g with sign := none, attest := none }

/-- An accepted step of the signing session. -/
def Ghost.log (g : Ghost) (e : Entry) : Ghost :=
  { g with sign := g.sign.map (fun s => { s with log := s.log ++ [e] }) }

/-- Errors that do not end a session: busy, wrong P1/P2, wrong class, unknown instruction, wrong
length. -/
def harmless (sw : UInt16) : Bool :=
  sw = 0xB000 ∨ sw = 0x6A86 ∨ sw = 0x6E00 ∨ sw = 0x6D00 ∨ sw = 0x6A87

/-- A request is put on screen. -/
def Ghost.onWait (g : Ghost) (a : Request) : Ghost :=
  if a.ins = 0x21 ∧ a.p1 ≠ 0x01 then
    { (if a.p1 = 0x20 then g else g.log (.cmd a.p1 a.data)) with pending := some a }
  else { g.close with pending := some a }

/-- A command is answered with success and data. -/
def Ghost.onOk (g : Ghost) (a : Request) (out : Bytes) : Ghost :=
  if a.ins = 0x01 ∨ a.ins = 0x02 then g
  else if a.ins = 0x21 then g.log (.cmd a.p1 a.data)
  else if a.ins = 0x20 then
    if a.p1 = 0x01 then { g.close with attest := some ⟨a, out.headD 0, false, g.app, []⟩ }
    else { g with attest := g.attest.map (fun s => { s with log := s.log ++ [(a.p1, a.data)] }) }
  else g.close

/-- The user approves what is asked. -/
def Ghost.onApprove (g : Ghost) (asked : Option Title) (out : Bytes) : Ghost :=
  match asked with
  | some .confirmOutput => g.log .approve
  | some .approveSigning => g.close
  | some .p2pkSigning =>
    { g with app := (g.pending.map Request.token).getD 0
             sign := g.pending.map (fun a => ⟨a, out.headD 0, []⟩) }
  | some .confirmAttest =>
    { g with app := (g.pending.map Request.token).getD 0
             attest := g.pending.map (fun a => ⟨a, out.headD 0, true, g.app, []⟩) }
  | _ => { g with app := (g.pending.map Request.token).getD 0 }

/-- One more observation. -/
def Ghost.next (g : Ghost) (o : Obs) : Ghost :=
  match o.event, o.reply with
  | .apdu _ ins p1 p2 data rnd, .wait => g.onWait ⟨ins, p1, p2, data, rnd⟩
  | .apdu _ ins p1 p2 data rnd, .sw code out =>
    if code = 0x9000 then g.onOk ⟨ins, p1, p2, data, rnd⟩ out
    else if harmless code then g else g.close
  | .both, .sw code out => if code = 0x9000 then g.onApprove o.asked out else g.close
  | .left, .sw _ _ => g.close
  | .right, .sw _ _ => g.close
  | _, _ => g

/-- Knowledge after a trace (newest first). -/
def know : List Obs → Ghost
  | [] => .start
  | o :: tr => (know tr).next o

end Ergo.Spec
