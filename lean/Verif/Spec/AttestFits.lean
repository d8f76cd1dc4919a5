import Verif.Spec.Complete
import Verif.Spec.Attest
/-!
# Which command fits next into an attestation

Written over the description of the box so far and the data of the command.
-/
namespace Ergo.Spec

/-- The command (subcommand and data) fits after what was described: tree bytes and register bytes
within the declared sizes, tree bytes in full chunks except for the last one; whole tokens with new
ids, not more than declared; a frame number below the number of frames. -/
def AttestFits (o : BoxDesc Bytes) (sub : UInt8) (data : Bytes) : Prop :=
  if sub = 0x02 then
    o.scriptDone = false ∧ scriptLen o + data.length ≤ o.treeSize ∧
      (scriptLen o + data.length = o.treeSize ∨ 255 ≤ data.length)
  else if sub = 0x03 then
    o.scriptDone = true ∧ o.tokens.length < o.nTokens ∧ data.length % 40 = 0 ∧
      o.tokens.length + data.length / 40 ≤ o.nTokens ∧
      ((o.tokens ++ (pieces 40 data).map tok40).map (·.1)).Nodup
  else if sub = 0x04 then
    o.scriptDone = true ∧ o.tokens.length = o.nTokens ∧ o.regs.length < o.regsSize ∧
      o.regs.length + data.length ≤ o.regsSize
  else if sub = 0x05 then
    o.complete ∧ ∃ i, data = [i] ∧ i.toNat < framesFor o.nTokens
  else False

/-- What is answered to a command that fits: after the last part the number of frames, before that
nothing; a frame if one is asked for. -/
def AttestSess.answer (env : Env) (key : Bytes) (S : AttestSess) (sub : UInt8) (data : Bytes) :
    Bytes :=
  if sub = 0x05 then S.frame env key (field data 0 1)
  else if (attestStep S.box (sub, data)).complete then [UInt8.ofNat (framesFor S.box.nTokens)]
  else []

/-- The attestation still goes on: since it was opened, no start of an attestation was refused for
its P2 value, unless that was 0 (this ends the session although the status word is one that
otherwise ends nothing). -/
def LiveAttest : List Obs → Prop
  | [] => True
  | o :: tr => OpensAttest o ∨
    LiveAttest tr ∧ ¬ ∃ cla p2 data rnd out, o.event = .apdu cla 0x20 0x01 p2 data rnd ∧
      p2 ≠ 0 ∧ o.reply = .sw 0x6A86 out

/-! ## Whole attestation sessions -/

/-- The session with one more accepted command. -/
def AttestSess.with (S : AttestSess) (c : SignCmd) : AttestSess :=
  { S with log := S.log ++ [(c.sub, c.data)] }

/-- Commands that fit one after the other. -/
def AttestFitsAll : BoxDesc Bytes → List SignCmd → Prop
  | _, [] => True
  | o, c :: cs => c.data.length ≤ 255 ∧ AttestFits o c.sub c.data ∧
    AttestFitsAll (attestStep o (c.sub, c.data)) cs

/-- Observations (newest first) in which exactly these commands are sent in the session, one after
the other, and each of them gets its answer. -/
def AttestServed (env : Env) (key : Bytes) : AttestSess → List SignCmd → List Obs → Prop
  | _, [], l => l = []
  | S, c :: cs, l => ∃ q, AttestServed env key (S.with c) cs q ∧
    l = q ++ [⟨none, none, .apdu 0xE0 0x20 c.sub S.id c.data c.rnd,
      .sw 0x9000 (S.answer env key c.sub c.data)⟩]

/-- An attestation is asked for and opened: at once, or after the user went left twice, over Reject
to Approve, and approved. -/
def AttestStarting (a : Request) (atOnce : Prop) (id : UInt8) (l : List Obs) : Prop :=
  atOnce ∧ l = [⟨none, none, a.event, .sw 0x9000 [id]⟩] ∨
  ¬ atOnce ∧ Approving .confirmAttest a.event (.sw 0x9000 [id]) l

end Ergo.Spec
