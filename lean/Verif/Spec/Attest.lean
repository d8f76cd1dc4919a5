import Verif.Spec.Trace
import Verif.Spec.Frame
/-!
# What an attestation session describes

From the documentation of the attest command (doc/INS-20-ATTEST-BOX.md) and the Ergo box format.
-/
namespace Ergo.Spec

/-- The parameters of the box: after the transaction id (32 bytes) and the output index (2 bytes). -/
def attestHeader (d : Bytes) : BoxDesc Bytes :=
  ⟨field d 34 8, field d 42 4, field d 46 4, field d 50 1, field d 51 4, none, [], []⟩

/-- What an accepted command adds: 2 tree bytes, 3 tokens, 4 registers. -/
def attestStep (o : BoxDesc Bytes) (c : UInt8 × Bytes) : BoxDesc Bytes :=
  if c.1 = 0x02 then o.addTree c.2
  else if c.1 = 0x03 then { o with tokens := o.tokens ++ (pieces 40 c.2).map tok40 }
  else if c.1 = 0x04 then { o with regs := o.regs ++ c.2 }
  else o

/-- The box described in a session. -/
def AttestSess.box (S : AttestSess) : BoxDesc Bytes :=
  S.log.foldl attestStep (attestHeader S.start.data)

/-- All bytes sent in the commands of one kind, in order. -/
def AttestSess.part (S : AttestSess) (sub : UInt8) : Bytes :=
  S.log.flatMap (fun c => if c.1 = sub then c.2 else [])

/-- Bytes of a box: the candidate, then transaction id and output index. -/
def fullBoxBytes (start : Bytes) (o : BoxDesc Bytes) : Bytes :=
  boxBytes (fun id => id) (fun _ => []) o ++ start.take 32 ++ vlq (field start 32 2)

/-- The id of the described box. -/
def AttestSess.boxId (env : Env) (S : AttestSess) : Bytes :=
  env.blake (fullBoxBytes S.start.data S.box)

/-- Token list with 64-bit amounts. -/
def toks64 (l : List (Bytes × Nat)) : List (Bytes × UInt64) := l.map (fun t => (t.1, UInt64.ofNat t.2))

/-- Frame number `i` of the described box, with its tag. -/
def AttestSess.frame (env : Env) (key : Bytes) (S : AttestSess) (i : Nat) : Bytes :=
  let body := frameBytes (S.boxId env) (UInt64.ofNat S.box.value) (toks64 S.box.tokens) i
  body ++ (env.hmac key body).take 16

end Ergo.Spec
