import Verif.Spec.Attest
/-!
# Where input frames come from
-/
namespace Ergo.Spec

/-- Length of the authenticated part of a frame: header and tokens (a one-byte number on the
device). -/
def frameLen (data : Bytes) : Nat := 43 + 40 * field data 42 1 % 256

/-- The 16 bytes behind the authenticated part are its truncated HMAC. -/
def TagValid (env : Env) (key data : Bytes) : Prop :=
  (data.drop (frameLen data)).take 16 = (env.hmac key (data.take (frameLen data))).take 16

/-- The device sent `out` as the answer to a request for a frame. -/
def SentFrame (tr : List Obs) (out : Bytes) : Prop :=
  ∃ o ∈ tr, (∃ cla p2 data rnd, o.event = .apdu cla 0x20 0x05 p2 data rnd) ∧
    o.reply = .sw 0x9000 out

/-- Nobody but the device makes tags: whenever a frame with a valid tag is presented for signing (in a
command that can be sent), the device sent the same frame and tag before. -/
def Unforged (env : Env) (key : Bytes) (tr : List Obs) : Prop :=
  ∀ tr2 o tr1, tr = tr2 ++ o :: tr1 → ∀ cla p2 data rnd, o.event = .apdu cla 0x21 0x12 p2 data rnd →
    data.length ≤ 255 → TagValid env key data → SentFrame tr1 (data.take (frameLen data + 16))

/-- Only frames of the device are accepted: whenever a frame is accepted for signing, the device sent the same frame and
tag before. -/
def OwnFrames (tr : List Obs) : Prop :=
  ∀ tr2 o tr1, tr = tr2 ++ o :: tr1 → ∀ cla p2 data rnd out, o.event = .apdu cla 0x21 0x12 p2 data rnd →
    o.reply = .sw 0x9000 out → SentFrame tr1 (data.take (frameLen data + 16))

/-- `A` was the attestation session at some moment of the history, and its box was complete. -/
def Attested (tr : List Obs) (A : AttestSess) : Prop :=
  (∃ tr2 tr1, tr = tr2 ++ tr1 ∧ (know tr1).attest = some A) ∧ A.box.complete ∧
    A.box.tokens.length = A.box.nTokens

/-- The frame data tell about box `A` what its frame with that number should tell. -/
def TellsOf (env : Env) (A : AttestSess) (data : Bytes) : Prop :=
  data.take 32 = A.boxId env ∧ field data 32 1 = framesFor A.box.nTokens ∧
    field data 33 1 < framesFor A.box.nTokens ∧ field data 34 8 = A.box.value ∧
    frameToks data = frameTokens (field data 33 1) A.box.tokens

/-- An input put together from the frames `0, 1, …` of the boxes `As`. -/
def MadeFrom (env : Env) (As : List AttestSess) (i : InDesc) : Prop :=
  As.length = i.got ∧ (∀ A ∈ As, A.boxId env = i.boxId) ∧
    i.tokens = As.zipIdx.flatMap (fun a => frameTokens a.2 a.1.box.tokens) ∧
    ∃ A, As.head? = some A ∧ i.value = A.box.value ∧ i.frames = framesFor A.box.nTokens

end Ergo.Spec
