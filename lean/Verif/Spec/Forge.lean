import Verif.Spec.Mac
import Mathlib.Data.Set.Card
/-!
# Guessing the tag of a frame

The host and the user together follow a strategy: after what they have seen they choose the next event.  The
authentication function is as it is, except that the 16 bytes that it gives for one body under the session key
are unknown: all `2^128` values are equally likely, so a probability is a number of values.
-/
namespace Ergo.Spec

/-- The world in which the tag of `body` under `key` is `tag`. -/
def withTag (env : Env) (key body tag : Bytes) : Env :=
  { env with hmac := fun k b => if k = key ∧ b = body then tag ++ (env.hmac k b).drop 16 else env.hmac k b }

/-- The next event for everything seen so far (newest first). -/
abbrev Strategy : Type := List Obs → Event

/-- What is seen when the strategy is followed. -/
def Follows (σ : Strategy) : List Obs → Prop
  | [] => True
  | o :: tr => o.event = σ tr ∧ Follows σ tr

/-- The tag that is presented with this body for signing. -/
def presents (body : Bytes) (o : Obs) : Option Bytes :=
  match o.event with
  | .apdu _ ins p1 _ data _ =>
    if ins = 0x21 ∧ p1 = 0x12 ∧ data.take (tagAt data) = body then some ((data.drop (tagAt data)).take 16)
    else none
  | _ => none

/-- How often the body was presented. -/
def attempts (body : Bytes) (tr : List Obs) : Nat := (tr.filterMap (presents body)).length

/-- A frame with this body is accepted for signing. -/
def FrameAccepted (body : Bytes) (o : Obs) : Prop :=
  (presents body o).isSome ∧ ∃ out, o.reply = .sw 0x9000 out

/-- The device itself sent a frame with this body. -/
def FrameSent (body : Bytes) (tr : List Obs) : Prop :=
  ∃ o ∈ tr, (∃ cla p2 data rnd, o.event = .apdu cla 0x20 0x05 p2 data rnd) ∧
    ∃ tag, tag.length = 16 ∧ o.reply = .sw 0x9000 (body ++ tag)

/-- At some moment something happens, and the device has not sent a frame with this body before. -/
def BeforeSent (body : Bytes) (tr : List Obs) (happens : Obs → Prop) : Prop :=
  ∃ tr2 o tr1, tr = tr2 ++ o :: tr1 ∧ happens o ∧ ¬ FrameSent body tr1

end Ergo.Spec
