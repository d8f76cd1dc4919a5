import Verif.Model.Loop
import Verif.Spec.Replies
/-!
# Specification of C69: messages of the host and responses, as bytes (doc/APDU.md)
-/
namespace Ergo.Spec

/-- A command as a message: class, instruction, P1, P2, number of data bytes, data. -/
def IsCommand (bytes : Bytes) (cla ins p1 p2 : UInt8) (data : Bytes) : Prop :=
  ∃ lc : UInt8, bytes = cla :: ins :: p1 :: p2 :: lc :: data ∧ lc.toNat = data.length

/-- A response as a message: the data, then the status word, high byte first. -/
def IsResponse (bytes : Bytes) (code : UInt16) (data : Bytes) : Prop :=
  ∃ hi lo : UInt8, bytes = data ++ [hi, lo] ∧ hi.toNat * 256 + lo.toNat = code.toNat

/-- What has to be sent for a reply. -/
def Delivers (r : Reply) (sent : List Bytes) : Prop :=
  match r with
  | .wait => sent = []
  | .sw code data => ∃ bytes, sent = [bytes] ∧ IsResponse bytes code data
  | _ => False

/-- The messages carry the commands and replies of an execution of the device, in the same order; a
message that is no command is answered by 0x6A87 and is not seen by the device. -/
inductive Carries : List LoopObs → List Obs → Prop
  | nil : Carries [] []
  | junk {tr : List LoopObs} {td : List Obs} {bytes r : Bytes} {rnd : Rnd} (h : Carries tr td)
      (hn : ¬ ∃ cla ins p1 p2 data, IsCommand bytes cla ins p1 p2 data) (hr : IsResponse r 0x6A87 []) :
      Carries (⟨.message bytes rnd, [r]⟩ :: tr) td
  | command {tr : List LoopObs} {td : List Obs} {bytes data : Bytes} {cla ins p1 p2 : UInt8} {rnd : Rnd}
      {sent : List Bytes} {o : Obs} (h : Carries tr td) (hc : IsCommand bytes cla ins p1 p2 data)
      (he : o.event = .apdu cla ins p1 p2 data rnd) (hd : Delivers o.reply sent) :
      Carries (⟨.message bytes rnd, sent⟩ :: tr) (o :: td)
  | button {tr : List LoopObs} {td : List Obs} {i : Input} {sent : List Bytes} {o : Obs}
      (h : Carries tr td)
      (he : i = .left ∧ o.event = .left ∨ i = .right ∧ o.event = .right ∨ i = .both ∧ o.event = .both)
      (hd : Delivers o.reply sent) : Carries (⟨i, sent⟩ :: tr) (o :: td)

/-- Messages received. -/
def messageCount (tr : List LoopObs) : Nat :=
  tr.countP (fun o => match o.input with | .message .. => true | _ => false)

/-- Responses sent. -/
def responseCount (tr : List LoopObs) : Nat := (tr.map (fun o => o.sent.length)).sum

/-- The commands received, newest first. -/
def commandsOf (td : List Obs) : List (UInt8 × UInt8) :=
  td.filterMap (fun o => match o.event with | .apdu _ ins p1 _ _ _ => some (ins, p1) | _ => none)

/-- The commands answered, in the order of the answers, newest first. -/
def answersOf : List Obs → List (UInt8 × UInt8)
  | [] => []
  | o :: td =>
    match o.reply with
    | .sw _ _ => (answered td o.event).toList ++ answersOf td
    | _ => answersOf td

/-- The answers come in the order of the commands; only the last command may be unanswered. -/
def InOrder (td : List Obs) : Prop :=
  ∃ last, commandsOf td = last ++ answersOf td ∧ last.length ≤ 1

/-- The host sends no command while the user is being asked. -/
def Patient (td : List Obs) : Prop :=
  ∀ o ∈ td, ∀ cla ins p1 p2 data rnd, o.event = .apdu cla ins p1 p2 data rnd → o.asked = none

end Ergo.Spec
