import Verif.Spec.Layout
import Verif.Spec.Tx
/-!
# Accesses to the union in a signing session

Which members of the union the steps of a session write, read from the source; offsets and bytes are
arbitrary.  Refused commands do not occur: they end the session or leave the context alone.
-/
namespace Ergo.Spec

/-- Script of the output being received. -/
def TxDesc.newest (D : TxDesc) : Option Script := D.outputs.head?.bind (·.box.script)

/-- The output being received goes to a key of this device. -/
def TxDesc.isChange (D : TxDesc) : Prop := ∃ q, D.newest = some (.change q)

/-- Serializer and anything of the output. -/
def Access.anyOutput : Access → Prop
  | .serializer _ _ | .output _ _ => True
  | _ => False

/-- Serializer, and the members of the output before its union (value, tokens, state). -/
def Access.beforePath (a : Abi) : Access → Prop
  | .serializer _ _ => True
  | .output o bs => o + bs.length ≤ offsetOf a.outFields 3
  | _ => False

/-- The text on display. -/
def Access.isUi : Access → Prop
  | .outputUi _ _ => True
  | _ => False

def Access.isSerializer : Access → Prop
  | .serializer _ _ => True
  | _ => False

def Access.isApprove : Access → Prop
  | .approve _ _ => True
  | _ => False

/-- Accesses of an accepted command, with what was described before it:
* 0x10–0x14 (stx_op_p2pk.c:101-181): the serializer;
* 0x15–0x17 (stx_op_p2pk.c:183-255, stx_output.c:49-94): the serializer and the output;
* 0x18 (stx_handler.c:235-254, stx_op_p2pk.c:257-269, stx_output.c:36-47): these, the path, and then only
  members before the union;
* 0x19, 0x1A (stx_op_p2pk.c:46-63,271-287, stx_output.c:22-34,96-114): the union in the output only for a
  script (hash of the tree), not for change. -/
def CmdWrites (a : Abi) (D : TxDesc) (sub : UInt8) (data : Bytes) (L : List Access) : Prop :=
  if sub = 0x18 then
    ∃ L1 L2, L = L1 ++ Access.setPath (pathOf data) :: L2 ∧ (∀ x ∈ L1, Access.anyOutput x) ∧
      ∀ x ∈ L2, Access.beforePath a x
  else if sub = 0x19 ∨ sub = 0x1A then
    (∀ x ∈ L, Access.anyOutput x) ∧ (D.isChange → ∀ x ∈ L, Access.beforePath a x)
  else if 0x15 ≤ sub then ∀ x ∈ L, Access.anyOutput x
  else ∀ x ∈ L, Access.isSerializer x

/-- Accesses while an output is on display and is approved (stx_ui.c:220-251): texts, the first clearing,
texts, the second clearing, and the copy if the output is change. -/
def ApproveWrites (D : TxDesc) (L : List Access) : Prop :=
  ∃ U1 U2 st, L = U1 ++ Access.clear :: (U2 ++ Access.clear :: st) ∧
    (∀ x ∈ U1, Access.isUi x) ∧ (∀ x ∈ U2, Access.isUi x) ∧
    (D.isChange ∧ st = [Access.store] ∨ ¬ D.isChange ∧ st = [])

/-- Accesses of a session (newest step first), after the wipe that starts the command: the approval
question, then the steps. -/
def Wrote (a : Abi) : List Entry → List Access → Prop
  | [], l => ∀ x ∈ l, Access.isApprove x
  | .cmd sub data :: log, l =>
    ∃ l0 L, l = l0 ++ L ∧ Wrote a log l0 ∧ CmdWrites a (describe log.reverse) sub data L
  | .approve :: log, l =>
    ∃ l0 L, l = l0 ++ L ∧ Wrote a log l0 ∧ ApproveWrites (describe log.reverse) L

/-- Path of the output the user approved last (outputs newest first), if it is change. -/
def approvedChange (l : List OutDesc) : List UInt32 :=
  match l.find? (·.approved) with
  | some o => match o.box.script with
    | some (.change q) => q
    | _ => []
  | none => []

/-- The bytes after a session's accesses, for any bytes before. -/
def memAfter (a : Abi) (m : UMem) (l : List Access) : UMem :=
  (Access.wipe :: l).foldl (fun m x => x.run a m) m

end Ergo.Spec
