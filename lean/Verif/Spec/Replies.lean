import Verif.Spec.Trace
/-!
# Replies, as documented in doc/*.md
-/
namespace Ergo.Spec

/-- Length of the data of a positive reply to the command with instruction `ins` and `p1`. -/
def DocLength (env : Env) (ins p1 : UInt8) (n : Nat) : Prop :=
  ins = 0x01 ∧ n = env.appVersion.length ∨
  ins = 0x02 ∧ n = env.appName.length ∨
  ins = 0x10 ∧ n = 65 ∨
  ins = 0x11 ∧ (p1 = 1 ∧ n = 38 ∨ p1 = 2 ∧ n = 0) ∨
  ins = 0x20 ∧ (p1 = 1 ∧ n = 1 ∨ (p1 = 2 ∨ p1 = 3 ∨ p1 = 4) ∧ n ≤ 1 ∨
    p1 = 5 ∧ ∃ k ≤ 4, n = 59 + 40 * k) ∨
  ins = 0x21 ∧ (p1 = 1 ∧ n = 1 ∨ 0x10 ≤ p1 ∧ p1 ≤ 0x1A ∧ n = 0 ∨ p1 = 0x20 ∧ n = 56)

/-- The command that a reply answers: the one just received, or the one the user was asked about. -/
def answered (tr : List Obs) : Event → Option (UInt8 × UInt8)
  | .apdu _ ins p1 _ _ _ => some (ins, p1)
  | _ => (know tr).pending.map (fun a => (a.ins, a.p1))

/-- Commands received. -/
def commandCount (tr : List Obs) : Nat :=
  tr.countP (fun o => match o.event with | .apdu .. => true | _ => false)

/-- Replies sent. -/
def replyCount (tr : List Obs) : Nat :=
  tr.countP (fun o => match o.reply with | .sw .. => true | _ => false)

end Ergo.Spec
