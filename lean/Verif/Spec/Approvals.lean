import Verif.Spec.Lives
/-!
# What a guess costs

The user approves every signing session, and a frame with a wrong tag ends the session.
-/
namespace Ergo.Spec

/-- The user approves signing with a key: a signing session begins. -/
def approvesSigning (o : Obs) : Bool :=
  match o.event, o.asked, o.reply with
  | .both, some .p2pkSigning, .sw code _ => code = 0x9000
  | _, _, _ => false

/-- How often the user approved that. -/
def approvalsIn (tr : List Obs) : Nat := (tr.filter approvesSigning).length

/-- A presented frame is refused for its tag. -/
def tagRefused (o : Obs) : Bool :=
  match o.reply with
  | .sw code _ => isFrame o && code = 0xE018
  | _ => false

/-- How many frames were refused for their tags. -/
def refusedIn (tr : List Obs) : Nat := (tr.filter tagRefused).length

/-- A presented frame is accepted. -/
def tagAccepted (o : Obs) : Bool :=
  match o.reply with
  | .sw code _ => isFrame o && code = 0x9000
  | _ => false

/-- In one of the next `k` power cycles something happens, before the user approves more than `a` further signing
sessions.  `F i` are the tags of power cycle `i`, `keys i` is the session key of the `i`-th power cycle since the first.
Everything else - commands, their number, rejections, other approvals - is not limited. -/
def WithApprovals (happens : Env → Bytes → List Obs → Device → Prop) (env : Env) (nanoS : Bool) (keys : Nat → Bytes)
    (σ : Play) {B : Finset Bytes} : (k : Nat) → List (List Obs) → Nat → (Fin k → B → Tag) → Prop
  | 0, _, _, _ => False
  | k + 1, hs, a, F =>
    let key := keys hs.length
    let world := withTags env key (F 0)
    (∃ tr d, Runs world nanoS key tr d ∧ Plays (σ hs) tr ∧ approvalsIn tr ≤ a ∧ happens world key tr d) ∨
    ∃ tr d, Runs world nanoS key tr d ∧ Plays (σ hs) tr ∧ approvalsIn tr ≤ a ∧ CycleEnds world nanoS (σ hs) tr d ∧
      WithApprovals happens env nanoS keys σ k (tr :: hs) (a - approvalsIn tr) (fun i => F i.succ)

end Ergo.Spec
