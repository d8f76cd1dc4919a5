import Verif.Spec.Truthful
import Verif.Spec.Authentic
/-!
# Many power cycles

Whoever has the device may also switch it off and on.  A new session key is drawn at every start (`app_init`,
context.c:11-20), so the tags of every power cycle are drawn anew.
-/
namespace Ergo.Spec

/-- The next event for all earlier power cycles (newest first) and everything seen in this one; `none`: the device is
switched off. -/
abbrev Play : Type := List (List Obs) → List Obs → Option Event

/-- What is seen in one power cycle. -/
def Plays (σ : List Obs → Option Event) : List Obs → Prop
  | [] => True
  | o :: tr => σ tr = some o.event ∧ Plays σ tr

/-- The power cycle is over: the device is switched off, or it does not come back from an event. -/
def CycleEnds (env : Env) (nanoS : Bool) (σ : List Obs → Option Event) (tr : List Obs) (d : Device) : Prop :=
  σ tr = none ∨ ∃ e, σ tr = some e ∧ ((d.step env nanoS e).2 = .hang ∨ (d.step env nanoS e).2 = .ub)

/-- In one of the next `k` power cycles something happens, before more than `r` further frames are presented.
`F i` are the tags of power cycle `i`, `keys i` is the session key of the `i`-th power cycle since the first. -/
def InSomeCycle (happens : Env → Bytes → List Obs → Device → Prop) (env : Env) (nanoS : Bool) (keys : Nat → Bytes)
    (σ : Play) {B : Finset Bytes} : (k : Nat) → List (List Obs) → Nat → (Fin k → B → Tag) → Prop
  | 0, _, _, _ => False
  | k + 1, hs, r, F =>
    let key := keys hs.length
    let world := withTags env key (F 0)
    (∃ tr d, Runs world nanoS key tr d ∧ Plays (σ hs) tr ∧ framesIn tr ≤ r ∧ happens world key tr d) ∨
    ∃ tr d, Runs world nanoS key tr d ∧ Plays (σ hs) tr ∧ framesIn tr ≤ r ∧ CycleEnds world nanoS (σ hs) tr d ∧
      InSomeCycle happens env nanoS keys σ k (tr :: hs) (r - framesIn tr) (fun i => F i.succ)

/-- The probability of an event when the tags of all bodies are drawn independently and uniformly for each of `k` power
cycles. -/
noncomputable def chances (k : Nat) (P : (Fin k → allBodies → Tag) → Prop) : ℚ :=
  ({F | P F}.ncard : ℚ) / (Nat.card (Fin k → allBodies → Tag) : ℚ)

/-- A frame is accepted that the device has not sent in this power cycle. -/
def AcceptsForged (_ : Env) (_ : Bytes) (tr : List Obs) (_ : Device) : Prop :=
  ∃ m, BeforeSent m tr (FrameAccepted m)

/-- A frame with a right tag is presented that the device has not sent in this power cycle. -/
def PresentsForged (env : Env) (key : Bytes) (tr : List Obs) (_ : Device) : Prop :=
  ¬ Unforged env key tr

/-- A signature is released for a transaction that does not spend boxes attested in this power cycle, though attested
boxes with the same id have the same tokens. -/
def SignsUnattested (nanoS : Bool) (env : Env) (_ : Bytes) (tr : List Obs) (d : Device) : Prop :=
  ∃ e out, (d.step env nanoS e).2 = .sw 0x9000 out ∧ out.length = 56 ∧ IdsDistinct env tr ∧ ¬ SpendsAttested env tr out

end Ergo.Spec
