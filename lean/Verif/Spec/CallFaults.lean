import Verif.Spec.Faults
import Verif.Model.Failing
/-!
# Executions in which any call of the operating system may fail

For every event, `ok` says which of the calls made by the code work, in the order of the code; it is
another function for every event.
-/
namespace Ergo.Spec

/-- The observation of one event with failing calls. -/
def observeCalls (env : Env) (nanoS : Bool) (ok : Nat → Bool) (d : Device) (e : Event) : Obs :=
  ⟨d.asks, d.here, e, (d.stepF env ok nanoS e 0).1.2⟩

/-- Executions with failing calls. -/
inductive CallRuns (env : Env) (nanoS : Bool) (key : Bytes) : List Obs → Device → Prop
  | boot : CallRuns env nanoS key [] (.boot key)
  | step {tr : List Obs} {d : Device} (ok : Nat → Bool) (e : Event) (h : CallRuns env nanoS key tr d)
      (hh : (d.stepF env ok nanoS e 0).1.2 ≠ .hang) (hu : (d.stepF env ok nanoS e 0).1.2 ≠ .ub) :
      CallRuns env nanoS key (observeCalls env nanoS ok d e :: tr) (d.stepF env ok nanoS e 0).1.1

/-- The same event, except that a draw of a 32-byte number which is not the first one may be the one
that is used. -/
def SameUpToDraw (e e' : Event) : Prop :=
  e' = e ∨ ∃ cla ins p1 p2 data rnd i, e = .apdu cla ins p1 p2 data rnd ∧
    e' = .apdu cla ins p1 p2 data { rnd with keys := fun _ => rnd.keys i }

/-- The same observation, up to the draws. -/
def AlikeUpToDraw (o o' : Obs) : Prop :=
  o'.asked = o.asked ∧ o'.here = o.here ∧ o'.reply = o.reply ∧ SameUpToDraw o.event o'.event

end Ergo.Spec
