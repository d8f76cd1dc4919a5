import Verif.Spec.MacFaults
/-!
# Working again

After failures of the operating system, calls that work.
-/
namespace Ergo.Spec

/-- Events handled one after the other, starting in the given state, with every call working; newest
observation first. -/
inductive Works (env : Env) (nanoS : Bool) (d0 : Device) : List Obs → Device → Prop
  | start : Works env nanoS d0 [] d0
  | step {l : List Obs} {d : Device} (e : Event) (h : Works env nanoS d0 l d)
      (hh : (d.stepF env (fun _ => true) nanoS e 0).1.2 ≠ .hang)
      (hu : (d.stepF env (fun _ => true) nanoS e 0).1.2 ≠ .ub) :
      Works env nanoS d0 (observeCalls env nanoS (fun _ => true) d e :: l)
        (d.stepF env (fun _ => true) nanoS e 0).1.1

/-- Events, each with what a failing authentication function leaves and with the calls that work. -/
abbrev Trouble := List (Event × Option Bytes × (Nat → Bool))

/-- The device after such events. -/
def trouble (env : Env) (nanoS : Bool) : Device → Trouble → Device
  | d, [] => d
  | d, (e, g, ok) :: es => trouble env nanoS (d.stepF (garbled env g) ok nanoS e 0).1.1 es

end Ergo.Spec
