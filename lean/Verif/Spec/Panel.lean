import Verif.Model.Panel
/-!
# What a user and a host notice of an execution, whichever answer comes first

A question ends with the two answers Approve and Reject.  Which of them comes first changes how often a
button has to be pressed to get somewhere, but not what can be told to the device and what it tells.
-/
namespace Ergo.Spec

/-- Something noticed: a command and its reply, with the question on display at that time; the reply to
an answer, with the question and what was answered; the reply given when a page could not be drawn; a page
that was displayed. -/
inductive Heard where
  | told (asked : Option Title) (e : Event) (r : Reply)
  | answered (asked : Option Title) (here : Option FlowStep) (r : Reply)
  | failed (asked : Option Title) (r : Reply)
  | saw (p : Page)

/-- The page displayed after an event that was not replied to. -/
def seenAfter (env : Env) (nanoS : Bool) (d : Device) : Reply → List Heard
  | .wait => ((d.page env nanoS).map Heard.saw).toList
  | _ => []

/-- What is noticed of an event leading from `d` to `d'` with reply `r`.  A button press that is not
replied to is noticed by the page it leads to, if any: Approve, Reject and the main menu are no pages. -/
def heard (env : Env) (nanoS : Bool) (d : Device) (e : Event) (d' : Device) (r : Reply) : List Heard :=
  match e, r with
  | .apdu .., _ => .told d.asks e r :: seenAfter env nanoS d' r
  | _, .wait => seenAfter env nanoS d' .wait
  | .both, _ => [.answered d.asks d.here r]
  | _, _ => [.failed d.asks r]

end Ergo.Spec

namespace Ergo
open Spec

/-- All that is noticed of the events on a device. -/
def Device.tell (env : Env) (nanoS : Bool) : Device → List Event → List Heard
  | _, [] => []
  | d, e :: es =>
    heard env nanoS d e (d.step env nanoS e).1 (d.step env nanoS e).2 ++
      Device.tell env nanoS (d.step env nanoS e).1 es

/-- All that is noticed of the events on a device with its array of screens; nothing once the
application was left. -/
def Panel.tell (order : Bool) (env : Env) (nanoS : Bool) : Panel → List Event → List Heard
  | _, [] => []
  | p, e :: es =>
    (if p.off then []
      else heard env nanoS p.dev e (p.step order env nanoS e).1.dev (p.step order env nanoS e).2) ++
      Panel.tell order env nanoS (p.step order env nanoS e).1 es

/-- No event of the list hung the device or made it undefined. -/
def Fine (rs : List Reply) : Prop := ∀ r ∈ rs, r ≠ .hang ∧ r ≠ .ub

end Ergo
