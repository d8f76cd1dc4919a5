import Verif.Model.Device
/-!
# Executions and what can be seen of them

An execution is a power cycle: `app_init` (context.c:11-20), then events handled one after the other
by the main loop (src/app_main.c:36-80).  It ends when the random generator never gives a usable session id
(`hang`) or when the C program would be undefined (`ub`).
-/
namespace Ergo

/-- First page of a step list. -/
def FlowStep.page? : FlowStep → Option Page
  | .info p => some p
  | .pathApprove p => some p
  | _ => none

/-- What the flow on display asks for: the title of its first page (`none`: main menu). -/
def Device.asks (d : Device) : Option Title :=
  match d.screen with
  | none => none
  | some s => (s.flow.steps.head?.bind FlowStep.page?).map (·.title)

/-- The step on display. -/
def Device.here (d : Device) : Option FlowStep := d.screen.map (·.flow.here)

/-- One step as seen from outside: what was asked and on display, what happened, what was replied. -/
structure Obs where
  asked : Option Title
  here : Option FlowStep
  event : Event
  reply : Reply

/-- The observation of an event. -/
def Device.observe (env : Env) (nanoS : Bool) (d : Device) (e : Event) : Obs :=
  ⟨d.asks, d.here, e, (d.step env nanoS e).2⟩

/-- Executions: observations (newest first) and the device reached. -/
inductive Runs (env : Env) (nanoS : Bool) (key : Bytes) : List Obs → Device → Prop
  | boot : Runs env nanoS key [] (.boot key)
  | step {tr : List Obs} {d : Device} (e : Event) (h : Runs env nanoS key tr d)
      (hh : (d.step env nanoS e).2 ≠ .hang) (hu : (d.step env nanoS e).2 ≠ .ub) :
      Runs env nanoS key (d.observe env nanoS e :: tr) (d.step env nanoS e).1

end Ergo
