import Verif.Model.Run
/-!
# The questions on display, as run by the flow engine of the SDK

`Model/Ui` moves in a list of steps and takes "both buttons" as a call of the callback of the step.  Here
the engine that does this is written out: `ux_flow_init`, `ux_flow_next`, `ux_flow_prev`,
`ux_flow_validate`, `ux_flow_relayout` (SDK, lib_ux/src/ux_flow_engine.c), with the code of /repo that
calls them: src/ui/ui_dynamic_flow.c:25-78, ui_bip32_path.c:8-27, ui_approve_reject.c:7-22.

The engine is not in /repo; it follows the published SDK.  Both buttons replace the flow on display by
the validation flow of the step, which has one step whose `init` is the callback.

Not modelled: `prev_index`, and the division of a long text into several screens (`bnnn_paging`), both
of which concern only the part of the text that is visible.
-/
namespace Ergo

/-- The validation flows, each of one step: Approve and Reject (`UX_STEP_CB`,
ui_approve_reject.c:7-22), and `ux_bip32_path_validate` (ui_bip32_path.c:17-20) with and without a
callback. -/
inductive Validation where
  | approve | reject | path | pathNoCallback
  deriving DecidableEq, Repr

/-- Entries of a flow before `FLOW_END_STEP`: steps, the step of a validation flow, `FLOW_LOOP`. -/
inductive UxStep where
  | screen (s : FlowStep)
  | check (v : Validation)
  | loop
  deriving DecidableEq, Repr

/-- `validate_flow` of a step.  `ux_bip32_path_step` (ui_bip32_path.c:22-27) is the page titled "Path"
(without callback: epk_ui.c:57-64, da_ui.c:79-86) and the page "P2PK Signing" (with a callback:
stx_op_p2pk.c:336-343).  The other pages (`UX_STEP_NOCB`, ux_dynamic_step, ux_app_token_step) and the
delimiters have none. -/
def FlowStep.validation : FlowStep → Option Validation
  | .approve => some .approve
  | .reject => some .reject
  | .pathApprove _ => some .path
  | .info ⟨.path, _⟩ => some .pathNoCallback
  | _ => none

/-- A slot of `G_ux.flow_stack` (`steps`, `length`, `index`) and `G_dynamic_flow_context`
(ui_dynamic_flow.c:12-20). -/
structure Engine where
  steps : List UxStep
  index : Nat
  count : Nat
  cur : Option Nat
  deriving DecidableEq, Repr

/-- What came of a button: a step is on display, the callback given to `ui_approve_reject_screens` was
called, drawing the dynamic screen failed, or the engine does not come to rest. -/
inductive Effect where
  | rest
  | answer (approved : Bool)
  | failed (screen : Nat)
  | ub
  deriving DecidableEq, Repr

/-- The step at the index. -/
def Engine.here (e : Engine) : UxStep := e.steps.getD e.index .loop

/-- The change of index in `ux_flow_next`; `none`: the last step is reached, nothing happens. -/
def Engine.after (e : Engine) : Option Engine :=
  if e.index + 1 ≥ e.steps.length then none
  else if e.steps[e.index + 1]? = some .loop then some { e with index := 0 }
  else some { e with index := e.index + 1 }

/-- The change of index in `ux_flow_prev`; `none`: the first step is reached, nothing happens. -/
def Engine.before (e : Engine) : Option Engine :=
  if e.index = 0 then
    if e.steps.getLast? = some .loop then some { e with index := e.steps.length - 2 } else none
  else some { e with index := e.index - 1 }

/-- The `init` function of the step at the index, which may move on.  The delimiters run
`ui_dynamic_step_left` (ui_dynamic_flow.c:63-78) and `ui_dynamic_step_right` (47-61), which draw the
screen (`DISPLAY_DYNAMIC_STATE`, 32-45; `ok k` says whether the callback succeeds) and call
`ux_flow_next` or `bnnn_paging_edgecase` (25-30: one step back, and `ux_flow_relayout`).  The first
argument bounds the number of steps passed over. -/
def Engine.enter (ok : Nat → Bool) : Nat → Engine → Engine × Effect
  | 0, e => (e, .ub)
  | n + 1, e =>
    let next (e : Engine) : Engine × Effect :=
      match e.after with
      | some e => e.enter ok n
      | none => (e, .rest)
    let edgecase (e : Engine) : Engine × Effect := { e with index := e.index - 1 }.enter ok n
    match e.here with
    | .screen .upper =>
      match e.cur with
      | none => if ok 0 then next { e with cur := some 0 } else (e, .failed 0)
      | some 0 => edgecase { e with cur := none }
      | some (k + 1) => if ok k then next { e with cur := some k } else (e, .failed k)
    | .screen .lower =>
      match e.cur with
      | none =>
        if ok (e.count - 1) then edgecase { e with cur := some (e.count - 1) }
        else (e, .failed (e.count - 1))
      | some k =>
        if k < e.count - 1 then
          if ok (k + 1) then edgecase { e with cur := some (k + 1) } else (e, .failed (k + 1))
        else next { e with cur := none }
    | .check .approve => (e, .answer true)
    | .check .reject => (e, .answer false)
    | .check .path => (e, .answer true)
    | .check .pathNoCallback => next e
    | _ => (e, .rest)

/-- Bound for `Engine.enter`; the proofs show that it is never reached. -/
def enterFuel : Nat := 3

/-- `ux_flow_init` with the entries before the end marker. -/
def Engine.init (ok : Nat → Bool) (steps : List UxStep) (count : Nat) (cur : Option Nat) :
    Engine × Effect :=
  Engine.enter ok enterFuel ⟨steps, 0, count, cur⟩

/-- Right button: `ux_flow_next`. -/
def Engine.next (ok : Nat → Bool) (e : Engine) : Engine × Effect :=
  match e.after with
  | some e => e.enter ok enterFuel
  | none => (e, .rest)

/-- Left button: `ux_flow_prev`. -/
def Engine.prev (ok : Nat → Bool) (e : Engine) : Engine × Effect :=
  match e.before with
  | some e => e.enter ok enterFuel
  | none => (e, .rest)

/-- Both buttons: `ux_flow_validate`, which starts the validation flow of the step in place of the flow
on display. -/
def Engine.validate (ok : Nat → Bool) (e : Engine) : Engine × Effect :=
  match e.here with
  | .screen s =>
    match s.validation with
    | some v => Engine.init ok [.check v] e.count e.cur
    | none => (e, .rest)
  | _ => (e, .rest)

/-- The flow that `ui_display_screens` (ui_main.h:24-35) hands to the engine: the steps and
`FLOW_LOOP`. -/
def Engine.ofFlow (f : Flow) : Engine := ⟨f.steps.map .screen ++ [.loop], f.idx, f.count, f.cur⟩

/-! ## The device with the engine -/

/-- The device and the engine; `none`: the main menu is on display.  Of `dev.screen` only the callback
is used, its position in the flow is that at the start. -/
structure Board where
  dev : Device
  eng : Option Engine
  deriving DecidableEq, Repr

/-- Power-on. -/
def Board.boot (key : Bytes) : Board := ⟨.boot key, none⟩

/-- A button, given what the engine makes of it. -/
def Board.after (env : Env) (nanoS : Bool) (b : Board) (cb : Callback) (r : Engine × Effect) :
    Board × Reply :=
  match r.2 with
  | .rest => (⟨b.dev, some r.1⟩, .wait)
  | .answer approved =>
    let q := b.dev.act env cb approved
    (⟨q.1, if q.1.screen.isSome then b.eng else none⟩, q.2)
  | .failed k =>
    match b.dev.show env nanoS cb k with
    | .err sw => (⟨(b.dev.setCommand .none).menu, none⟩, status sw)
    | _ => (b, .ub)
  | .ub => (b, .ub)

/-- Whether drawing the dynamic screen `k` succeeds. -/
def Board.draws (env : Env) (nanoS : Bool) (b : Board) (cb : Callback) (k : Nat) : Bool :=
  match b.dev.show env nanoS cb k with
  | .page _ => true
  | _ => false

/-- One event. -/
def Board.step (env : Env) (nanoS : Bool) (b : Board) (e : Event) : Board × Reply :=
  match e with
  | .apdu .. =>
    let r := b.dev.step env nanoS e
    (⟨r.1, match b.eng, r.1.screen with
      | some g, _ => some g
      | none, some s => some (Engine.init (fun _ => true) (Engine.ofFlow s.flow).steps s.flow.count none).1
      | none, none => none⟩, r.2)
  | .left =>
    match b.eng, b.dev.screen with
    | some g, some s => b.after env nanoS s.cb (g.prev (b.draws env nanoS s.cb))
    | _, _ => (b, .wait)
  | .right =>
    match b.eng, b.dev.screen with
    | some g, some s => b.after env nanoS s.cb (g.next (b.draws env nanoS s.cb))
    | _, _ => (b, .wait)
  | .both =>
    match b.eng, b.dev.screen with
    | some g, some s => b.after env nanoS s.cb (g.validate (b.draws env nanoS s.cb))
    | _, _ => (b, .wait)

/-- Execution of a list of events: final state and all replies. -/
def Board.run (env : Env) (nanoS : Bool) : Board → List Event → Board × List Reply
  | b, [] => (b, [])
  | b, e :: es =>
    let r := b.step env nanoS e
    let q := Board.run env nanoS r.1 es
    (q.1, r.2 :: q.2)

/-- The step on display. -/
def Board.here (b : Board) : Option UxStep := b.eng.map (·.here)

/-- One event as seen from outside: the step on display, what happened, what was replied. -/
structure BoardObs where
  here : Option UxStep
  event : Event
  reply : Reply

/-- Executions, as `Runs` in Model/Run: observations (newest first) and the state reached. -/
inductive BoardRuns (env : Env) (nanoS : Bool) (key : Bytes) : List BoardObs → Board → Prop
  | boot : BoardRuns env nanoS key [] (.boot key)
  | step {tr : List BoardObs} {b : Board} (e : Event) (h : BoardRuns env nanoS key tr b)
      (hh : (b.step env nanoS e).2 ≠ .hang) (hu : (b.step env nanoS e).2 ≠ .ub) :
      BoardRuns env nanoS key (⟨b.here, e, (b.step env nanoS e).2⟩ :: tr) (b.step env nanoS e).1

end Ergo
