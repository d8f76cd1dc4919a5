import Verif.Model.Draw
import Verif.Model.Device
/-!
# Drawing of the dynamic screens by the device
-/
namespace Ergo

/-- The screen callback (`show_cb`) of the dynamic flow on display, with the two arrays that it
fills, ui_dynamic_flow.c:32-45, stx_ui.c:261-280 and 364-400. -/
def Device.draw (env : Env) (nanoS : Bool) (d : Device) (cb : Callback) (k : Nat) : Option Drawn :=
  match cb, d.ctx with
  | .signOutput, .sign x =>
    match x.p.u with
    | .transaction t =>
      match t.out with
      | some o => drawOutput env nanoS o x.p.amounts.table x.p.network k
      | none => none
    | _ => none
  | .signTx, .sign x =>
    match x.p.u with
    | .uiConfirm => drawTx nanoS x.p.path x.p.amounts k
    | _ => none
  | _, _ => none

/-- What the callback leaves in the arrays, for every dynamic screen of the flow on display. -/
def Device.dynDrawn (env : Env) (nanoS : Bool) (d : Device) : List (Option Drawn) :=
  match d.screen with
  | none => []
  | some s => (List.range s.flow.count).map (d.draw env nanoS s.cb)

end Ergo
