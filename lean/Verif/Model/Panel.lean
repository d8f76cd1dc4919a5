import Verif.Model.Run
/-!
# The array of screens, and the main menu

src/ui/ui_main.{h,c}, ui_approve_reject.c, ui_dynamic_flow.c:88-109, ui_menu.c and the functions that
fill `G_ux_flow_steps` for each question (epk_ui.c, da_ui.c, ainpt_ui.c, stx_ui.c, stx_op_p2pk.c).

`Model/Device` takes the steps of a question as a list.  Here they are written one by one into the
global array that the SDK reads, together with the steps of the main menu, which are in the same array.

Every question ends with
`ui_approve_reject_screens(cb, ctx, ui_next_sreen_ptr(&screen), ui_next_sreen_ptr(&screen))`.  The two
calls that advance `screen` are arguments of one call, and C does not say which is evaluated first.
The parameter `order` is `true` when it is the third argument.

Not modelled: the drawing of a step by the SDK, and `ux_stack_push` in `ui_menu_main`.
-/
namespace Ergo

/-- `SW_SCREENS_BUFFER_OVERFLOW`, sw.h:40. -/
def Sw.screensBufferOverflow : UInt16 := 0xB004

/-- An entry of `G_ux_flow_steps`, ui_main.h:11, ui_main.c: not yet written, a step of a question, one
of the steps of the menus (ui_menu.c:25-27, 43-45), `FLOW_LOOP`, `FLOW_END_STEP`. -/
inductive Slot where
  | unset
  | step (s : FlowStep)
  | ready | about | quit
  | info | version | back
  | loop | stop
  deriving DecidableEq, Repr

/-- `MAX_NUMBER_OF_SCREENS`, constants.h:86.  The array has one entry more. -/
def maxScreens : Nat := 8

/-- The array and the position `screen` of the function that fills it. -/
structure Screens where
  slots : List Slot
  pos : Nat
  deriving DecidableEq, Repr

/-- A write to the array; `none` when out of bounds. -/
def Screens.store (x : Screens) (i : Nat) (s : Slot) : Option Screens :=
  if i < x.slots.length then some { x with slots := x.slots.set i s } else none

/-- `ui_add_screen`, ui_main.h:18-22.  No caller looks at its result. -/
def Screens.add (x : Screens) (s : Slot) : Option Screens :=
  if x.pos ≥ maxScreens then some x
  else (x.store x.pos s).map (fun y => { y with pos := x.pos + 1 })

/-- `ui_next_sreen_ptr`, ui_main.h:13-16: an index, or `NULL`. -/
def Screens.next (x : Screens) : Screens × Option Nat :=
  if x.pos ≥ maxScreens then (x, none) else ({ x with pos := x.pos + 1 }, some x.pos)

/-- A call of `ui_approve_reject_screens`, ui_approve_reject.c:24-32, with the evaluation of its
arguments; `none` when a pointer is `NULL`. -/
def Screens.approveReject (order : Bool) (x : Screens) : Option Screens :=
  match x.next.2, x.next.1.next.2 with
  | some p, some q =>
    (x.next.1.next.1.store (if order then p else q) (.step .approve)).bind
      (fun y => y.store (if order then q else p) (.step .reject))
  | _, _ => none

/-- `ui_display_screens`, ui_main.h:24-35; `false`: nothing was displayed. -/
def Screens.display (x : Screens) : Option (Screens × Bool) :=
  if x.pos + 2 > maxScreens then some (x, false)
  else
    ((x.store x.pos .loop).bind (fun y => y.store (x.pos + 1) .stop)).map
      (fun y => ({ y with pos := x.pos + 2 }, true))

/-- `ui_add_dynamic_flow_screens`, ui_dynamic_flow.c:88-109; `false`: refused. -/
def Screens.addDynamic (x : Screens) (count : UInt8) : Option (Screens × Bool) :=
  if x.pos + 3 > maxScreens then some (x, false)
  else if count = 0 ∨ count = 0xFF then some (x, false)
  else
    (((x.add (.step .upper)).bind (fun y => y.add (.step .dyn))).bind
      (fun y => y.add (.step .lower))).map (fun y => (y, true))

/-- What became of a question: none was put, it is on display with so many dynamic screens, the
handler gives up with `SW_SCREENS_BUFFER_OVERFLOW`, the handler believes that it is on display
although it is not, a pointer or index is wrong. -/
inductive Outcome where
  | none
  | shown (count : Nat)
  | overflow
  | lost
  | ub
  deriving DecidableEq, Repr

/-- The array after a command and what became of the question. -/
structure Painted where
  slots : List Slot
  out : Outcome
  deriving DecidableEq, Repr

/-- Approve, Reject and display, as at the end of `ui_display_account`, `ui_display_address` and
`ui_display_access_token`, which do not look at the result of `ui_display_screens`. -/
def Screens.finish (order : Bool) (x : Screens) : Painted :=
  match x.approveReject order with
  | none => ⟨x.slots, .ub⟩
  | some y =>
    match y.display with
    | none => ⟨y.slots, .ub⟩
    | some (z, true) => ⟨z.slots, .shown 0⟩
    | some (z, false) => ⟨z.slots, .lost⟩

/-- The same in the signing functions, which do look at it (stx_op_p2pk.c:356-358, 375-377,
443-445). -/
def Screens.finishSign (order : Bool) (x : Screens) (count : Nat) : Painted :=
  match x.approveReject order with
  | none => ⟨x.slots, .ub⟩
  | some y =>
    match y.display with
    | none => ⟨y.slots, .ub⟩
    | some (z, true) => ⟨z.slots, .shown count⟩
    | some (z, false) => ⟨z.slots, .overflow⟩

/-- The application screen when there is a token (epk_ui.c:71-73, da_ui.c:105-107, ainpt_ui.c:40-42). -/
def Screens.addApp (x : Screens) (token : UInt32) : Option Screens :=
  if token ≠ 0 then x.add (.step (appIdPage token)) else some x

/-- `ui_display_account`, epk_ui.c:54-87, after the check of the path. -/
def paintAccount (order : Bool) (path : List UInt32) (token : UInt32) (a : List Slot) : Painted :=
  match Screens.add ⟨a, 0⟩ (.step (.info ⟨.extPubKeyExport, .nothing⟩)) with
  | none => ⟨a, .ub⟩
  | some x =>
    match pathFormat path bip32StrLen with
    | none => ⟨x.slots, .none⟩
    | some t =>
      match (x.add (.step (.info ⟨.path, .text t⟩))).bind (fun y => y.addApp token) with
      | none => ⟨x.slots, .ub⟩
      | some z => z.finish order

/-- `ui_display_address`, da_ui.c:58-119. -/
def paintAddress (order send : Bool) (token : UInt32) (path : List UInt32) (raw : Bytes)
    (a : List Slot) : Painted :=
  if ¬ pathValidate path .addressGe5 then ⟨a, .none⟩
  else
    match Screens.add ⟨a, 0⟩
        (.step (.info ⟨if send then .confirmSendAddress else .confirmAddress, .nothing⟩)) with
    | none => ⟨a, .ub⟩
    | some x =>
      match pathFormat path bip32StrLen with
      | none => ⟨x.slots, .none⟩
      | some t =>
        match x.add (.step (.info ⟨.path, .text t⟩)) with
        | none => ⟨x.slots, .ub⟩
        | some y =>
          if send then
            match y.addApp token with
            | none => ⟨y.slots, .ub⟩
            | some z => z.finish order
          else
            match base58Encode raw addressStrLen with
            | none => ⟨y.slots, .none⟩
            | some s =>
              if s.length ≥ addressStrLen then ⟨y.slots, .none⟩
              else
                match (y.add (.step (.info ⟨.address, .text s⟩))).bind (fun w => w.addApp token) with
                | none => ⟨y.slots, .ub⟩
                | some z => z.finish order

/-- `ui_display_access_token`, ainpt_ui.c:34-51. -/
def paintAttest (order : Bool) (token : UInt32) (a : List Slot) : Painted :=
  match (Screens.add ⟨a, 0⟩ (.step (.info ⟨.confirmAttest, .nothing⟩))).bind
      (fun y => y.addApp token) with
  | none => ⟨a, .ub⟩
  | some z => z.finish order

/-- `ui_stx_operation_p2pk_show_token_and_path`, stx_op_p2pk.c:331-360, with
`ui_stx_add_operation_approve_screens`, stx_ui.c:91-111. -/
def paintSignInit (order known : Bool) (path : List UInt32) (token : UInt32) (a : List Slot) :
    Painted :=
  match pathFormat path bip32StrLen with
  | none => ⟨a, .none⟩
  | some t =>
    match Screens.add ⟨a, 0⟩ (.step (.pathApprove ⟨.p2pkSigning, .text t⟩)) with
    | none => ⟨a, .ub⟩
    | some x =>
      if x.pos + 3 > maxScreens then ⟨x.slots, .overflow⟩
      else
        match (if known then some x else x.add (.step (appIdPage token))) with
        | none => ⟨x.slots, .ub⟩
        | some z => z.finishSign order 0

/-- `ui_stx_add_output_screens`, stx_ui.c:243-281, and `ui_stx_add_transaction_screens`,
stx_ui.c:364-401: a first screen, the dynamic screens, Approve and Reject. -/
def paintDynamic (order : Bool) (intro : Page) (count : UInt8) (a : List Slot) : Painted :=
  if 0 + 6 > maxScreens then ⟨a, .overflow⟩
  else match Screens.add ⟨a, 0⟩ (.step (.info intro)) with
  | none => ⟨a, .ub⟩
  | some x =>
    match x.addDynamic count with
    | none => ⟨x.slots, .ub⟩
    | some (y, false) => ⟨y.slots, .overflow⟩
    | some (y, true) =>
      if y.pos + 2 > maxScreens then ⟨y.slots, .overflow⟩ else y.finishSign order count.toNat

/-- The array after `show_output_screen_if_needed`, stx_handler.c:49-59. -/
def paintOutput (order : Bool) (a : List Slot) : OpRes → Painted
  | .err _ => ⟨a, .none⟩
  | .ub => ⟨a, .none⟩
  | .ok p =>
    match p.shouldShow, p.u with
    | some true, .transaction t =>
      match t.out with
      | some o =>
        paintDynamic order ⟨.confirmOutput, .nothing⟩
          (if o.type ≠ .bip32 then 1 + (1 + 2 * UInt8.ofNat o.usedCount) else 1) a
      | none => ⟨a, .none⟩
    | _, _ => ⟨a, .none⟩

/-! ## What each command does to the array -/

/-- `handler_get_extended_public_key`, epk_handler.c:29-73. -/
def Device.paintExtPubKey (order : Bool) (env : Env) (d : Device) (data : Bytes) (hasToken : Bool)
    (a : List Slot) : Painted :=
  if d.busy then ⟨a, .none⟩
  else
    match parsePathToken data hasToken with
    | .error _ => ⟨a, .none⟩
    | .ok (path, token) =>
      if ¬ pathValidate path .accountGe3 then ⟨a, .none⟩
      else
        match env.genPublic path with
        | none => ⟨a, .none⟩
        | some _ => if isKnown token d.connectedApp then ⟨a, .none⟩ else paintAccount order path token a

/-- `handler_derive_address`, da_handler.c:30-79. -/
def Device.paintDerive (order : Bool) (env : Env) (d : Device) (data : Bytes) (disp hasToken : Bool)
    (a : List Slot) : Painted :=
  if d.busy then ⟨a, .none⟩
  else
    match bufU8 data with
    | none => ⟨a, .none⟩
    | some (network, data) =>
      match parsePathToken data hasToken with
      | .error _ => ⟨a, .none⟩
      | .ok (path, token) =>
        if ¬ pathValidate path .addressGe5 then ⟨a, .none⟩
        else
          match env.genPublic path with
          | none => ⟨a, .none⟩
          | some (pub, _) =>
            match addressFromPubkey env network pub with
            | none => ⟨a, .none⟩
            | some raw =>
              if ¬ disp ∧ isKnown token d.connectedApp then ⟨a, .none⟩
              else paintAddress order (!disp) token path raw a

/-- `handler_attest_input`, ainpt_handler.c:147-181, with `handle_init`, 71-117. -/
def Device.paintAttestInput (order : Bool) (d : Device) (sub p2 : UInt8) (data : Bytes) (rnd : Rnd)
    (a : List Slot) : Painted :=
  if d.busy then ⟨a, .none⟩
  else if sub = 0x01 then
    if p2 ≠ 0x01 ∧ p2 ≠ 0x02 then ⟨a, .none⟩
    else
      match attestInit data (p2 = 0x02) 0 with
      | .error _ => ⟨a, .none⟩
      | .ok x =>
        match newSession 0 rnd.u8s with
        | none => ⟨a, .none⟩
        | some _ => if isKnown d.connectedApp x.token then ⟨a, .none⟩ else paintAttest order x.token a
  else ⟨a, .none⟩

/-- `handler_sign_transaction`, stx_handler.c:277-343, with `handle_init_p2pk`, 61-89. -/
def Device.paintSign (order : Bool) (env : Env) (d : Device) (sub p2 : UInt8) (data : Bytes)
    (rnd : Rnd) (a : List Slot) : Painted :=
  if d.busy then ⟨a, .none⟩
  else if sub = 0x01 then
    if p2 ≠ 0x01 ∧ p2 ≠ 0x02 then ⟨a, .none⟩
    else
      match parseSignInit data (p2 = 0x02) with
      | .error _ => ⟨a, .none⟩
      | .ok (network, path, token) =>
        match p2pkInit env path network rnd.keys with
        | .err _ => ⟨a, .none⟩
        | .ub => ⟨a, .none⟩
        | .ok _ =>
          match newSession 0 rnd.u8s with
          | none => ⟨a, .none⟩
          | some _ => paintSignInit order (isKnown d.connectedApp token) path token a
  else if (0x10 ≤ sub ∧ sub ≤ 0x1A) ∨ sub = 0x20 then
    if d.command ≠ .signTransaction then ⟨a, .none⟩
    else
      match d.ctx with
      | .sign x =>
        if p2 ≠ x.session then ⟨a, .none⟩
        else if ¬ x.approved then ⟨a, .none⟩
        else if sub = 0x10 ∨ sub = 0x11 ∨ sub = 0x12 ∨ sub = 0x13 ∨ sub = 0x14 ∨ sub = 0x15 then
          ⟨a, .none⟩
        else if sub = 0x16 then paintOutput order a (x.p.addOutputTree env data)
        else if sub = 0x17 then paintOutput order a (opFee env x.p data)
        else if sub = 0x18 then paintOutput order a (opChange env x.p data)
        else if sub = 0x19 then paintOutput order a (x.p.addOutputTokens env data)
        else if sub = 0x1A then paintOutput order a (x.p.addOutputRegisters env data)
        else if x.p.state ≠ .txFinished then ⟨a, .none⟩
        else
          paintDynamic order ⟨.approveSigning, .nothing⟩
            (1 + 2 + 2 * UInt8.ofNat x.p.amounts.nonZeroCount) a
      | _ => ⟨a, .none⟩
  else ⟨a, .none⟩

/-- `apdu_dispatcher`, apdu_dispatcher.c:16-58. -/
def Device.paint (order : Bool) (env : Env) (d : Device) (cla ins p1 p2 : UInt8) (data : Bytes)
    (rnd : Rnd) (a : List Slot) : Painted :=
  if data.length > 255 then ⟨a, .none⟩
  else if cla ≠ 0xE0 then ⟨a, .none⟩
  else if ins = 0x10 then
    if p1 = 0 ∨ p1 > 2 ∨ p2 > 0 then ⟨a, .none⟩ else d.paintExtPubKey order env data (p1 = 2) a
  else if ins = 0x11 then
    if p1 = 0 ∨ p1 > 2 ∨ p2 = 0 ∨ p2 > 2 then ⟨a, .none⟩
    else d.paintDerive order env data (p1 = 2) (p2 = 2) a
  else if ins = 0x20 then
    if p1 = 0 ∨ p2 = 0 then ⟨a, .none⟩ else d.paintAttestInput order p1 p2 data rnd a
  else if ins = 0x21 then
    if p1 = 0 ∨ p2 = 0 then ⟨a, .none⟩ else d.paintSign order env p1 p2 data rnd a
  else ⟨a, .none⟩

/-! ## The main menu -/

/-- The three steps of a menu written to the array and displayed, ui_menu.c:29-41, 47-55. -/
def paintMenu (s t u : Slot) (a : List Slot) : Option (List Slot) :=
  match ((Screens.add ⟨a, 0⟩ s).bind (fun x => x.add t)).bind (fun x => x.add u) with
  | none => none
  | some x => x.display.map (·.1.slots)

/-- `ui_menu_main`, ui_menu.c:29-41. -/
def paintMain : List Slot → Option (List Slot) := paintMenu .ready .about .quit
/-- `ui_menu_about`, ui_menu.c:47-55. -/
def paintAbout : List Slot → Option (List Slot) := paintMenu .info .version .back

/-! ## The device with its array -/

/-- What `ux_flow_init` takes for the flow: the entries before the loop or end marker (SDK). -/
def flowOf (a : List Slot) : List Slot := a.takeWhile (fun s => s != .loop && s != .stop)

/-- A step of a question; other entries do not occur in questions. -/
def Slot.step? : Slot → Option FlowStep
  | .step s => some s
  | _ => none

/-- The device, the array of screens, the position in the menu, and whether the application was left
(`os_sched_exit`). -/
structure Panel where
  dev : Device
  slots : List Slot
  menu : Nat
  off : Bool
  deriving DecidableEq, Repr

/-- Power-on: `app_init` and `ui_menu_main`, app_main.c:36-50.  The array is zero before. -/
def Panel.boot (key : Bytes) : Panel :=
  ⟨.boot key, (paintMain (List.replicate (maxScreens + 1) .unset)).getD [], 0, false⟩

/-- A command. -/
def Panel.command (order : Bool) (env : Env) (nanoS : Bool) (p : Panel) (cla ins p1 p2 : UInt8)
    (data : Bytes) (rnd : Rnd) : Panel × Reply :=
  let r := p.dev.step env nanoS (.apdu cla ins p1 p2 data rnd)
  let w := p.dev.paint order env cla ins p1 p2 data rnd p.slots
  match w.out with
  | .none => ({ p with dev := r.1, slots := w.slots }, r.2)
  | .shown count =>
    ({ p with
        dev := { r.1 with
          screen := r.1.screen.map (fun s =>
            { s with flow := ⟨(flowOf w.slots).filterMap Slot.step?, 0, count, none⟩ }) }
        slots := w.slots }, r.2)
  | .overflow =>
    ({ p with dev := p.dev.setCommand .none, slots := w.slots }, status Sw.screensBufferOverflow)
  | .lost => ({ p with slots := w.slots }, .hang)
  | .ub => (p, .ub)

/-- A button while a question is on display.  When the question is answered, or a screen cannot be
drawn, `ui_menu_main` is called. -/
def Panel.press (env : Env) (nanoS : Bool) (p : Panel) (e : Event) : Panel × Reply :=
  let r := p.dev.step env nanoS e
  match r.1.screen with
  | some _ => ({ p with dev := r.1 }, r.2)
  | none =>
    match paintMain p.slots with
    | some a => ({ p with dev := r.1, slots := a, menu := 0 }, r.2)
    | none => (p, .ub)

/-- A button in the menu: the neighbouring step of the loop, or the callback of the step. -/
def Panel.browse (p : Panel) : Event → Panel × Reply
  | .left =>
    ({ p with menu := if p.menu = 0 then (flowOf p.slots).length - 1 else p.menu - 1 }, .wait)
  | .right =>
    ({ p with menu := if p.menu + 1 < (flowOf p.slots).length then p.menu + 1 else 0 }, .wait)
  | .both =>
    match p.slots.getD p.menu .unset with
    | .about =>
      match paintAbout p.slots with
      | some a => ({ p with slots := a, menu := 0 }, .wait)
      | none => (p, .ub)
    | .back =>
      match paintMain p.slots with
      | some a => ({ p with slots := a, menu := 0 }, .wait)
      | none => (p, .ub)
    | .quit => ({ p with off := true }, .wait)
    | _ => (p, .wait)
  | _ => (p, .wait)

/-- One event; nothing happens any more when the application was left. -/
def Panel.step (order : Bool) (env : Env) (nanoS : Bool) (p : Panel) (e : Event) : Panel × Reply :=
  if p.off then (p, .wait)
  else
    match e with
    | .apdu cla ins p1 p2 data rnd => p.command order env nanoS cla ins p1 p2 data rnd
    | _ => if p.dev.screen.isSome then p.press env nanoS e else p.browse e

/-- Execution of a list of events: final state and all replies. -/
def Panel.run (order : Bool) (env : Env) (nanoS : Bool) : Panel → List Event → Panel × List Reply
  | p, [] => (p, [])
  | p, e :: es =>
    let r := p.step order env nanoS e
    let q := Panel.run order env nanoS r.1 es
    (q.1, r.2 :: q.2)

/-- The step of the menu on display. -/
def Panel.menuStep (p : Panel) : Option Slot :=
  if p.dev.screen.isSome ∨ p.off then none else p.slots[p.menu]?

end Ergo
