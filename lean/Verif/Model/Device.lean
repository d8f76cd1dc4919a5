import Verif.Model.P2pk
import Verif.Model.Attest
/-!
# The whole application: context, command dispatcher, command handlers and buttons

src/context.{h,c}, src/apdu_dispatcher.c, src/commands/**.  One event is one APDU or one button
press; one reply is what is sent back to the host.  The command contexts share memory in C: here
the union is a sum type and reading another variant than the one written is `ub`.
-/
namespace Ergo

/-- `command_e` values stored in `current_command`, constants.h. -/
inductive Command where
  | none | extPubKey | deriveAddress | attestInput | signTransaction
  deriving DecidableEq, Repr

/-- `extended_public_key_ctx_t`, epk_context.h. -/
structure EpkCtx where
  pub : Bytes
  chain : Bytes
  token : UInt32
  deriving DecidableEq, Repr

/-- `derive_address_ctx_t`, da_context.h. -/
structure DaCtx where
  raw : Bytes
  token : UInt32
  send : Bool
  deriving DecidableEq, Repr

/-- `sign_transaction_ctx_t`, stx_context.h:9-16; `approved` is `state == APPROVED`. -/
structure SignCtx where
  approved : Bool
  session : UInt8
  p : P2pk
  deriving DecidableEq, Repr

/-- `commands_ctx`, context.h:17-22. -/
inductive Ctx where
  | zeroed
  | attest (x : AttestCtx)
  | sign (x : SignCtx)
  | derive (x : DaCtx)
  | extPub (x : EpkCtx)
  deriving DecidableEq, Repr

/-- Approve/reject callback installed with a flow (`G_ui_approve_reject_callback`). -/
inductive Callback where
  | extPubKey | deriveAddress | attest | signInit | signOutput | signTx
  deriving DecidableEq, Repr

/-- A flow on display. -/
structure Screen where
  flow : Flow
  cb : Callback
  deriving DecidableEq, Repr

/-- `app_ctx_t`, context.h:12-23, and the display (`none`: main menu). -/
structure Device where
  connectedApp : UInt32
  sessionKey : Bytes
  command : Command
  busy : Bool
  ctx : Ctx
  screen : Option Screen
  deriving DecidableEq, Repr

/-- Random values available to one command: `cx_rng_u8` draws, and 32-byte draws. -/
structure Rnd where
  u8s : List UInt8
  keys : Nat → Bytes

/-- One APDU, or a button press. -/
inductive Event where
  | apdu (cla ins p1 p2 : UInt8) (data : Bytes) (rnd : Rnd)
  | left
  | right
  | both

/-- What the host sees. `wait`: no reply (yet); `hang`: the random generator never gave a usable
session id. -/
inductive Reply where
  | wait
  | sw (code : UInt16) (data : Bytes)
  | hang
  | ub
  deriving DecidableEq, Repr

/-- `app_init`, context.c:11-20, and `ui_menu_main`. -/
def Device.boot (key : Bytes) : Device := ⟨0, key, .none, false, .zeroed, none⟩

/-- `app_set_current_command`, context.c:22-26. -/
def Device.setCommand (d : Device) (c : Command) : Device :=
  { d with command := c, busy := false, ctx := .zeroed }

/-- `res_error`, `res_ok`, `res_deny`: a status word. -/
def status (sw : UInt16) : Reply := .sw sw []

/-- The `handler_err` functions: wipe, then the status word. -/
def Device.abort (d : Device) (sw : UInt16) : Device × Reply := (d.setCommand .none, status sw)

/-- Ui display: `ui_display_screens`, ui_main.h:24-35. -/
def Device.display (d : Device) (f : Flow) (cb : Callback) : Device :=
  { d with screen := some ⟨f, cb⟩, busy := true }

/-- `ui_menu_main`, ui_menu.c. -/
def Device.menu (d : Device) : Device := { d with screen := none }

/-- `session_id_new_random`, session_id.h:8-14. -/
def newSession (old : UInt8) (draws : List UInt8) : Option UInt8 :=
  draws.find? (fun i => !(i == 0 || i == old))

/-- `is_known_application`, session_id.h:16-18. -/
def isKnown (saved app : UInt32) : Bool := saved ≠ 0 ∧ app ≠ 0 ∧ app = saved

/-- `ui_application_id_screen`, ui_application_id.c. -/
def appIdPage (token : UInt32) : FlowStep := .info ⟨.application, .appToken token⟩

/-! ## Extended public key -/

/-- `send_response_extended_pubkey`, epk_response.c:15-32: data of the reply. -/
def epkResponse (pub chain : Bytes) : Bytes := compress pub ++ chain

/-- Parameters `path len ‖ path [‖ token]`, epk_handler.c:41-46, da_handler.c:46-51. -/
def parsePathToken (d : Bytes) (hasToken : Bool) : Except UInt16 (List UInt32 × UInt32) :=
  match bufU8 d with
  | none => .error Sw.notEnoughData
  | some (len, d) =>
    match bufPath len.toNat d with
    | none => .error Sw.notEnoughData
    | some (path, d) =>
      match (if hasToken then bufU32 d else some (0, d)) with
      | none => .error Sw.notEnoughData
      | some (token, d) => if d ≠ [] then .error Sw.tooMuchData else .ok (path, token)

/-- `handler_get_extended_public_key` and `ui_display_account`, epk_handler.c:29-73,
epk_ui.c:40-87. -/
def Device.extPubKey (env : Env) (d : Device) (data : Bytes) (hasToken : Bool) :
    Device × Reply :=
  if d.busy then (d, status Sw.busy)
  else
    let d := d.setCommand .extPubKey
    match parsePathToken data hasToken with
    | .error e => d.abort e
    | .ok (path, token) =>
      if ¬ pathValidate path .accountGe3 then d.abort Sw.bip32BadPath
      else
        match env.genPublic path with
        | none => d.abort Sw.internalCryptoError
        | some (pub, chain) =>
          if isKnown token d.connectedApp then
            (d.setCommand .none, .sw Sw.ok (epkResponse pub chain))
          else
            match pathFormat path bip32StrLen with
            | none => d.abort Sw.bip32FormattingFailed
            | some t =>
              let d := { d with ctx := .extPub ⟨pub, chain, token⟩ }
              let steps : List FlowStep := [.info ⟨.extPubKeyExport, .nothing⟩, .info ⟨.path, .text t⟩] ++
                (if token ≠ 0 then [appIdPage token] else [])
              (d.display (.static steps) .extPubKey, .wait)

/-- `ui_action_get_extended_pubkey`, epk_ui.c:22-38. -/
def Device.actExtPubKey (d : Device) (x : EpkCtx) (approved : Bool) : Device × Reply :=
  if approved then
    ((({ d with connectedApp := x.token }).setCommand .none).menu,
      .sw Sw.ok (epkResponse x.pub x.chain))
  else ((d.setCommand .none).menu, status Sw.deny)

/-! ## Address derivation -/

/-- `P2PK_ADDRESS_STRING_MAX_LEN`, constants.h. -/
def addressStrLen : Nat := 55

/-- `ui_display_address`, da_ui.c:58-119. -/
def Device.showAddress (d : Device) (send : Bool) (token : UInt32) (path : List UInt32)
    (raw : Bytes) : Device × Reply :=
  if ¬ pathValidate path .addressGe5 then d.abort Sw.bip32BadPath
  else
    match pathFormat path bip32StrLen with
    | none => d.abort Sw.bip32FormattingFailed
    | some t =>
      let d := { d with ctx := .derive ⟨raw, token, send⟩ }
      let app : List FlowStep := if token ≠ 0 then [appIdPage token] else []
      if send then
        let steps : List FlowStep := [.info ⟨.confirmSendAddress, .nothing⟩, .info ⟨.path, .text t⟩] ++ app
        (d.display (.static steps) .deriveAddress, .wait)
      else
        match base58Encode raw addressStrLen with
        | none => d.abort Sw.addressFormattingFailed
        | some a =>
          if a.length ≥ addressStrLen then d.abort Sw.addressFormattingFailed
          else
            let steps : List FlowStep := [.info ⟨.confirmAddress, .nothing⟩, .info ⟨.path, .text t⟩,
              .info ⟨.address, .text a⟩] ++ app
            (d.display (.static steps) .deriveAddress, .wait)

/-- `handler_derive_address`, da_handler.c:30-79. -/
def Device.deriveAddress (env : Env) (d : Device) (data : Bytes) (disp hasToken : Bool) :
    Device × Reply :=
  if d.busy then (d, status Sw.busy)
  else
    let d := d.setCommand .deriveAddress
    match bufU8 data with
    | none => d.abort Sw.notEnoughData
    | some (network, data) =>
      match parsePathToken data hasToken with
      | .error e => d.abort e
      | .ok (path, token) =>
        if ¬ pathValidate path .addressGe5 then d.abort Sw.bip32BadPath
        else
          match env.genPublic path with
          | none => d.abort Sw.internalCryptoError
          | some (pub, _) =>
            match addressFromPubkey env network pub with
            | none => (d, status Sw.addressGenerationFailed)
            | some raw =>
              if ¬ disp ∧ isKnown token d.connectedApp then
                (d.setCommand .none, .sw Sw.ok raw)
              else d.showAddress (!disp) token path raw

/-- `ui_action_derive_address`, da_ui.c:32-50. -/
def Device.actDerive (d : Device) (x : DaCtx) (approved : Bool) : Device × Reply :=
  if approved then
    ((({ d with connectedApp := x.token }).setCommand .none).menu,
      .sw Sw.ok (if x.send then x.raw else []))
  else ((d.setCommand .none).menu, status Sw.deny)

/-! ## Input attestation -/

/-- Result of a handler of an initialized attestation. -/
def Device.attestResult (d : Device) : AttestRes → Device × Reply
  | .ok x data => ({ d with ctx := .attest x }, .sw Sw.ok data)
  | .err e => d.abort e
  | .ub => (d, .ub)

/-- Subcommands after INIT: command and session checks, ainpt_handler.c:163-178. -/
def Device.attestSub (env : Env) (d : Device) (sub session : UInt8) (data : Bytes) :
    Device × Reply :=
  if d.command ≠ .attestInput then d.abort Sw.badState
  else
    match d.ctx with
    | .attest x =>
      if session ≠ x.session then d.abort Sw.badSessionId
      else if sub = 0x02 then d.attestResult (x.addTree env data)
      else if sub = 0x03 then d.attestResult (x.addTokens env data)
      else if sub = 0x04 then d.attestResult (x.addRegisters env data)
      else d.attestResult (x.getFrame env d.sessionKey data)
    | _ => (d, .ub)

/-- `handle_init` and `ui_display_access_token`, ainpt_handler.c:71-117, ainpt_ui.c:34-51. -/
def Device.attestStart (d : Device) (data : Bytes) (hasToken : Bool) (rnd : Rnd) :
    Device × Reply :=
  let d := d.setCommand .attestInput
  match attestInit data hasToken 0 with
  | .error e => d.abort e
  | .ok x =>
    match newSession 0 rnd.u8s with
    | none => (d, .hang)
    | some s =>
      let x : AttestCtx := { x with session := s }
      if isKnown d.connectedApp x.token then
        ({ d with ctx := .attest { x with state := .approved } }, .sw Sw.ok [s])
      else
        let steps : List FlowStep := .info ⟨.confirmAttest, .nothing⟩ ::
          (if x.token ≠ 0 then [appIdPage x.token] else [])
        (({ d with ctx := .attest x }).display (.static steps) .attest, .wait)

/-- `handler_attest_input`, ainpt_handler.c:147-181. -/
def Device.attestInput (env : Env) (d : Device) (sub p2 : UInt8) (data : Bytes) (rnd : Rnd) :
    Device × Reply :=
  if d.busy then (d, status Sw.busy)
  else if sub = 0x01 then
    if p2 ≠ 0x01 ∧ p2 ≠ 0x02 then d.abort Sw.wrongP1P2
    else d.attestStart data (p2 = 0x02) rnd
  else if sub = 0x02 ∨ sub = 0x03 ∨ sub = 0x04 ∨ sub = 0x05 then d.attestSub env sub p2 data
  else d.abort Sw.wrongSubcommand

/-- `ui_action_attest_input`, ainpt_ui.c:18-32. -/
def Device.actAttest (d : Device) (x : AttestCtx) (approved : Bool) : Device × Reply :=
  if approved then
    (({ d with busy := false, connectedApp := x.token
               ctx := .attest { x with state := .approved } }).menu, .sw Sw.ok [x.session])
  else ((d.setCommand .none).menu, status Sw.deny)

/-! ## Transaction signing -/

/-- `read_bip32_path`, stx_handler.c:25-31. -/
def readPath (d : Bytes) : Option (List UInt32 × Bytes) :=
  match bufU8 d with
  | none => none
  | some (len, d) => bufPath len.toNat d

/-- Parameters of `handle_init_p2pk`, stx_handler.c:65-72: network, path, token. -/
def parseSignInit (d : Bytes) (hasToken : Bool) :
    Except UInt16 (UInt8 × List UInt32 × UInt32) :=
  match bufU8 d with
  | none => .error Sw.notEnoughData
  | some (network, d) =>
    match readPath d with
    | none => .error Sw.bufferError
    | some (path, d) =>
      match (if hasToken then bufU32 d else some (0, d)) with
      | none => .error Sw.notEnoughData
      | some (token, d) => if d ≠ [] then .error Sw.tooMuchData else .ok (network, path, token)

/-- `handle_init_p2pk`, stx_handler.c:61-89, with `ui_stx_operation_p2pk_show_token_and_path`,
stx_op_p2pk.c:331-360, and `ui_stx_add_operation_approve_screens`, stx_ui.c:91-111. -/
def Device.signStart (env : Env) (d : Device) (data : Bytes) (hasToken : Bool) (rnd : Rnd) :
    Device × Reply :=
  let d := d.setCommand .signTransaction
  match parseSignInit data hasToken with
  | .error e => d.abort e
  | .ok (network, path, token) =>
    match p2pkInit env path network rnd.keys with
    | .err e => d.abort e
    | .ub => (d, .ub)
    | .ok p =>
      match newSession 0 rnd.u8s with
      | none => (d, .hang)
      | some s =>
        match pathFormat path bip32StrLen with
        | none => d.abort Sw.bip32FormattingFailed
        | some t =>
          let steps : List FlowStep := .pathApprove ⟨.p2pkSigning, .text t⟩ ::
            (if isKnown d.connectedApp token then [] else [appIdPage token])
          let x : SignCtx := ⟨false, s, { p with u := .uiApprove token }⟩
          (({ d with ctx := .sign x }).display (.static steps) .signInit, .wait)

/-- Handlers that answer at once. -/
def Device.signResult (d : Device) (x : SignCtx) : OpRes → Device × Reply
  | .ok p => ({ d with ctx := .sign { x with p := p } }, status Sw.ok)
  | .err e => d.abort e
  | .ub => (d, .ub)

/-- `show_output_screen_if_needed`, stx_handler.c:49-59, with
`ui_stx_operation_p2pk_show_output_confirm_screen`, stx_op_p2pk.c:362-379. -/
def Device.signShow (d : Device) (x : SignCtx) : OpRes → Device × Reply
  | .err e => d.abort e
  | .ub => (d, .ub)
  | .ok p =>
    match p.shouldShow with
    | none => (d, .ub)
    | some false => ({ d with ctx := .sign { x with p := p } }, status Sw.ok)
    | some true =>
      match p.u with
      | .transaction t =>
        match t.out with
        | some o =>
          let p := { p with u := .transaction { t with lastChange := [] } }
          let f := Flow.dynamic ⟨.confirmOutput, .nothing⟩ (outputScreenCount o)
          (({ d with ctx := .sign { x with p := p } }).display f .signOutput, .wait)
        | none => (d, .ub)
      | _ => (d, .ub)

/-- Parameters of `handle_tx_start`, stx_handler.c:94-100. -/
def parseStart (d : Bytes) : Except UInt16 (UInt16 × UInt16 × UInt8 × UInt16) :=
  match bufU16 d with
  | none => .error Sw.notEnoughData
  | some (inputs, d) =>
    match bufU16 d with
    | none => .error Sw.notEnoughData
    | some (dataInputs, d) =>
      match bufU8 d with
      | none => .error Sw.notEnoughData
      | some (tokens, d) =>
        match bufU16 d with
        | none => .error Sw.notEnoughData
        | some (outputs, d) =>
          if d ≠ [] then .error Sw.tooMuchData else .ok (inputs, dataInputs, tokens, outputs)

/-- Parameters of `handle_output_init`, stx_handler.c:202-207. -/
def parseOutput (d : Bytes) : Except UInt16 (UInt64 × UInt32 × UInt32 × UInt8 × UInt32) :=
  match bufU64 d with
  | none => .error Sw.notEnoughData
  | some (value, d) =>
    match bufU32 d with
    | none => .error Sw.notEnoughData
    | some (treeSize, d) =>
      match bufU32 d with
      | none => .error Sw.notEnoughData
      | some (height, d) =>
        match bufU8 d with
        | none => .error Sw.notEnoughData
        | some (tokens, d) =>
          match bufU32 d with
          | none => .error Sw.notEnoughData
          | some (regs, d) =>
            if d ≠ [] then .error Sw.tooMuchData else .ok (value, treeSize, height, tokens, regs)

/-- `handle_tx_start`, stx_handler.c:91-110. -/
def opStart (p : P2pk) (data : Bytes) : OpRes :=
  match parseStart data with
  | .error e => .err e
  | .ok (inputs, dataInputs, tokens, outputs) => p.startTx inputs dataInputs outputs tokens

/-- `handle_input_frame`, stx_handler.c:119-180. -/
def opFrame (env : Env) (key : Bytes) (p : P2pk) (data : Bytes) : OpRes :=
  let len := (frameDataLen data).toNat
  if len = 0 then .err Sw.notEnoughData
  else if (env.hmac key (data.take len)).take 16 ≠ (data.drop len).take 16 then
    .err Sw.badFrameSignature
  else
    match frameParse data with
    | none => .err Sw.notEnoughData
    | some f =>
      match f.ext with
      | none => p.addInputTokens f.boxId f.index f.tokens
      | some ext =>
        match p.addInput f.boxId f.value f.count ext with
        | .ok p => p.addInputTokens f.boxId f.index f.tokens
        | r => r

/-- `handle_output_init`, stx_handler.c:196-218. -/
def opOutput (p : P2pk) (data : Bytes) : OpRes :=
  match parseOutput data with
  | .error e => .err e
  | .ok (value, treeSize, height, tokens, regs) => p.addOutput value treeSize height tokens regs

/-- `handle_output_tree_fee`, stx_handler.c:227-233. -/
def opFee (env : Env) (p : P2pk) (data : Bytes) : OpRes :=
  if data ≠ [] then .err Sw.tooMuchData else p.addOutputFee env

/-- `handle_output_tree_change`, stx_handler.c:235-254, with `bip32_public_key`, 33-47. (The path is
first written into the output info; every path on which it is not then used ends in a wipe.) -/
def opChange (env : Env) (p : P2pk) (data : Bytes) : OpRes :=
  match readPath data with
  | none => .err Sw.bufferError
  | some (path, _) =>
    if ¬ pathValidate path .addressGe5 then .err Sw.bip32BadPath
    else
      match env.genPublic path with
      | none => .err Sw.internalCryptoError
      | some (pub, _) => p.addOutputChange env path pub

/-- `handle_sign_confirm`, stx_handler.c:270-275, with
`ui_stx_operation_p2pk_show_confirm_screen`, stx_op_p2pk.c:430-447, and
`ui_stx_add_transaction_screens`, stx_ui.c:364-401. -/
def Device.signConfirm (d : Device) (x : SignCtx) : Device × Reply :=
  if x.p.state ≠ .txFinished then d.abort Sw.badState
  else
    let p := { x.p with state := .finalized, u := .uiConfirm }
    let f := Flow.dynamic ⟨.approveSigning, .nothing⟩ (txScreenCount p.amounts)
    (({ d with ctx := .sign { x with p := p } }).display f .signTx, .wait)

/-- Subcommands after SIGN_PK: command, session and state checks, stx_handler.c:292-340. -/
def Device.signSub (env : Env) (d : Device) (sub session : UInt8) (data : Bytes) :
    Device × Reply :=
  if d.command ≠ .signTransaction then d.abort Sw.badState
  else
    match d.ctx with
    | .sign x =>
      if session ≠ x.session then d.abort Sw.badSessionId
      else if ¬ x.approved then d.abort Sw.badState
      else if sub = 0x10 then d.signResult x (opStart x.p data)
      else if sub = 0x11 then d.signResult x (x.p.addTokens data)
      else if sub = 0x12 then d.signResult x (opFrame env d.sessionKey x.p data)
      else if sub = 0x13 then d.signResult x (x.p.addExtension data)
      else if sub = 0x14 then d.signResult x (x.p.addDataInputs data)
      else if sub = 0x15 then d.signResult x (opOutput x.p data)
      else if sub = 0x16 then d.signShow x (x.p.addOutputTree env data)
      else if sub = 0x17 then d.signShow x (opFee env x.p data)
      else if sub = 0x18 then d.signShow x (opChange env x.p data)
      else if sub = 0x19 then d.signShow x (x.p.addOutputTokens env data)
      else if sub = 0x1A then d.signShow x (x.p.addOutputRegisters env data)
      else d.signConfirm x
    | _ => (d, .ub)

/-- `handler_sign_transaction`, stx_handler.c:277-343. -/
def Device.signTransaction (env : Env) (d : Device) (sub p2 : UInt8) (data : Bytes) (rnd : Rnd) :
    Device × Reply :=
  if d.busy then (d, status Sw.busy)
  else if sub = 0x01 then
    if p2 ≠ 0x01 ∧ p2 ≠ 0x02 then (d, status Sw.wrongP1P2)
    else d.signStart env data (p2 = 0x02) rnd
  else if (0x10 ≤ sub ∧ sub ≤ 0x1A) ∨ sub = 0x20 then d.signSub env sub p2 data
  else d.abort Sw.wrongSubcommand

/-- `ui_stx_operation_approve_reject`, stx_ui.c:69-84. -/
def Device.actSignInit (d : Device) (x : SignCtx) (approved : Bool) : Device × Reply :=
  match x.p.u with
  | .uiApprove token =>
    if approved then
      (({ d with busy := false, connectedApp := token
                 ctx := .sign { x with approved := true } }).menu, .sw Sw.ok [x.session])
    else ((d.setCommand .none).menu, status Sw.deny)
  | _ => (d, .ub)

/-- `ui_stx_operation_output_confirm_action`, stx_ui.c:220-241. -/
def Device.actSignOutput (d : Device) (x : SignCtx) (approved : Bool) : Device × Reply :=
  match x.p.u with
  | .transaction t =>
    match t.out with
    | none => (d, .ub)
    | some o =>
      if approved then
        match (if o.type = .bip32 then (match o.data with | .path p => some p | _ => none)
               else some []) with
        | none => (d, .ub)
        | some last =>
          let p := { x.p with u := .transaction { t with lastChange := last } }
          (({ d with busy := false, ctx := .sign { x with p := p } }).menu, status Sw.ok)
      else ((d.setCommand .none).menu, status Sw.deny)
  | _ => (d, .ub)

/-- `ui_stx_operation_execute_action`, stx_ui.c:350-362, and
`ui_stx_operation_p2pk_send_response`, stx_op_p2pk.c:381-413. -/
def Device.actSignTx (env : Env) (d : Device) (x : SignCtx) (approved : Bool) : Device × Reply :=
  if approved then
    match x.p.sendResponse env with
    | .ok sig => ((d.setCommand .none).menu, .sw Sw.ok sig)
    | .error e => ((d.setCommand .none).menu, status e)
  else ((d.setCommand .none).menu, status Sw.deny)

/-! ## Dispatcher and buttons -/

/-- Approve/reject callback of the flow on display. -/
def Device.act (env : Env) (d : Device) (cb : Callback) (approved : Bool) : Device × Reply :=
  match cb, d.ctx with
  | .extPubKey, .extPub x => d.actExtPubKey x approved
  | .deriveAddress, .derive x => d.actDerive x approved
  | .attest, .attest x => d.actAttest x approved
  | .signInit, .sign x => d.actSignInit x approved
  | .signOutput, .sign x => d.actSignOutput x approved
  | .signTx, .sign x => d.actSignTx env x approved
  | _, _ => (d, .ub)

/-- Screen callback of the dynamic flow on display (`show_cb`). -/
def Device.show (env : Env) (nanoS : Bool) (d : Device) (cb : Callback) (k : Nat) : ShowRes :=
  match cb, d.ctx with
  | .signOutput, .sign x =>
    match x.p.u with
    | .transaction t =>
      match t.out with
      | some o => showOutput env nanoS o x.p.amounts.table x.p.network k
      | none => .ub
    | _ => .ub
  | .signTx, .sign x =>
    match x.p.u with
    | .uiConfirm => showTx nanoS x.p.path x.p.amounts k
    | _ => .ub
  | _, _ => .ub

/-- Left or right button: move in the flow; drawing a dynamic screen may fail
(`DISPLAY_DYNAMIC_STATE`, ui_dynamic_flow.c:32-45). -/
def Device.move (env : Env) (nanoS : Bool) (d : Device) (s : Screen) (m : Move) :
    Device × Reply :=
  let d' := { d with screen := some { s with flow := m.flow } }
  match m.draw with
  | none => (d', .wait)
  | some k =>
    match d.show env nanoS s.cb k with
    | .page _ => (d', .wait)
    | .err e => ((d.setCommand .none).menu, status e)
    | .ub => (d, .ub)

/-- Both buttons: the validation callback of the step on display. -/
def Device.both (env : Env) (d : Device) (s : Screen) : Device × Reply :=
  match s.flow.here with
  | .approve => d.act env s.cb true
  | .reject => d.act env s.cb false
  | .pathApprove _ => d.act env s.cb true
  | _ => (d, .wait)

/-- `apdu_dispatcher`, apdu_dispatcher.c:16-58. -/
def Device.dispatch (env : Env) (d : Device) (cla ins p1 p2 : UInt8) (data : Bytes) (rnd : Rnd) :
    Device × Reply :=
  if cla ≠ 0xE0 then (d, status Sw.claNotSupported)
  else if ins = 0x01 then
    if p1 ≠ 0 ∨ p2 ≠ 0 then (d, status Sw.wrongP1P2) else (d, .sw Sw.ok env.appVersion)
  else if ins = 0x02 then
    if p1 ≠ 0 ∨ p2 ≠ 0 then (d, status Sw.wrongP1P2) else (d, .sw Sw.ok env.appName)
  else if ins = 0x10 then
    if p1 = 0 ∨ p1 > 2 ∨ p2 > 0 then (d, status Sw.wrongP1P2)
    else d.extPubKey env data (p1 = 2)
  else if ins = 0x11 then
    if p1 = 0 ∨ p1 > 2 ∨ p2 = 0 ∨ p2 > 2 then (d, status Sw.wrongP1P2)
    else d.deriveAddress env data (p1 = 2) (p2 = 2)
  else if ins = 0x20 then
    if p1 = 0 ∨ p2 = 0 then (d, status Sw.wrongP1P2)
    else d.attestInput env p1 p2 data rnd
  else if ins = 0x21 then
    if p1 = 0 ∨ p2 = 0 then (d, status Sw.wrongP1P2)
    else d.signTransaction env p1 p2 data rnd
  else (d, status Sw.insNotSupported)

/-- One event.  An APDU carries at most 255 data bytes (`apdu_parser`, SDK; app_main.c:59-63). -/
def Device.step (env : Env) (nanoS : Bool) (d : Device) : Event → Device × Reply
  | .apdu cla ins p1 p2 data rnd =>
    if data.length > 255 then (d, status Sw.wrongDataLength)
    else d.dispatch env cla ins p1 p2 data rnd
  | .left =>
    match d.screen with
    | none => (d, .wait)
    | some s => d.move env nanoS s s.flow.left
  | .right =>
    match d.screen with
    | none => (d, .wait)
    | some s => d.move env nanoS s s.flow.right
  | .both =>
    match d.screen with
    | none => (d, .wait)
    | some s => d.both env s

/-- Execution of a list of events: final device and all replies. -/
def Device.run (env : Env) (nanoS : Bool) : Device → List Event → Device × List Reply
  | d, [] => (d, [])
  | d, e :: es =>
    let r := d.step env nanoS e
    let q := Device.run env nanoS r.1 es
    (q.1, r.2 :: q.2)

/-- The page on display, if it is a fixed or dynamic page. -/
def Device.page (env : Env) (nanoS : Bool) (d : Device) : Option Page :=
  match d.screen with
  | none => none
  | some s =>
    match s.flow.here with
    | .info p => some p
    | .pathApprove p => some p
    | .dyn =>
      match s.flow.cur with
      | some k => match d.show env nanoS s.cb k with | .page p => some p | _ => none
      | none => none
    | _ => none

end Ergo
