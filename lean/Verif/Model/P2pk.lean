import Verif.Model.Ui
import Verif.Model.Schnorr
/-!
# The P2PK signing operation, src/commands/signtx/operations/stx_op_p2pk.{h,c}

Every error returned by these functions makes the caller (`handler_err`, stx_handler.c:19-23) wipe
the command context, so the context after an error is not kept here.
-/
namespace Ergo

/-- `sign_transaction_operation_p2pk_state_e`, stx_op_p2pk.h:20-28 (ERROR is followed by a wipe). -/
inductive P2pkState where
  | initialized | txStarted | inputsStarted | outputsStarted | txFinished | finalized
  deriving DecidableEq, Repr

/-- `sign_transaction_operation_p2pk_transaction_ctx_t`, stx_op_p2pk.h:30-34.  `out = none`: not yet
initialized.  `lastChange = []`: cleared. -/
structure TxData where
  tx : FullCtx
  out : Option OutInfo
  lastChange : List UInt32
  deriving DecidableEq, Repr

/-- The union of stx_op_p2pk.h:43-47. -/
inductive P2pkU where
  | zero
  | transaction (t : TxData)
  | uiApprove (token : UInt32)
  | uiConfirm
  deriving DecidableEq, Repr

/-- `sign_transaction_operation_p2pk_ctx_t`, stx_op_p2pk.h:36-48; `hash` is the list of bytes hashed
with `tx_hash`. -/
structure P2pk where
  state : P2pkState
  key : Bytes
  path : List UInt32
  hash : Bytes
  network : UInt8
  amounts : Amounts
  u : P2pkU
  deriving DecidableEq, Repr

/-- Result of an operation call: context, status word, or `ub`. -/
inductive OpRes where
  | ok (p : P2pk)
  | err (sw : UInt16)
  | ub
  deriving DecidableEq, Repr

/-- `stx_operation_p2pk_init`, stx_op_p2pk.c:65-99, on a cleared context. -/
def p2pkInit (env : Env) (path : List UInt32) (network : UInt8) (draws : Nat → Bytes) : OpRes :=
  if ¬ pathValidate path .addressGe5 then .err Sw.bip32BadPath
  else if ¬ networkSupported network then .err Sw.badNetType
  else
    match env.genPrivate path with
    | none => .err Sw.internalCryptoError
    | some secret =>
      match schnorrInit env secret draws with
      | none => .err Sw.internalCryptoError
      | some (h, key) => .ok ⟨.initialized, key, path, h, network, .zero, .zero⟩

/-- `stx_operation_p2pk_start_tx`, stx_op_p2pk.c:101-118. -/
def P2pk.startTx (p : P2pk) (inputs dataInputs outputs : UInt16) (tokens : UInt8) : OpRes :=
  if p.state ≠ .initialized then .err Sw.badState
  else
    match fullInit inputs dataInputs outputs tokens p.amounts.table p.hash with
    | (_, _, .err e) => .err e.sw
    | (_, _, .ub) => .ub
    | (tx, h, _) =>
      .ok { p with state := .txStarted, hash := h, amounts := .zero
                   u := .transaction ⟨tx, none, []⟩ }

/-- Run a serializer call that only uses the amounts, then store its result
(`CHECK_TX_CALL_RESULT_OK`, stx_op_p2pk.c:17-18). -/
def P2pk.withTx (p : P2pk) (f : FullSt → FullSt × Res FullErr) : OpRes :=
  match p.u with
  | .transaction t =>
    match f ⟨t.tx, p.hash, ⟨p.amounts, t.out.getD (.init 0)⟩⟩ with
    | (x, .ok) | (x, .more) =>
      .ok { p with hash := x.h, amounts := x.s.a, u := .transaction { t with tx := x.c } }
    | (_, .err e) => .err e.sw
    | (_, .ub) => .ub
  | _ => .ub

/-- `stx_operation_p2pk_add_tokens`, stx_op_p2pk.c:120-125. -/
def P2pk.addTokens (p : P2pk) (input : Bytes) : OpRes :=
  if p.state ≠ .txStarted then .err Sw.badState
  else p.withTx (fun x => x.addTokens input)

/-- `stx_operation_p2pk_add_input`, stx_op_p2pk.c:127-151 (with
`ergo_tx_serializer_full_set_input_callback`, tx_ser_full.h:126-136, which passes whenever
`add_input` did). -/
def P2pk.addInput (p : P2pk) (boxId : Bytes) (value : UInt64) (frames : UInt8) (ext : UInt32) :
    OpRes :=
  if p.state ≠ .txStarted ∧ p.state ≠ .inputsStarted then .err Sw.badState
  else
    match p.withTx (fun x => x.addInput boxId frames ext) with
    | .ok p =>
      match p.amounts.addInput value with
      | none => .err Sw.u64Overflow
      | some a => .ok { p with amounts := a, state := .inputsStarted }
    | r => r

/-- `stx_operation_p2pk_add_input_tokens`, stx_op_p2pk.c:153-164. -/
def P2pk.addInputTokens (p : P2pk) (boxId : Bytes) (index : UInt8) (tokens : Bytes) : OpRes :=
  if p.state ≠ .inputsStarted then .err Sw.badState
  else p.withTx (fun x => x.addInputTokens boxId index tokens)

/-- `stx_operation_p2pk_add_input_context_extension`, stx_op_p2pk.c:166-173. -/
def P2pk.addExtension (p : P2pk) (chunk : Bytes) : OpRes :=
  if p.state ≠ .inputsStarted then .err Sw.badState
  else p.withTx (fun x => x.addInputExtension chunk)

/-- `stx_operation_p2pk_add_data_inputs`, stx_op_p2pk.c:175-181. -/
def P2pk.addDataInputs (p : P2pk) (input : Bytes) : OpRes :=
  if p.state ≠ .inputsStarted then .err Sw.badState
  else p.withTx (fun x => x.addDataInputs input)

/-- `stx_operation_p2pk_add_output`, stx_op_p2pk.c:183-213. -/
def P2pk.addOutput (p : P2pk) (value : UInt64) (treeSize height : UInt32) (tokens : UInt8)
    (regs : UInt32) : OpRes :=
  if p.state ≠ .inputsStarted ∧ p.state ≠ .outputsStarted then .err Sw.badState
  else
    match p.withTx (fun x => x.addBox value treeSize height tokens regs) with
    | .ok p =>
      match p.u with
      | .transaction t =>
        .ok { p with state := .outputsStarted
                     u := .transaction { t with out := some (.init value) } }
      | _ => .ub
    | r => r

/-- `CHECK_TX_FINISHED`, stx_op_p2pk.c:20-23. -/
def P2pk.checkFinished (p : P2pk) (tx : FullCtx) : P2pkState :=
  if tx.state = .finished then .txFinished else p.state

/-- A serializer call on the current output followed by an update of the output info (given the
result: everything received?), then `CHECK_TX_FINISHED`.  Reading an output info that was never
initialized is `ub`. -/
def P2pk.withOut (p : P2pk) (f : FullSt → FullSt × Res FullErr) (g : OutInfo → Bool → OutRes) :
    OpRes :=
  if p.state ≠ .outputsStarted then .err Sw.badState
  else
    match p.u with
    | .transaction t =>
      match t.out with
      | none => .ub
      | some o =>
        match f ⟨t.tx, p.hash, ⟨p.amounts, o⟩⟩ with
        | (_, .err e) => .err e.sw
        | (_, .ub) => .ub
        | (x, r) =>
          match g x.s.o (r = .ok) with
          | .badState => .err Sw.badState
          | .ub => .ub
          | .ok o =>
            .ok { p with hash := x.h, amounts := x.s.a, state := p.checkFinished x.c
                         u := .transaction { t with tx := x.c, out := some o } }
    | _ => .ub

/-- `stx_operation_p2pk_add_output_tree_chunk`, stx_op_p2pk.c:215-244. -/
def P2pk.addOutputTree (env : Env) (p : P2pk) (chunk : Bytes) : OpRes :=
  p.withOut (fun x => x.addBoxTree env chunk) (fun o fin => o.addTreeChunk env chunk fin)

/-- `stx_operation_p2pk_add_output_tree_fee`, stx_op_p2pk.c:246-255. -/
def P2pk.addOutputFee (env : Env) (p : P2pk) : OpRes :=
  p.withOut (fun x => x.addBoxFee env) (fun o _ => o.setFee env)

/-- `stx_operation_p2pk_add_output_tree_change`, stx_op_p2pk.c:257-269. -/
def P2pk.addOutputChange (env : Env) (p : P2pk) (path : List UInt32) (pk : Bytes) : OpRes :=
  p.withOut (fun x => x.addBoxChange env pk) (fun o _ => o.setBip32 env path)

/-- `stx_operation_p2pk_add_output_tokens`, stx_op_p2pk.c:271-278. -/
def P2pk.addOutputTokens (env : Env) (p : P2pk) (input : Bytes) : OpRes :=
  p.withOut (fun x => x.addBoxTokens env input) (fun o _ => .ok o)

/-- `stx_operation_p2pk_add_output_registers`, stx_op_p2pk.c:280-287. -/
def P2pk.addOutputRegisters (env : Env) (p : P2pk) (chunk : Bytes) : OpRes :=
  p.withOut (fun x => x.addBoxRegisters env chunk) (fun o _ => .ok o)

/-- `stx_operation_p2pk_should_show_output_confirm_screen`, stx_op_p2pk.c:289-321, on a current
output: `none` is `ub`. -/
def shouldShow (own : List UInt32) (lastChange : List UInt32) (o : OutInfo) : Option Bool :=
  if ¬ o.finished then some false
  else
    match o.type with
    | .minersFee => some (o.usedCount > 0)
    | .bip32 =>
      match o.data with
      | .path p =>
        if ¬ pathValidate p .addressE5 then some true
        else if pathIsEqual p lastChange then some false
        else if pathSameAccount p own ∧ p.getD 3 0 = own.getD 3 0 ∧ p.getD 4 0 < own.getD 4 0 + 20
        then some false
        else some true
      | _ => none
    | _ => some true

/-- The state test at the start of `stx_operation_p2pk_should_show_output_confirm_screen`. -/
def P2pk.shouldShow (p : P2pk) : Option Bool :=
  if p.state ≠ .outputsStarted ∧ p.state ≠ .txFinished then some false
  else
    match p.u with
    | .transaction t =>
      match t.out with
      | some o => Ergo.shouldShow p.path t.lastChange o
      | none => none
    | _ => none

/-- `ui_stx_operation_p2pk_send_response`, stx_op_p2pk.c:381-413: signature or status word.
Called with a finalized operation. -/
def P2pk.sendResponse (env : Env) (p : P2pk) : Except UInt16 Bytes :=
  if p.state ≠ .finalized then .error Sw.badState
  else
    match env.genPrivate p.path with
    | none => .error Sw.internalCryptoError
    | some secret =>
      match schnorrFinish env p.hash secret p.key with
      | some sig => .ok sig
      | none => .error Sw.schnorrSigningFailed

end Ergo
