import Verif.Model.Box
import Verif.Model.Input
import Verif.Model.OutputInfo
/-!
# Transaction serializer, src/ergo/tx_ser_full.{h,c}, with the callbacks of stx_op_p2pk.c
-/
namespace Ergo

/-- `ergo_tx_serializer_full_state_e`, tx_ser_full.h:39-46. -/
inductive FullState where
  | tokensStarted | inputsStarted | dataInputsStarted | outputsStarted | finished | error
  deriving DecidableEq, Repr

/-- The union `input_ctx` / `box_ctx` of tx_ser_full.h:55-58.  `zeroed` is the cleared memory after
`memset`. -/
inductive Sub where
  | zeroed
  | input (c : InputCtx)
  | box (c : BoxCtx)
  deriving DecidableEq, Repr

/-- `ergo_tx_serializer_full_context_t`, tx_ser_full.h:48-59; `distinct` is
`table_ctx.distinct_tokens_count`. -/
structure FullCtx where
  state : FullState
  inputs : UInt16
  dataInputs : UInt16
  outputs : UInt16
  distinct : UInt8
  sub : Sub
  deriving DecidableEq, Repr

/-- State reached by the callbacks: the amounts (with the token table) and the output info. -/
structure Acc where
  a : Amounts
  o : OutInfo
  deriving DecidableEq, Repr

/-- `p2pk_output_type_cb`, `p2pk_output_token_cb`, `p2pk_output_finished_cb`,
stx_op_p2pk.c:40-63. -/
def accCbs (env : Env) : BoxCbs Acc where
  onType ty v s := let r := s.a.addOutput ty v; ({ s with a := r.1 }, r.2)
  onToken _ id v s :=
    let r := s.o.addToken s.a.table id v
    let s := { s with o := r.1 }
    match r.2 with
    | .ok => let q := s.a.addOutputToken id v; ({ s with a := q.1 }, q.2)
    | e => (s, e)
  onFinished _ s := let r := s.o.setBoxFinished env; ({ s with o := r.1 }, r.2)

/-- Serializer context, hashed bytes, callback state. -/
structure FullSt where
  c : FullCtx
  h : Bytes
  s : Acc
  deriving DecidableEq, Repr

/-- `res_error`, tx_ser_full.c:31-35. -/
def FullSt.fail (x : FullSt) (e : FullErr) : FullSt × Res FullErr :=
  ({ x with c := { x.c with state := .error } }, .err e)

/-- `data_inputs_finished`, tx_ser_full.c:127-137. -/
def FullSt.dataInputsFinished (x : FullSt) : FullSt × Res FullErr :=
  ({ x with
      h := x.h ++ tableBytes x.c.distinct x.s.a.table ++ gvePutU16 x.c.outputs
      c := { x.c with state := .outputsStarted } }, .ok)

/-- `input_finished`, tx_ser_full.c:139-152. -/
def FullSt.inputFinished (x : FullSt) : FullSt × Res FullErr :=
  let x := { x with c := { x.c with inputs := x.c.inputs - 1 } }
  if x.c.inputs = 0 then
    let x := { x with
      h := x.h ++ gvePutU16 x.c.dataInputs, c := { x.c with state := .dataInputsStarted } }
    if x.c.dataInputs = 0 then x.dataInputsFinished else (x, .ok)
  else (x, .ok)

/-- `output_finished`, tx_ser_full.c:154-161. -/
def FullSt.outputFinished (x : FullSt) : FullSt × Res FullErr :=
  let x := { x with c := { x.c with outputs := x.c.outputs - 1 } }
  if x.c.outputs = 0 then ({ x with c := { x.c with state := .finished } }, .ok) else (x, .ok)

/-- `ergo_tx_serializer_full_init`, tx_ser_full.c:163-196 (`table` is the table given). -/
def fullInit (inputs dataInputs outputs : UInt16) (tokens : UInt8) (table : List Bytes)
    (h : Bytes) : FullCtx × Bytes × Res FullErr :=
  if inputs = 0 then (⟨.error, 0, 0, 0, 0, .zeroed⟩, h, .err .badInputCount)
  else if outputs = 0 then (⟨.error, 0, 0, 0, 0, .zeroed⟩, h, .err .badOutputCount)
  else
    let h := h ++ gvePutU16 inputs
    match tableInit table tokens with
    | .err e => (⟨.error, inputs, dataInputs, outputs, 0, .zeroed⟩, h, .err e.toFull)
    | _ =>
      if tokens ≠ 0 then
        (⟨.tokensStarted, inputs, dataInputs, outputs, tokens, .zeroed⟩, h, .ok)
      else
        (⟨.inputsStarted, inputs, dataInputs, outputs, tokens, .input (.zero .finished)⟩, h, .ok)

/-- `ergo_tx_serializer_full_add_tokens`, tx_ser_full.c:198-211. -/
def FullSt.addTokens (x : FullSt) (input : Bytes) : FullSt × Res FullErr :=
  if x.c.state ≠ .tokensStarted then x.fail .badState
  else
    let r := tableAdd x.c.distinct input x.s.a.table
    let x := { x with s := { x.s with a := { x.s.a with table := r.1 } } }
    match r.2 with
    | .ok =>
      ({ x with c := { x.c with state := .inputsStarted, sub := .input (.zero .finished) } }, .ok)
    | .more => (x, .more)
    | .err e => x.fail e.toFull
    | .ub => (x, .ub)

/-- `ergo_tx_serializer_full_add_input`, tx_ser_full.c:213-236. -/
def FullSt.addInput (x : FullSt) (boxId : Bytes) (frames : UInt8) (ext : UInt32) :
    FullSt × Res FullErr :=
  if x.c.state ≠ .inputsStarted then x.fail .badState
  else
    match x.c.sub with
    | .input i =>
      if i.state ≠ .finished then x.fail .badState
      else if x.c.inputs = 0 then x.fail .tooManyInputs
      else
        let r := inputInit boxId frames ext
        let x := { x with c := { x.c with sub := .input r.1 } }
        match r.2 with
        | .err e => x.fail e.toFull
        | .ub => (x, .ub)
        | _ => (x, .ok)
    | _ => (x, .ub)

/-- `ergo_tx_serializer_full_add_input_tokens`, tx_ser_full.c:238-255. -/
def FullSt.addInputTokens (x : FullSt) (boxId : Bytes) (index : UInt8) (tokens : Bytes) :
    FullSt × Res FullErr :=
  if x.c.state ≠ .inputsStarted then x.fail .badState
  else
    match x.c.sub with
    | .input i =>
      let r := InputSt.addTokens ⟨i, x.h, x.s.a⟩ boxId index tokens
      let x : FullSt := { x with
        h := r.1.h, s := { x.s with a := r.1.a }, c := { x.c with sub := .input r.1.c } }
      match r.2 with
      | .ok => if r.1.c.state = .finished then x.inputFinished else (x, .ok)
      | .more => (x, .more)
      | .err e => x.fail e.toFull
      | .ub => (x, .ub)
    | _ => (x, .ub)

/-- `ergo_tx_serializer_full_add_input_context_extension`, tx_ser_full.c:257-267. -/
def FullSt.addInputExtension (x : FullSt) (chunk : Bytes) : FullSt × Res FullErr :=
  if x.c.state ≠ .inputsStarted then x.fail .badState
  else
    match x.c.sub with
    | .input i =>
      let r := InputSt.addExtension ⟨i, x.h, x.s.a⟩ chunk
      let x : FullSt := { x with
        h := r.1.h, s := { x.s with a := r.1.a }, c := { x.c with sub := .input r.1.c } }
      match r.2 with
      | .ok => x.inputFinished
      | .more => (x, .more)
      | .err e => x.fail e.toFull
      | .ub => (x, .ub)
    | _ => (x, .ub)

/-- Loop of `ergo_tx_serializer_full_add_data_inputs`, tx_ser_full.c:273-285. -/
def FullSt.dataInputsLoop : Nat → Bytes → FullSt → FullSt × Res FullErr
  | _, [], x => (x, .ok)
  | 0, _ :: _, x => (x, .ub)
  | n + 1, b :: bs, x =>
    if x.c.dataInputs = 0 then x.fail .tooManyDataInputs
    else
      match bufBytes idLen (b :: bs) with
      | none => x.fail .badDataInput
      | some (id, rest) =>
        FullSt.dataInputsLoop n rest
          { x with h := x.h ++ id, c := { x.c with dataInputs := x.c.dataInputs - 1 } }

/-- `ergo_tx_serializer_full_add_data_inputs`, tx_ser_full.c:269-290. -/
def FullSt.addDataInputs (x : FullSt) (input : Bytes) : FullSt × Res FullErr :=
  if x.c.state ≠ .dataInputsStarted then x.fail .badState
  else
    match FullSt.dataInputsLoop input.length input x with
    | (x, .ok) => if x.c.dataInputs = 0 then x.dataInputsFinished else (x, .more)
    | r => r

/-- `ergo_tx_serializer_full_add_box`, tx_ser_full.c:292-312.  (Whether the previous box is
finished is not checked.) -/
def FullSt.addBox (x : FullSt) (value : UInt64) (treeSize height : UInt32) (tokens : UInt8)
    (regs : UInt32) : FullSt × Res FullErr :=
  if x.c.state ≠ .outputsStarted then x.fail .badState
  else if x.c.outputs = 0 then x.fail .tooManyOutputs
  else
    let r := boxInit value treeSize height tokens regs x.h
    let x : FullSt := { x with h := r.2.1, c := { x.c with sub := .box r.1 } }
    match r.2.2 with
    | .err e => x.fail e.toFull
    | .ub => (x, .ub)
    | _ => (x, .ok)

/-- Common shape of the box part functions, tx_ser_full.c:314-386: run the box serializer, then
`output_finished` if the box became finished. -/
def FullSt.boxPart (x : FullSt) (f : BoxSt Acc → BoxSt Acc × Res BoxErr) : FullSt × Res FullErr :=
  if x.c.state ≠ .outputsStarted then x.fail .badState
  else
    match x.c.sub with
    | .box b =>
      let r := f ⟨b, x.h, x.s⟩
      let x : FullSt := { x with h := r.1.h, s := r.1.s, c := { x.c with sub := .box r.1.c } }
      match r.2 with
      | .ok => if r.1.c.state = .finished then x.outputFinished else (x, .ok)
      | .more => (x, .more)
      | .err e => x.fail e.toFull
      | .ub => (x, .ub)
    | _ => (x, .ub)

/-- `ergo_tx_serializer_full_add_box_ergo_tree`, tx_ser_full.c:314-328. -/
def FullSt.addBoxTree (env : Env) (x : FullSt) (chunk : Bytes) : FullSt × Res FullErr :=
  x.boxPart (fun b => b.addTree (accCbs env) chunk)

/-- `ergo_tx_serializer_full_add_box_change_tree`, tx_ser_full.c:330-343. -/
def FullSt.addBoxChange (env : Env) (x : FullSt) (pk : Bytes) : FullSt × Res FullErr :=
  x.boxPart (fun b => b.addChangeTree (accCbs env) pk)

/-- `ergo_tx_serializer_full_add_box_miners_fee_tree`, tx_ser_full.c:345-358. -/
def FullSt.addBoxFee (env : Env) (x : FullSt) : FullSt × Res FullErr :=
  x.boxPart (fun b => b.addFeeTree (accCbs env))

/-- `ergo_tx_serializer_full_add_box_tokens`, tx_ser_full.c:360-375. -/
def FullSt.addBoxTokens (env : Env) (x : FullSt) (input : Bytes) : FullSt × Res FullErr :=
  x.boxPart (fun b => b.addTokens (accCbs env) (some (x.c.distinct, x.s.a.table)) input)

/-- `ergo_tx_serializer_full_add_box_registers`, tx_ser_full.c:377-386 (`add_registers` returns OK
only when the box is finished). -/
def FullSt.addBoxRegisters (env : Env) (x : FullSt) (chunk : Bytes) : FullSt × Res FullErr :=
  x.boxPart (fun b => b.addRegisters (accCbs env) chunk)

end Ergo
