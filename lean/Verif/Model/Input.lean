import Verif.Model.Amounts
/-!
# Input serializer, src/ergo/tx_ser_input.{h,c}

The token callback works on the amounts (`p2pk_input_token_cb`, stx_op_p2pk.c:31-38).
-/
namespace Ergo

/-- `ergo_tx_serializer_input_state_e`, tx_ser_input.h:29-34. -/
inductive InputState where
  | framesStarted | extensionStarted | finished | error
  deriving DecidableEq, Repr

/-- `ergo_tx_serializer_input_context_t`, tx_ser_input.h:42-52. -/
structure InputCtx where
  state : InputState
  boxId : Bytes
  framesCount : UInt8
  framesProcessed : UInt8
  extSize : UInt32
  deriving DecidableEq, Repr

/-- Context, hashed bytes and amounts. -/
structure InputSt where
  c : InputCtx
  h : Bytes
  a : Amounts
  deriving DecidableEq, Repr

/-- `res_error`, tx_ser_input.c:8-13. -/
def InputSt.fail (x : InputSt) (e : InputErr) : InputSt × Res InputErr :=
  ({ x with c := { x.c with state := .error } }, .err e)

/-- A cleared context in the given state. -/
def InputCtx.zero (s : InputState) : InputCtx := ⟨s, zeroId, 0, 0, 0⟩

/-- `ergo_tx_serializer_input_init`, tx_ser_input.c:15-38. -/
def inputInit (boxId : Bytes) (frames : UInt8) (ext : UInt32) : InputCtx × Res InputErr :=
  if ext = 1 ∨ ext.toNat > 32768 then (.zero .error, .err .badContextExtensionSize)
  else (⟨.framesStarted, boxId, frames, 0, ext⟩, .ok)

/-- Loop of `ergo_tx_serializer_input_add_tokens`, tx_ser_input.c:55-73. -/
def InputSt.tokensLoop : Nat → Bytes → InputSt → InputSt × Res InputErr
  | _, [], x => (x, .ok)
  | 0, _ :: _, x => (x, .ub)
  | n + 1, b :: bs, x =>
    match bufBytes idLen (b :: bs) with
    | none => x.fail .badTokenId
    | some (id, rest) =>
      match bufU64 rest with
      | none => x.fail .badTokenValue
      | some (v, rest) =>
        match x.a.addInputToken id v with
        | (a, .ok) => InputSt.tokensLoop n rest { x with a := a }
        | (a, .more) => ({ x with a := a, c := { x.c with state := .error } }, .more)
        | (a, .err e) => { x with a := a }.fail e
        | (a, .ub) => ({ x with a := a }, .ub)

/-- `ergo_tx_serializer_input_add_tokens`, tx_ser_input.c:40-96. -/
def InputSt.addTokens (x : InputSt) (boxId : Bytes) (index : UInt8) (tokens : Bytes) :
    InputSt × Res InputErr :=
  if x.c.state ≠ .framesStarted then x.fail .badState
  else if x.c.boxId ≠ boxId then x.fail .badInputId
  else if index ≥ x.c.framesCount then x.fail .tooManyInputFrames
  else if index ≠ x.c.framesProcessed then x.fail .badFrameIndex
  else
    match InputSt.tokensLoop tokens.length tokens x with
    | (x, .ok) =>
      let x := { x with c := { x.c with framesProcessed := x.c.framesProcessed + 1 } }
      if x.c.framesProcessed = x.c.framesCount then
        if x.c.extSize = 0 then
          ({ x with h := x.h ++ boxId ++ [0] ++ [0], c := { x.c with state := .finished } }, .ok)
        else
          ({ x with h := x.h ++ boxId ++ [0], c := { x.c with state := .extensionStarted } }, .ok)
      else (x, .more)
    | r => r

/-- `ergo_tx_serializer_input_add_context_extension`, tx_ser_input.c:98-115. -/
def InputSt.addExtension (x : InputSt) (chunk : Bytes) : InputSt × Res InputErr :=
  if x.c.state ≠ .extensionStarted then x.fail .badState
  else if x.c.extSize.toNat < chunk.length then x.fail .tooMuchProofData
  else
    let size := x.c.extSize - UInt32.ofNat chunk.length
    let x := { x with h := x.h ++ chunk, c := { x.c with extSize := size } }
    if size = 0 then ({ x with c := { x.c with state := .finished } }, .ok) else (x, .more)

end Ergo
