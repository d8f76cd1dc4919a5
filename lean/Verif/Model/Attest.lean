import Verif.Model.Box
import Verif.Model.InputFrame
import Verif.Model.Sw
/-!
# Input attestation, src/commands/attestinput/ainpt_handler.c, ainpt_response.c
-/
namespace Ergo

/-- `attest_input_state_e`, ainpt_context.h:16-21 (ERROR is followed by a wipe). -/
inductive AttestState where
  | initialized | finished | approved
  deriving DecidableEq, Repr

/-- `attest_input_ctx_t`, ainpt_context.h:23-35.  `tokens` joins `tokens_table` and
`token_amounts`; the latter shares memory with `ui`, which is read only before approval, while
amounts are written only after it.  `st.s` is the list of tokens. -/
structure AttestCtx where
  boxId : Bytes
  st : BoxSt (List (Bytes × UInt64))
  token : UInt32
  index : UInt16
  session : UInt8
  state : AttestState
  deriving DecidableEq, Repr

/-- `box_token_cb`, ainpt_handler.c:52-69. -/
def attestCbs : BoxCbs (List (Bytes × UInt64)) where
  onType _ _ s := (s, .ok)
  onToken _ id v s :=
    if s.length ≥ tokenMax then (s, .err .tooManyTokens)
    else if s.any (fun t => t.1 == id) then (s, .err .badTokenId)
    else (s ++ [(id, v)], .ok)
  onFinished _ s := (s, .ok)

/-- Result of a handler: new context and reply data, or an error (the context is wiped), or `ub`. -/
inductive AttestRes where
  | ok (c : AttestCtx) (data : Bytes)
  | err (sw : UInt16)
  | ub
  deriving DecidableEq, Repr

/-- Parameters of `handle_init`, ainpt_handler.c:79-87. -/
structure AttestInit where
  txId : Bytes
  index : UInt16
  value : UInt64
  treeSize : UInt32
  height : UInt32
  tokens : UInt8
  regs : UInt32
  token : UInt32
  deriving DecidableEq, Repr

/-- Reading of the parameters, ainpt_handler.c:79-87. -/
def attestParse (d : Bytes) (hasToken : Bool) : Except UInt16 AttestInit :=
  match bufBytes idLen d with
  | none => .error Sw.notEnoughData
  | some (txId, d) =>
    match bufU16 d with
    | none => .error Sw.notEnoughData
    | some (index, d) =>
      match bufU64 d with
      | none => .error Sw.notEnoughData
      | some (value, d) =>
        match bufU32 d with
        | none => .error Sw.notEnoughData
        | some (treeSize, d) =>
          match bufU32 d with
          | none => .error Sw.notEnoughData
          | some (height, d) =>
            match bufU8 d with
            | none => .error Sw.notEnoughData
            | some (tokens, d) =>
              match bufU32 d with
              | none => .error Sw.notEnoughData
              | some (regs, d) =>
                match (if hasToken then bufU32 d else some (0, d)) with
                | none => .error Sw.notEnoughData
                | some (token, d) =>
                  if d ≠ [] then .error Sw.tooMuchData
                  else .ok ⟨txId, index, value, treeSize, height, tokens, regs, token⟩

/-- `handle_init`, ainpt_handler.c:71-110, up to the choice between reply and screen; the session
id is drawn by the caller. -/
def attestInit (d : Bytes) (hasToken : Bool) (session : UInt8) : Except UInt16 AttestCtx :=
  match attestParse d hasToken with
  | .error e => .error e
  | .ok i =>
    match boxInit i.value i.treeSize i.height i.tokens i.regs [] with
    | (_, _, .err e) => .error e.sw
    | (c, h, _) => .ok ⟨i.txId, ⟨c, h, []⟩, i.token, i.index, session, .initialized⟩

/-- `check_box_finished`, ainpt_handler.c:41-50. -/
def AttestCtx.checkFinished (env : Env) (x : AttestCtx) : AttestRes :=
  if x.st.c.state ≠ .finished then .ok x []
  else
    match x.st.idHash env x.boxId x.index with
    | (_, .error e) => .err e.sw
    | (st, .ok id) =>
      .ok { x with st := st, boxId := id, state := .finished }
        [UInt8.ofNat (framesCount st.s.length)]

/-- `CHECK_CALL_BOX_FINISHED`, ainpt_handler.c:22-33, after `CHECK_PROPER_STATE`. -/
def AttestCtx.part (env : Env) (x : AttestCtx)
    (r : BoxSt (List (Bytes × UInt64)) × Res BoxErr) : AttestRes :=
  if x.state ≠ .approved then .err Sw.badState
  else
    match r with
    | (st, .ok) => { x with st := st }.checkFinished env
    | (st, .more) => .ok { x with st := st } []
    | (_, .err e) => .err e.sw
    | (_, .ub) => .ub

/-- `handle_tree_chunk`, ainpt_handler.c:119-123. -/
def AttestCtx.addTree (env : Env) (x : AttestCtx) (d : Bytes) : AttestRes :=
  x.part env (x.st.addTree attestCbs d)
/-- `handle_tokens`, ainpt_handler.c:125-129. -/
def AttestCtx.addTokens (env : Env) (x : AttestCtx) (d : Bytes) : AttestRes :=
  x.part env (x.st.addTokens attestCbs none d)
/-- `handle_registers_chunk`, ainpt_handler.c:131-135. -/
def AttestCtx.addRegisters (env : Env) (x : AttestCtx) (d : Bytes) : AttestRes :=
  x.part env (x.st.addRegisters attestCbs d)

/-- `handle_get_frame` and `send_response_attested_input_frame`, ainpt_handler.c:137-145,
ainpt_response.c:21-58. -/
def AttestCtx.getFrame (env : Env) (x : AttestCtx) (sessionKey : Bytes) (d : Bytes) : AttestRes :=
  if x.state ≠ .finished then .err Sw.badState
  else
    match bufU8 d with
    | none => .err Sw.notEnoughData
    | some (i, d) =>
      if d ≠ [] then .err Sw.tooMuchData
      else if i.toNat ≥ framesCount x.st.s.length then .err Sw.badFrameIndex
      else
        let body := frameBody x.boxId x.st.c.value x.st.s i
        .ok x (body ++ (env.hmac sessionKey body).take 16)

end Ergo
