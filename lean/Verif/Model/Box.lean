import Verif.Model.Amounts
import Verif.Model.Address
/-!
# Box serializer, src/ergo/tx_ser_box.{h,c}

The hash context is the list of bytes hashed so far.  The callbacks (`on_type`, `on_token`,
`on_finished` with their context pointer) are functions on a callback state `σ`.
-/
namespace Ergo

/-- `ergo_tx_serializer_box_state_e`, tx_ser_box.h:27-34. -/
inductive BoxState where
  | initialized | treeAdded | tokensAdded | finished | hashFinalized | error
  deriving DecidableEq, Repr

/-- `ergo_tx_serializer_box_context_t`, tx_ser_box.h:59-69 (hash and callbacks kept outside). -/
structure BoxCtx where
  state : BoxState
  value : UInt64
  treeSize : UInt32
  height : UInt32
  regsSize : UInt32
  tokensCount : UInt8
  type : BoxType
  deriving DecidableEq, Repr

/-- Callbacks of the box serializer, tx_ser_box.h:42-57; an unset callback is a no-op. -/
structure BoxCbs (σ : Type) where
  onType : BoxType → UInt64 → σ → σ × Res BoxErr
  onToken : BoxType → Bytes → UInt64 → σ → σ × Res BoxErr
  onFinished : BoxType → σ → σ × Res BoxErr

/-- Everything a serializer call may change: context, hashed bytes, callback state. -/
structure BoxSt (σ : Type) where
  c : BoxCtx
  h : Bytes
  s : σ
  deriving DecidableEq, Repr

/-- `MAX_TX_DATA_PART_LEN`, constants.h. -/
def maxPart : Nat := 32768
/-- `MAX_DATA_CHUNK_LEN`, constants.h. -/
def maxChunk : Nat := 255

variable {σ : Type}

/-- `res_error`, tx_ser_box.c:17-21. -/
def BoxSt.fail (x : BoxSt σ) (e : BoxErr) : BoxSt σ × Res BoxErr :=
  ({ x with c := { x.c with state := .error } }, .err e)

/-- `CHECK_CALL_RESULT_OK` applied to a callback result, tx_ser_box.c:10-15. -/
def BoxSt.check (x : BoxSt σ) (r : Res BoxErr) (k : BoxSt σ × Res BoxErr) :
    BoxSt σ × Res BoxErr :=
  match r with
  | .ok => k
  | .more => k
  | .err e => x.fail e
  | .ub => (x, .ub)

/-- `box_finished`, tx_ser_box.c:55-64. -/
def BoxSt.finish (cbs : BoxCbs σ) (x : BoxSt σ) : BoxSt σ × Res BoxErr :=
  let r := cbs.onFinished x.c.type x.s
  let x := { x with s := r.1 }
  x.check r.2 ({ x with c := { x.c with state := .finished } }, .ok)

/-- `add_height_and_token_count` and `add_empty_registers_count`, tx_ser_box.c:23-53: bytes. -/
def heightCountBytes (c : BoxCtx) : Bytes := gvePutU32 c.height ++ gvePutU8 c.tokensCount

/-- `ergo_tree_added`, tx_ser_box.c:66-84. -/
def BoxSt.treeAdded (cbs : BoxCbs σ) (x : BoxSt σ) : BoxSt σ × Res BoxErr :=
  let r := cbs.onType x.c.type x.c.value x.s
  let x := { x with s := r.1 }
  x.check r.2 <|
    let x := { x with h := x.h ++ heightCountBytes x.c }
    if x.c.tokensCount = 0 then
      let x := { x with c := { x.c with state := .tokensAdded } }
      if x.c.regsSize = 0 then BoxSt.finish cbs { x with h := x.h ++ gvePutU8 0 }
      else (x, .ok)
    else ({ x with c := { x.c with state := .treeAdded } }, .ok)

/-- A cleared box context (`memset` in `ergo_tx_serializer_box_init`). -/
def BoxCtx.zero : BoxCtx := ⟨.initialized, 0, 0, 0, 0, 0, .fee⟩

/-- `ergo_tx_serializer_box_init`, tx_ser_box.c:86-126: context, bytes hashed, result. -/
def boxInit (value : UInt64) (treeSize height : UInt32) (tokens : UInt8) (regs : UInt32)
    (h : Bytes) : BoxCtx × Bytes × Res BoxErr :=
  let bad : BoxCtx := { BoxCtx.zero with state := .error }
  if tokens.toNat > tokenMax then (bad, h, .err .tooManyTokens)
  else if treeSize.toNat > maxPart then (bad, h, .err .tooMuchData)
  else if regs.toNat > maxPart then (bad, h, .err .tooMuchData)
  else (⟨.initialized, value, treeSize, height, regs, tokens, .tree⟩, h ++ gvePutU64 value, .ok)

/-- `ergo_tx_serializer_box_add_tree`, tx_ser_box.c:128-151. -/
def BoxSt.addTree (cbs : BoxCbs σ) (x : BoxSt σ) (chunk : Bytes) : BoxSt σ × Res BoxErr :=
  if x.c.state ≠ .initialized then x.fail .badState
  else if x.c.treeSize.toNat < chunk.length then x.fail .tooMuchData
  else if x.c.treeSize.toNat > chunk.length ∧ chunk.length < maxChunk then x.fail .smallChunk
  else
    let size := x.c.treeSize - UInt32.ofNat chunk.length
    let x := { x with h := x.h ++ chunk, c := { x.c with treeSize := size } }
    if size = 0 then BoxSt.treeAdded cbs { x with c := { x.c with type := .tree } }
    else (x, .more)

/-- `ergo_tx_serializer_box_add_miners_fee_tree`, tx_ser_box.c:153-165. -/
def BoxSt.addFeeTree (cbs : BoxCbs σ) (x : BoxSt σ) : BoxSt σ × Res BoxErr :=
  if x.c.state ≠ .initialized then x.fail .badState
  else BoxSt.treeAdded cbs { x with h := x.h ++ minersFeeTree, c := { x.c with type := .fee } }

/-- `ergo_tx_serializer_box_add_change_tree`, tx_ser_box.c:167-179. -/
def BoxSt.addChangeTree (cbs : BoxCbs σ) (x : BoxSt σ) (pk : Bytes) : BoxSt σ × Res BoxErr :=
  if x.c.state ≠ .initialized then x.fail .badState
  else BoxSt.treeAdded cbs
    { x with h := x.h ++ treeGenerateP2pk pk, c := { x.c with type := .change } }

/-- The token table argument of `ergo_tx_serializer_box_add_tokens`: declared count and entries. -/
abbrev TableArg := UInt8 × List Bytes

/-- Reading and hashing of a token id or index, tx_ser_box.c:199-225: token id, rest of the input
and bytes hashed, or the error (and whether it sets the error state). -/
def boxTokenId (table : Option TableArg) (input : Bytes) :
    Except (BoxErr × Bool) (Bytes × Bytes × Bytes) :=
  match table with
  | none =>
    match bufBytes idLen input with
    | none => .error (.badTokenId, true)
    | some (id, rest) => .ok (id, rest, id)
  | some (distinct, t) =>
    match bufU32 input with
    | none => .error (.badTokenIndex, false)
    | some (ix, rest) =>
      if ix.toNat ≥ distinct.toNat then .error (.badTokenIndex, true)
      else .ok (tableEntry t ix.toNat, rest, gvePutU32 ix)

/-- Loop of `ergo_tx_serializer_box_add_tokens`, tx_ser_box.c:188-249. -/
def BoxSt.tokensLoop (cbs : BoxCbs σ) (table : Option TableArg) :
    Nat → Bytes → BoxSt σ → BoxSt σ × Res BoxErr
  | _, [], x => (x, .ok)
  | 0, _ :: _, x => (x, .ub)
  | n + 1, b :: bs, x =>
    if x.c.tokensCount = 0 then x.fail .tooManyTokens
    else
      match boxTokenId table (b :: bs) with
      | .error (e, true) => x.fail e
      | .error (e, false) => (x, .err e)
      | .ok (id, rest, hashed) =>
        let x := { x with h := x.h ++ hashed }
        match bufU64 rest with
        | none => x.fail .badTokenValue
        | some (v, rest) =>
          let x := { x with h := x.h ++ gvePutU64 v }
          let r := cbs.onToken x.c.type id v x.s
          let x := { x with s := r.1 }
          x.check r.2 <|
            BoxSt.tokensLoop cbs table n rest
              { x with c := { x.c with tokensCount := x.c.tokensCount - 1 } }

/-- `ergo_tx_serializer_box_add_tokens`, tx_ser_box.c:181-260. -/
def BoxSt.addTokens (cbs : BoxCbs σ) (table : Option TableArg) (x : BoxSt σ) (input : Bytes) :
    BoxSt σ × Res BoxErr :=
  if x.c.state ≠ .treeAdded then x.fail .badState
  else
    match BoxSt.tokensLoop cbs table input.length input x with
    | (x, .ok) =>
      if x.c.tokensCount = 0 then
        if x.c.regsSize = 0 then BoxSt.finish cbs { x with h := x.h ++ gvePutU8 0 }
        else ({ x with c := { x.c with state := .tokensAdded } }, .ok)
      else (x, .more)
    | r => r

/-- `ergo_tx_serializer_box_add_registers`, tx_ser_box.c:262-281. -/
def BoxSt.addRegisters (cbs : BoxCbs σ) (x : BoxSt σ) (chunk : Bytes) : BoxSt σ × Res BoxErr :=
  if x.c.state ≠ .tokensAdded then x.fail .badState
  else if x.c.regsSize.toNat < chunk.length then x.fail .tooMuchData
  else
    let size := x.c.regsSize - UInt32.ofNat chunk.length
    let x := { x with h := x.h ++ chunk, c := { x.c with regsSize := size } }
    if size = 0 then BoxSt.finish cbs x else (x, .more)

/-- `ergo_tx_serializer_box_id_hash`, tx_ser_box.c:287-313: the box id. -/
def BoxSt.idHash (env : Env) (x : BoxSt σ) (txId : Bytes) (index : UInt16) :
    BoxSt σ × Except BoxErr Bytes :=
  if x.c.state ≠ .finished then
    ({ x with c := { x.c with state := .error } }, .error .badState)
  else
    let h := x.h ++ txId ++ gvePutU16 index
    ({ x with h := h, c := { x.c with state := .hashFinalized } }, .ok (env.blake h))

end Ergo
