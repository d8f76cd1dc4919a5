import Verif.Model.Amounts
import Verif.Model.Address
/-!
# What is remembered about the output being received, src/commands/signtx/stx_output.{h,c}

The packed `state` byte (`type | 0x40 | 0x80`) is split into `type`, `treeSet`, `boxFinished`; the
union is a sum type and reading another variant than the one written is `ub`.
-/
namespace Ergo

/-- `sign_transaction_output_info_type_e`, stx_output.h:18-25. -/
inductive OutType where
  | unknown | bip32 | address | script | scriptHash | minersFee
  deriving DecidableEq, Repr

/-- The union of stx_output.h:31-36. -/
inductive OutData where
  | zero
  | hashing (bytes : Bytes)
  | publicKey (key : Bytes)
  | treeHash (hash : Bytes)
  | path (p : List UInt32)
  deriving DecidableEq, Repr

/-- `sign_transaction_output_info_ctx_t`, stx_output.h:27-38; `tokens` has 20 entries.  The pointer
to the token table is passed to the functions that read it. -/
structure OutInfo where
  value : UInt64
  tokens : List UInt64
  type : OutType
  treeSet : Bool
  boxFinished : Bool
  data : OutData
  deriving DecidableEq, Repr

/-- `stx_output_info_init`, stx_output.h:46-53. -/
def OutInfo.init (value : UInt64) : OutInfo :=
  ⟨value, List.replicate tokenMax 0, .unknown, false, false, .zero⟩

/-- `stx_output_info_is_finished`, stx_output.h:83-85. -/
def OutInfo.finished (o : OutInfo) : Bool := o.treeSet && o.boxFinished

/-- `maybe_finished`, stx_output.c:22-34. -/
def OutInfo.maybeFinished (env : Env) (o : OutInfo) : Option OutInfo :=
  if o.finished then
    if o.type = .script then
      match o.data with
      | .hashing bs => some { o with data := .treeHash (env.blake bs) }
      | _ => none
    else some o
  else some o

/-- Result of the functions returning a status word: the new context, `SW_BAD_STATE`, or `ub`. -/
inductive OutRes where
  | ok (o : OutInfo)
  | badState
  | ub
  deriving DecidableEq, Repr

/-- Tail call of `maybe_finished` in the setters. -/
def OutRes.ofMaybe : Option OutInfo → OutRes
  | some o => .ok o
  | none => .ub

/-- `stx_output_info_set_bip32`, stx_output.c:36-47. -/
def OutInfo.setBip32 (env : Env) (o : OutInfo) (p : List UInt32) : OutRes :=
  if o.type ≠ .unknown then .badState
  else .ofMaybe ({ o with type := .bip32, treeSet := true, data := .path p }.maybeFinished env)

/-- `stx_output_info_set_fee`, stx_output.c:49-56. -/
def OutInfo.setFee (env : Env) (o : OutInfo) : OutRes :=
  if o.type ≠ .unknown then .badState
  else .ofMaybe ({ o with type := .minersFee, treeSet := true }.maybeFinished env)

/-- Classification of the first chunk, stx_output.c:69-84. -/
def OutInfo.classify (o : OutInfo) (chunk : Bytes) (isFinished : Bool) : OutInfo :=
  match (if chunk.length = 36 ∧ isFinished then treeParseP2pk chunk else none) with
  | some pk => { o with type := .address, treeSet := true, data := .publicKey pk }
  | none =>
    match (if chunk.length = 44 ∧ isFinished then treeParseP2sh chunk else none) with
    | some h => { o with type := .scriptHash, treeSet := true, data := .treeHash h }
    | none => { o with type := .script, data := .hashing [] }

/-- `stx_output_info_add_tree_chunk`, stx_output.c:58-94. -/
def OutInfo.addTreeChunk (env : Env) (o : OutInfo) (chunk : Bytes) (isFinished : Bool) : OutRes :=
  if o.type ≠ .unknown ∧ o.type ≠ .script then .badState
  else if o.treeSet then .badState
  else
    let o := if o.type = .unknown then o.classify chunk isFinished else o
    if o.type = .script then
      match o.data with
      | .hashing bs =>
        .ofMaybe ({ o with data := .hashing (bs ++ chunk), treeSet := o.treeSet || isFinished
          }.maybeFinished env)
      | _ => .ub
    else .ofMaybe (o.maybeFinished env)

/-- `stx_output_info_add_token`, stx_output.c:96-108. -/
def OutInfo.addToken (o : OutInfo) (table : List Bytes) (id : Bytes) (v : UInt64) :
    OutInfo × Res BoxErr :=
  match tableFind table id with
  | none => (o, .err .badTokenId)
  | some i =>
    if o.tokens.getD i 0 ≠ 0 then (o, .err .badTokenValue)
    else ({ o with tokens := o.tokens.set i v }, .ok)

/-- `stx_output_info_set_box_finished`, stx_output.c:110-114. -/
def OutInfo.setBoxFinished (env : Env) (o : OutInfo) : OutInfo × Res BoxErr :=
  match ({ o with boxFinished := true } : OutInfo).maybeFinished env with
  | some o => (o, .ok)
  | none => (o, .ub)

/-- `stx_output_info_used_tokens_count`, stx_output.c:116-122. -/
def OutInfo.usedCount (o : OutInfo) : Nat := o.tokens.countP (· != 0)

/-- `stx_output_info_used_token_index`, stx_output.c:124-131. -/
def OutInfo.usedIndex (o : OutInfo) (k : Nat) : Option Nat := nthIdx (· != 0) o.tokens k 0

end Ergo
