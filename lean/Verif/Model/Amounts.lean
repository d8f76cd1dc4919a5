import Verif.Model.SafeInt
import Verif.Model.Table
/-!
# Amount accounting, src/commands/signtx/stx_amounts.{h,c}
-/
namespace Ergo

/-- `ergo_tx_serializer_box_type_e`, tx_ser_box.h:36-40. -/
inductive BoxType where
  | fee | change | tree
  deriving DecidableEq, Repr

/-- `sign_transaction_amounts_ctx_t`, stx_amounts.h:11-16; `tokens` has 20 entries. -/
structure Amounts where
  fee : UInt64
  value : UInt64
  tokens : List Int64
  table : List Bytes
  deriving DecidableEq, Repr

/-- `stx_amounts_init`, stx_amounts.h:18-20. -/
def Amounts.zero : Amounts := ⟨0, 0, List.replicate tokenMax 0, []⟩

/-- `stx_amounts_add_input`, stx_amounts.h:22-25. -/
def Amounts.addInput (a : Amounts) (v : UInt64) : Option Amounts :=
  match checkedAddU64 a.value v with
  | none => none
  | some s => some { a with value := s }

/-- `stx_amounts_add_input_token`, stx_amounts.c:4-22.  `checked_add_i64` negates a negative left
operand, undefined for `INT64_MIN`. -/
def Amounts.addInputToken (a : Amounts) (id : Bytes) (v : UInt64) : Amounts × Res InputErr :=
  match tableFind a.table id with
  | some i =>
    if a.tokens.getD i 0 = Int64.minValue then (a, .ub)
    else
      match checkedAddI64 (a.tokens.getD i 0) v with
      | none => (a, .err .u64Overflow)
      | some s => ({ a with tokens := a.tokens.set i s }, .ok)
  | none =>
    match tableAddToken a.table id with
    | none => (a, .err .tooManyTokens)
    | some (t, i) =>
      match checkedAddI64 0 v with
      | none => ({ a with table := t, tokens := a.tokens.set i 0 }, .err .u64Overflow)
      | some s => ({ a with table := t, tokens := a.tokens.set i s }, .ok)

/-- `stx_amounts_add_output`, stx_amounts.c:24-47. -/
def Amounts.addOutput (a : Amounts) (ty : BoxType) (v : UInt64) : Amounts × Res BoxErr :=
  match ty with
  | .change =>
    match checkedSubU64 a.value v with
    | none => (a, .err .u64Overflow)
    | some s => ({ a with value := s }, .ok)
  | .fee =>
    match checkedSubU64 a.value v with
    | none => (a, .err .u64Overflow)
    | some s =>
      match checkedAddU64 a.fee v with
      | none => ({ a with value := s }, .err .u64Overflow)
      | some f => ({ a with value := s, fee := f }, .ok)
  | .tree => (a, .ok)

/-- `stx_amounts_add_output_token`, stx_amounts.c:49-64. -/
def Amounts.addOutputToken (a : Amounts) (id : Bytes) (v : UInt64) : Amounts × Res BoxErr :=
  match tableFind a.table id with
  | none => (a, .err .badTokenId)
  | some i =>
    match checkedSubI64 (a.tokens.getD i 0) v with
    | none => (a, .err .u64Overflow)
    | some s => ({ a with tokens := a.tokens.set i s }, .ok)

/-- `stx_amounts_non_zero_tokens_count`, stx_amounts.c:66-72. -/
def Amounts.nonZeroCount (a : Amounts) : Nat := a.tokens.countP (· != 0)

/-- Loop shared by `stx_amounts_non_zero_token_index` (stx_amounts.c:74-81) and
`stx_output_info_used_token_index` (stx_output.c:124-131): position of the `k`-th entry
satisfying `p`, counted from position `i`. -/
def nthIdx {α : Type} (p : α → Bool) : List α → Nat → Nat → Option Nat
  | [], _, _ => none
  | x :: xs, k, i =>
    if p x then (if k = 0 then some i else nthIdx p xs (k - 1) (i + 1)) else nthIdx p xs k (i + 1)

/-- `stx_amounts_non_zero_token_index`, stx_amounts.c:74-81. -/
def Amounts.nonZeroIndex (a : Amounts) (k : Nat) : Option Nat := nthIdx (· != 0) a.tokens k 0

end Ergo
