import Verif.Model.Gve
import Verif.Model.Res
/-!
# Token tables, src/ergo/tx_ser_table.{h,c}

`token_table_t` (`count`, `tokens[20][32]`) is the list of its first `count` entries; the entries
behind `count` are zero bytes (the array is cleared by `memset` and only filled through `count`).
-/
namespace Ergo

/-- `TOKEN_MAX_COUNT`, constants.h. -/
def tokenMax : Nat := 20
/-- `ERGO_ID_LEN`, constants.h. -/
def idLen : Nat := 32
/-- A cleared table entry. -/
def zeroId : Bytes := List.replicate 32 0

/-- `table->tokens[i]`. -/
def tableEntry (t : List Bytes) (i : Nat) : Bytes := t.getD i zeroId

/-- `token_table_find_token_index`, tx_ser_table.h:32-38, and `find_token_index`,
stx_output.c:14-20; `none` is `INDEX_NOT_EXIST`. -/
def tableFind (t : List Bytes) (id : Bytes) : Option Nat :=
  t.findIdx? (· == id)

/-- `token_table_add_token`, tx_ser_table.h:40-46: new table and index. -/
def tableAddToken (t : List Bytes) (id : Bytes) : Option (List Bytes × Nat) :=
  if t.length ≥ tokenMax then none else some (t ++ [id], t.length)

/-- `ergo_tx_serializer_table_init`, tx_ser_table.c:16-31 (the caller keeps the declared count). -/
def tableInit (t : List Bytes) (count : UInt8) : Res TableErr :=
  if t.length ≠ 0 ∨ count.toNat > tokenMax then .err .tooManyTokens else .ok

/-- Loop of `ergo_tx_serializer_table_add` with `parse_token`, tx_ser_table.c:4-14,36-42.
A failed read has already incremented `count`. -/
def tableAddLoop (distinct : UInt8) : Nat → Bytes → List Bytes → List Bytes × Res TableErr
  | _, [], t => (t, .ok)
  | 0, _ :: _, t => (t, .ub)
  | n + 1, b :: bs, t =>
    if t.length ≥ distinct.toNat then (t, .err .tooManyTokens)
    else
      match bufBytes idLen (b :: bs) with
      | none => (t ++ [zeroId], .err .badTokenId)
      | some (id, rest) => tableAddLoop distinct n rest (t ++ [id])

/-- `ergo_tx_serializer_table_add`, tx_ser_table.c:33-47. -/
def tableAdd (distinct : UInt8) (input : Bytes) (t : List Bytes) : List Bytes × Res TableErr :=
  match tableAddLoop distinct input.length input t with
  | (t', .ok) => (t', if t'.length ≥ distinct.toNat then .ok else .more)
  | r => r

/-- `ergo_tx_serializer_table_hash`, tx_ser_table.c:49-65: the bytes hashed. -/
def tableBytes (distinct : UInt8) (t : List Bytes) : Bytes :=
  gvePutU32 distinct.toUInt32 ++
    (List.range distinct.toNat).flatMap (fun i => tableEntry t i)

end Ergo
