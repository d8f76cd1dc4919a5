/-!
# Result codes of the serializers
-/
namespace Ergo

/-- `*_RES_OK`, `*_RES_MORE_DATA`, an error code, or (model only) undefined behaviour. -/
inductive Res (ε : Type) where
  | ok
  | more
  | err (e : ε)
  | ub
  deriving DecidableEq, Repr

/-- The `CHECK_CALL_RESULT_OK` test: OK and MORE_DATA pass. -/
def Res.passes {ε : Type} : Res ε → Bool
  | .ok => true
  | .more => true
  | _ => false

/-- Map of the error code. -/
def Res.map {ε δ : Type} (f : ε → δ) : Res ε → Res δ
  | .ok => .ok
  | .more => .more
  | .err e => .err (f e)
  | .ub => .ub

/-- `ergo_tx_serializer_table_result_e`, tx_ser_table.h:18-25; `hasher` only occurs in Failing.lean (a failure of the
local buffer is impossible: 5 bytes are written into 10). -/
inductive TableErr where
  | badTokenId | tooManyTokens | hasher
  deriving DecidableEq, Repr

/-- `ergo_tx_serializer_input_result_e`, tx_ser_input.h:12-27; `hasher` only occurs in Failing.lean. -/
inductive InputErr where
  | badContextExtensionSize | badInputId | badFrameIndex | badTokenId | badTokenValue
  | tooManyInputFrames | tooMuchProofData | badState | u64Overflow | tooManyTokens | hasher
  deriving DecidableEq, Repr

/-- `ergo_tx_serializer_box_result_e`, tx_ser_box.h:12-25. -/
inductive BoxErr where
  | badTokenIndex | badTokenId | badTokenValue | tooManyTokens | tooMuchData | badState
  | u64Overflow | smallChunk | hasher
  deriving DecidableEq, Repr

/-- `ergo_tx_serializer_full_result_e`, tx_ser_full.h:14-37. -/
inductive FullErr where
  | badTokenId | badTokenValue | badContextExtensionSize | badDataInput | badInputId
  | badTokenIndex | badFrameIndex | badInputCount | badOutputCount | tooManyTokens
  | tooManyInputs | tooManyDataInputs | tooManyInputFrames | tooManyOutputs | tooMuchData
  | badState | u64Overflow | smallChunk | hasher
  deriving DecidableEq, Repr

/-- `map_table_result`, tx_ser_full.c:37-54. -/
def TableErr.toFull : TableErr → FullErr
  | .badTokenId => .badTokenId
  | .tooManyTokens => .tooManyTokens
  | .hasher => .hasher

/-- `map_input_result`, tx_ser_full.c:56-89. -/
def InputErr.toFull : InputErr → FullErr
  | .badContextExtensionSize => .badContextExtensionSize
  | .badInputId => .badInputId
  | .badFrameIndex => .badFrameIndex
  | .badTokenId => .badTokenId
  | .badTokenValue => .badTokenValue
  | .tooManyInputFrames => .tooManyInputFrames
  | .tooMuchProofData => .tooMuchData
  | .badState => .badState
  | .u64Overflow => .u64Overflow
  | .tooManyTokens => .tooManyTokens
  | .hasher => .hasher

/-- `map_box_result`, tx_ser_full.c:91-119. -/
def BoxErr.toFull : BoxErr → FullErr
  | .badTokenIndex => .badTokenIndex
  | .badTokenId => .badTokenId
  | .badTokenValue => .badTokenValue
  | .tooManyTokens => .tooManyTokens
  | .tooMuchData => .tooMuchData
  | .badState => .badState
  | .u64Overflow => .u64Overflow
  | .smallChunk => .smallChunk
  | .hasher => .hasher

end Ergo
