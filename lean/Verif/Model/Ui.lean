import Verif.Model.Full
import Verif.Model.Base58
import Verif.Model.Bip32
import Verif.Model.Sw
/-!
# Screens, src/ui/*.c, src/commands/signtx/stx_ui.c

A screen is a title and a value.  Texts whose formatting is in this repository (BIP-32 paths,
base58 addresses, shortened token ids) are modelled as characters; numbers handed to the SDK
functions `format_u64`/`format_fpu64`/`snprintf` are kept as numbers.
-/
namespace Ergo

/-- Titles of the screens. -/
inductive Title where
  | path | p2pkSigning | p2pkPath | application | change | address | scriptHash | fee
  | outputValue | token (n : Nat) | tokenValue (n : Nat) | txAmount | txFee
  | confirmAttest | extPubKeyExport | confirmAddress | confirmSendAddress
  | confirmOutput | approveSigning
  deriving DecidableEq, Repr

/-- Values on the screens. -/
inductive Shown where
  | nothing
  | text (t : List Char)
  | appToken (v : UInt32)
  | erg (v : UInt64)
  | amount (v : UInt64)
  | minting (v : Nat)
  | burning (v : Nat)
  deriving DecidableEq, Repr

/-- One screen. -/
structure Page where
  title : Title
  shown : Shown
  deriving DecidableEq, Repr

/-- Result of a screen callback. -/
inductive ShowRes where
  | page (p : Page)
  | err (sw : UInt16)
  | ub
  deriving DecidableEq, Repr

/-- `format_hex` (SDK): two upper case digits per byte. -/
def hexDigits : List Char :=
  ['0', '1', '2', '3', '4', '5', '6', '7', '8', '9', 'A', 'B', 'C', 'D', 'E', 'F']
/-- Hexadecimal text of a byte string. -/
def hexText (b : Bytes) : List Char :=
  b.flatMap (fun x => [hexDigits.getD (x.toNat / 16) '?', hexDigits.getD (x.toNat % 16) '?'])

/-- `ERGO_ID_UI_CHARACTERS_HALF`, stx_ui.c:21-25. -/
def idHalf (nanoS : Bool) : Nat := if nanoS then 7 else 26

/-- `id_string_remove_middle`, stx_ui.c:32-40. -/
def removeMiddle (half : Nat) (s : List Char) : List Char :=
  if s.length ≤ 2 * half + 3 then s
  else s.take half ++ ['.', '.', '.'] ++ s.drop (s.length - half)

/-- `format_hex_id`, stx_ui.c:42-47. -/
def hexIdText (nanoS : Bool) (id : Bytes) : List Char := removeMiddle (idHalf nanoS) (hexText id)

/-- `sizeof text` of the dynamic screens, stx_types.h. -/
def textLen : Nat := 70
/-- `MAX_BIP32_STRING_LEN`, constants.h. -/
def bip32StrLen : Nat := 60

/-- `output_info_print_address`, stx_ui.c:118-168. -/
def printAddress (env : Env) (o : OutInfo) (network : UInt8) : ShowRes :=
  if ¬ o.finished then .err Sw.badState
  else
    match o.type with
    | .bip32 =>
      match o.data with
      | .path p =>
        match pathFormat p textLen with
        | none => .err Sw.bip32FormattingFailed
        | some t => .page ⟨.change, .text t⟩
      | _ => .ub
    | .address =>
      match o.data with
      | .publicKey k =>
        match addressFromCompressed env network k with
        | none => .err Sw.addressGenerationFailed
        | some raw =>
          match base58Encode raw textLen with
          | none => .err Sw.addressFormattingFailed
          | some t => .page ⟨.address, .text t⟩
      | _ => .ub
    | .script | .scriptHash =>
      match o.data with
      | .treeHash h =>
        match addressFromScriptHash env network h with
        | none => .err Sw.addressGenerationFailed
        | some raw =>
          match base58Encode raw textLen with
          | none => .err Sw.addressFormattingFailed
          | some t => .page ⟨.scriptHash, .text t⟩
      | _ => .ub
    | .minersFee => .page ⟨.fee, .text "Miners Fee".toList⟩
    | .unknown => .err Sw.badState

/-- `ui_stx_display_output_state`, stx_ui.c:170-218. -/
def showOutput (env : Env) (nanoS : Bool) (o : OutInfo) (table : List Bytes) (network : UInt8)
    (screen : Nat) : ShowRes :=
  match screen with
  | 0 => printAddress env o network
  | 1 => .page ⟨.outputValue, .erg o.value⟩
  | k + 2 =>
    match o.usedIndex (k / 2) with
    | none => .err Sw.badTokenIndex
    | some i =>
      if k % 2 = 0 then .page ⟨.token (k / 2 + 1), .text (hexIdText nanoS (tableEntry table i))⟩
      else .page ⟨.tokenValue (k / 2 + 1), .amount (o.tokens.getD i 0)⟩

/-- Number of output screens, `ui_stx_add_output_screens`, stx_ui.c:255-259. -/
def outputScreenCount (o : OutInfo) : Nat :=
  if o.type ≠ .bip32 then 1 + (1 + 2 * o.usedCount) else 1

/-- `ui_stx_display_tx_state`, stx_ui.c:289-347, with `ui_stx_operation_p2pk_show_tx_screen`,
stx_op_p2pk.c:415-428 (`op_screen_count` is 1).  Negating `INT64_MIN` is undefined. -/
def showTx (nanoS : Bool) (path : List UInt32) (a : Amounts) (screen : Nat) : ShowRes :=
  match screen with
  | 0 =>
    match pathFormat path textLen with
    | none => .err Sw.bip32FormattingFailed
    | some t => .page ⟨.p2pkPath, .text t⟩
  | 1 => .page ⟨.txAmount, .erg a.value⟩
  | 2 => .page ⟨.txFee, .erg a.fee⟩
  | k + 3 =>
    match a.nonZeroIndex (k / 2) with
    | none => .err Sw.badTokenIndex
    | some i =>
      if k % 2 = 0 then .page ⟨.token (k / 2 + 1), .text (hexIdText nanoS (tableEntry a.table i))⟩
      else
        let v := a.tokens.getD i 0
        if v < 0 then
          if v = Int64.minValue then .ub
          else .page ⟨.tokenValue (k / 2 + 1), .minting (-v).toUInt64.toNat⟩
        else .page ⟨.tokenValue (k / 2 + 1), .burning v.toUInt64.toNat⟩

/-- Number of transaction screens, `ui_stx_add_transaction_screens`, stx_ui.c:375-384. -/
def txScreenCount (a : Amounts) : Nat := 1 + 2 + 2 * a.nonZeroCount

/-! ## Flows -/

/-- Steps of a flow: fixed screens, the dynamic screen with its two invisible delimiters
(ui_dynamic_flow.c:80-86), Approve and Reject (ui_approve_reject.c:7-22).  `pathApprove` is the
path screen of the signing flow whose validation callback approves (stx_op_p2pk.c:336-343,
ui_bip32_path.c:8-15). -/
inductive FlowStep where
  | info (p : Page)
  | pathApprove (p : Page)
  | upper | dyn | lower
  | approve | reject
  deriving DecidableEq, Repr

/-- Position in the flow on display: `G_ux_flow_steps` (a loop), the index of the step shown, and
`G_dynamic_flow_context` (ui_dynamic_flow.c:12-20; `cur = none` is `INDEX_NOT_EXIST`). -/
structure Flow where
  steps : List FlowStep
  idx : Nat
  count : Nat
  cur : Option Nat
  deriving DecidableEq, Repr

/-- A static flow: fixed screens, then Approve and Reject, `ui_display_screens`, ui_main.h:24-35. -/
def Flow.static (pages : List FlowStep) : Flow := ⟨pages ++ [.approve, .reject], 0, 0, none⟩

/-- A flow with dynamic screens, `ui_add_dynamic_flow_screens`, ui_dynamic_flow.c:88-109, between a
first screen and Approve/Reject. -/
def Flow.dynamic (intro : Page) (count : Nat) : Flow :=
  ⟨[.info intro, .upper, .dyn, .lower, .approve, .reject], 0, count, none⟩

/-- The step on display. -/
def Flow.here (f : Flow) : FlowStep := f.steps.getD f.idx .reject

/-- What a move does: the new flow and, if the dynamic screen has to be drawn, its index. -/
structure Move where
  flow : Flow
  draw : Option Nat
  deriving DecidableEq, Repr

/-- `ui_dynamic_step_left`, ui_dynamic_flow.c:63-78, run when the upper delimiter is reached. -/
def Flow.stepLeft (f : Flow) : Move :=
  match f.cur with
  | none => ⟨{ f with cur := some 0, idx := f.idx + 1 }, some 0⟩
  | some 0 => ⟨{ f with cur := none, idx := f.idx - 1 }, none⟩
  | some (k + 1) => ⟨{ f with cur := some k, idx := f.idx + 1 }, some k⟩

/-- `ui_dynamic_step_right`, ui_dynamic_flow.c:47-61, run when the lower delimiter is reached. -/
def Flow.stepRight (f : Flow) : Move :=
  match f.cur with
  | none => ⟨{ f with cur := some (f.count - 1), idx := f.idx - 1 }, some (f.count - 1)⟩
  | some k =>
    if k < f.count - 1 then ⟨{ f with cur := some (k + 1), idx := f.idx - 1 }, some (k + 1)⟩
    else ⟨{ f with cur := none, idx := f.idx + 1 }, none⟩

/-- Arrival at a step: the delimiters run their callback. -/
def Flow.arrive (f : Flow) : Move :=
  match f.here with
  | .upper => f.stepLeft
  | .lower => f.stepRight
  | _ => ⟨f, none⟩

/-- Right button: next step of the loop. -/
def Flow.right (f : Flow) : Move :=
  Flow.arrive { f with idx := if f.idx + 1 < f.steps.length then f.idx + 1 else 0 }

/-- Left button: previous step of the loop. -/
def Flow.left (f : Flow) : Move :=
  Flow.arrive { f with idx := if f.idx = 0 then f.steps.length - 1 else f.idx - 1 }

end Ergo
