import Verif.Model.Ui
/-!
# Texts of the screens in their character arrays

`src/commands/signtx/stx_ui.c`, `src/ui/ui_application_id.c`, `src/ui/ui_bip32_path.c` with the
formatting functions of the C library and of the SDK.

An array of `char` is a list of characters of fixed length, a pointer into it is an offset, and
`none` is an access outside of the array.  `format_u64`, `format_fpu64` and `format_hex` are not in
/repo; they follow the published SDK (lib_standard_app/format.c).
-/
namespace Ergo

/-- The terminator. -/
def nul : Char := Char.ofNat 0

/-- The C string at the start of an array. -/
def cstr (b : List Char) : List Char := b.takeWhile (· ≠ nul)

/-- Writing the characters `s` from offset `i` on. -/
def putAt (b : List Char) (i : Nat) (s : List Char) : Option (List Char) :=
  if i + s.length ≤ b.length then some (b.take i ++ s ++ b.drop (i + s.length)) else none

/-- `strncpy(b + off, s, n)`: the text, cut to `n`, then zeros up to `n` characters. -/
def strncpy (b : List Char) (off n : Nat) (s : List Char) : Option (List Char) :=
  putAt b off (s.take n ++ List.replicate (n - s.length) nul)

/-- `snprintf(b + off, n, …)` for the text `s`: the text, cut to `n - 1`, and the terminator. -/
def snprintf (b : List Char) (off n : Nat) (s : List Char) : Option (List Char) :=
  if n = 0 then some b else putAt b off (s.take (n - 1) ++ [nul])

/-- `strlen(b + off)`; `none` if there is no terminator. -/
def strlen (b : List Char) (off : Nat) : Option Nat :=
  if nul ∈ b.drop off then some (cstr (b.drop off)).length else none

/-- `'0' + d`. -/
def digitChar (d : Nat) : Char := Char.ofNat (48 + d)

/-- First loop of `format_u64` (SDK): digits from the last one on, at `out[i]`, `out[i+1]`, …;
`none` in the result is `return false`.  The result holds the index of the first digit. -/
def u64Digits (b : List Char) (off outLen i v : Nat) : Option (List Char × Option Nat) :=
  if _h : 9 < v then
    match putAt b (off + i) [digitChar (v % 10)] with
    | none => none
    | some b => if i + 2 > outLen then some (b, none) else u64Digits b off outLen (i + 1) (v / 10)
  else
    match putAt b (off + i) [digitChar v, nul] with
    | none => none
    | some b => some (b, some i)
termination_by v
decreasing_by omega

/-- `format_u64(b + off, outLen, v)` (SDK).  The second loop swaps first and last, second and last but
one, and so on; here the digits are reversed. -/
def formatU64 (b : List Char) (off outLen : Nat) (v : UInt64) : Option (List Char × Bool) :=
  if outLen = 0 then some (b, false)
  else
    match u64Digits b off (outLen - 1) 0 v.toNat with
    | none => none
    | some (b, none) => some (b, false)
    | some (b, some i) =>
      match putAt b off ((b.drop off).take (i + 1)).reverse with
      | none => none
      | some b => some (b, true)

/-- `format_fpu64(b, dstLen, v, decimals)` (SDK). -/
def formatFpu64 (b : List Char) (dstLen : Nat) (v : UInt64) (decimals : Nat) :
    Option (List Char × Bool) :=
  match formatU64 (List.replicate 21 nul) 0 21 v with
  | none => none
  | some (_, false) => some (b, false)
  | some (buffer, true) =>
    match strlen buffer 0 with
    | none => none
    | some digits =>
      if digits ≤ decimals then
        if dstLen ≤ 2 + decimals - digits then some (b, false)
        else
          match putAt b 0 ('0' :: '.' :: List.replicate (decimals - digits) '0') with
          | none => none
          | some b =>
            match strncpy b (2 + decimals - digits) (dstLen - (2 + decimals - digits)) (cstr buffer) with
            | none => none
            | some b => some (b, true)
      else if dstLen ≤ digits + 1 + decimals then some (b, false)
      else
        match putAt b 0 (buffer.take (digits - decimals) ++ ['.']) with
        | none => none
        | some b =>
          match strncpy b (digits - decimals + 1) decimals (cstr (buffer.drop (digits - decimals))) with
          | none => none
          | some b => some (b, true)

/-- `format_erg_amount`, stx_ui.c:55-65, with `STRING_ADD_STATIC_TEXT`, stx_ui.c:27-30.
`ERGO_ERG_FRACTION_DIGIT_COUNT` is 9, constants.h. -/
def formatErgAmount (amount : UInt64) (b : List Char) (outLen : Nat) : Option (List Char × Bool) :=
  match formatFpu64 b outLen amount 9 with
  | none => none
  | some (b, false) => some (b, false)
  | some (b, true) =>
    match strlen b 0 with
    | none => none
    | some n =>
      if outLen < 5 ∨ n > outLen - 5 then some (b, false)
      else
        match strncpy b n (outLen - n) " ERG".toList with
        | none => none
        | some b => some (b, true)

/-- `format_hex(id, …, b, outLen)` (SDK): the value returned, -1 if the text does not fit. -/
def formatHex (id : Bytes) (b : List Char) (outLen : Nat) : Option (List Char × Int) :=
  if outLen < 2 * id.length + 1 then some (b, -1)
  else
    match putAt b 0 (hexText id ++ [nul]) with
    | none => none
    | some b => some (b, 2 * id.length + 1)

/-- `id_string_remove_middle`, stx_ui.c:32-40, in place. -/
def cutMiddle (half : Nat) (b : List Char) (len : Nat) : Option (List Char) :=
  if len ≤ 2 * half + 3 then some b
  else
    match putAt b half ['.', '.', '.'] with
    | none => none
    | some b =>
      if b.length < len then none
      else
        match putAt b (half + 3) ((b.drop (len - half)).take half) with
        | none => none
        | some b => putAt b (2 * half + 3) [nul]

/-- `format_hex_id`, stx_ui.c:42-47. -/
def formatHexId (nanoS : Bool) (id : Bytes) (b : List Char) (outLen : Nat) :
    Option (List Char × Bool) :=
  match formatHex id b outLen with
  | none => none
  | some (b, len) =>
    if len ≤ 0 then some (b, false)
    else
      match cutMiddle (idHalf nanoS) b (len - 1).toNat with
      | none => none
      | some b => some (b, true)

/-- `format_b58_id`, stx_ui.c:49-53: `base58_encode` writes no terminator. -/
def formatB58Id (raw : Bytes) (b : List Char) (outLen : Nat) : Option (List Char × Bool) :=
  match base58Encode raw outLen with
  | none => some (b, false)
  | some t =>
    match putAt b 0 t with
    | none => none
    | some b => if t.length = 0 then some (b, false) else some (b, true)

/-- `snprintf`, `strlen` and the test after it, bip32.c:56-62: new array and new offset (`none`: the
text does not go on). -/
def bufPut (outLen : Nat) (b : List Char) (offset : Nat) (txt : List Char) :
    Option (List Char × Option Nat) :=
  match snprintf b offset (outLen - offset) txt with
  | none => none
  | some b =>
    match strlen b offset with
    | none => none
    | some w => if w = 0 ∨ w ≥ outLen - offset then some (b, none) else some (b, some (offset + w))

/-- One component, bip32.c:56-82. -/
def bufComponent (outLen : Nat) (b : List Char) (offset : Nat) (c : UInt32) (last : Bool) :
    Option (List Char × Option Nat) :=
  match bufPut outLen b offset (decimal (c &&& 0x7FFFFFFF).toNat) with
  | none => none
  | some (b, none) => some (b, none)
  | some (b, some offset) =>
    match (if c &&& 0x80000000 ≠ 0 then bufPut outLen b offset ['\'']
      else some (b, some offset)) with
    | none => none
    | some (b, none) => some (b, none)
    | some (b, some offset) =>
      if last then some (b, some offset) else bufPut outLen b offset ['/']

/-- Loop of `bip32_path_format`, bip32.c:53-83. -/
def bufPathLoop (outLen : Nat) : List Char → Nat → List UInt32 → Option (List Char × Option Nat)
  | b, offset, [] => some (b, some offset)
  | b, offset, c :: cs =>
    match bufComponent outLen b offset c cs.isEmpty with
    | none => none
    | some (b, none) => some (b, none)
    | some (b, some offset) => bufPathLoop outLen b offset cs

/-- `bip32_path_format`, bip32.c:45-86. -/
def formatPath (p : List UInt32) (b : List Char) (outLen : Nat) : Option (List Char × Bool) :=
  if p.length = 0 ∨ p.length > 10 then some (b, false)
  else
    match bufPathLoop outLen b 0 p with
    | none => none
    | some (b, some _) => some (b, true)
    | some (b, none) =>
      match putAt b 0 (List.replicate outLen nul) with
      | none => none
      | some b => some (b, false)

/-- What a screen callback leaves: its result and the two arrays. -/
structure Drawn where
  sw : UInt16
  title : List Char
  text : List Char
  deriving DecidableEq, Repr

/-- `sizeof title` of the dynamic screens, stx_types.h:44, 58. -/
def titleLen : Nat := 20

/-- A title by `strncpy` and the text by a formatting function that may refuse. -/
def drawWith (title : List Char) (err : UInt16) (fmt : List Char → Nat → Option (List Char × Bool)) :
    Option Drawn :=
  match strncpy (List.replicate titleLen nul) 0 titleLen title,
      fmt (List.replicate textLen nul) textLen with
  | some t, some (b, ok) => some ⟨if ok then Sw.ok else err, t, b⟩
  | _, _ => none

/-- `output_info_print_address`, stx_ui.c:118-168, after both arrays were filled with zeros. -/
def drawAddress (env : Env) (o : OutInfo) (network : UInt8) : Option Drawn :=
  let zero : Drawn := ⟨Sw.badState, List.replicate titleLen nul, List.replicate textLen nul⟩
  if ¬ o.finished then some zero
  else
    match o.type with
    | .bip32 =>
      match o.data with
      | .path p => drawWith "Change".toList Sw.bip32FormattingFailed (formatPath p)
      | _ => none
    | .address =>
      match o.data with
      | .publicKey k =>
        match addressFromCompressed env network k with
        | none => drawWith "Address".toList Sw.addressGenerationFailed (fun b _ => some (b, false))
        | some raw => drawWith "Address".toList Sw.addressFormattingFailed (formatB58Id raw)
      | _ => none
    | .script | .scriptHash =>
      match o.data with
      | .treeHash h =>
        match addressFromScriptHash env network h with
        | none => drawWith "Script Hash".toList Sw.addressGenerationFailed (fun b _ => some (b, false))
        | some raw => drawWith "Script Hash".toList Sw.addressFormattingFailed (formatB58Id raw)
      | _ => none
    | .minersFee => drawWith "Fee".toList Sw.ok (fun b n => (strncpy b 0 n "Miners Fee".toList).map (·, true))
    | .unknown => some zero

/-- A numbered title by `snprintf`, then the text. -/
def drawToken (n : Nat) (more : List Char) (err : UInt16)
    (fmt : List Char → Nat → Option (List Char × Bool)) : Option Drawn :=
  match snprintf (List.replicate titleLen nul) 0 titleLen ("Token [".toList ++ decimal n ++ more),
      fmt (List.replicate textLen nul) textLen with
  | some t, some (b, ok) => some ⟨if ok then Sw.ok else err, t, b⟩
  | _, _ => none

/-- `ui_stx_display_output_state`, stx_ui.c:170-218.  The result of `format_u64` is not looked at. -/
def drawOutput (env : Env) (nanoS : Bool) (o : OutInfo) (table : List Bytes) (network : UInt8)
    (screen : Nat) : Option Drawn :=
  match screen with
  | 0 => drawAddress env o network
  | 1 => drawWith "Output Value".toList Sw.bufferError (formatErgAmount o.value)
  | k + 2 =>
    match o.usedIndex (k / 2) with
    | none => some ⟨Sw.badTokenIndex, List.replicate titleLen nul, List.replicate textLen nul⟩
    | some i =>
      if k % 2 = 0 then
        drawToken (k / 2 + 1) "]".toList Sw.addressFormattingFailed (formatHexId nanoS (tableEntry table i))
      else
        drawToken (k / 2 + 1) "] Value".toList Sw.ok (fun b n => formatU64 b 0 n (o.tokens.getD i 0))

/-- A static text by `STRING_ADD_STATIC_TEXT`, stx_ui.c:27-30, and a number behind it,
stx_ui.c:336-341. -/
def drawNumber (pre : List Char) (v : UInt64) (b : List Char) (n : Nat) : Option (List Char × Bool) :=
  match strncpy b 0 n pre with
  | none => none
  | some b => formatU64 b pre.length (n - pre.length) v

/-- `ui_stx_display_tx_state`, stx_ui.c:289-347, with `ui_stx_operation_p2pk_show_tx_screen`,
stx_op_p2pk.c:415-428.  Negating `INT64_MIN` is undefined. -/
def drawTx (nanoS : Bool) (path : List UInt32) (a : Amounts) (screen : Nat) : Option Drawn :=
  match screen with
  | 0 => drawWith "P2PK Path".toList Sw.bip32FormattingFailed (formatPath path)
  | 1 => drawWith "Transaction Amount".toList Sw.bufferError (formatErgAmount a.value)
  | 2 => drawWith "Transaction Fee".toList Sw.bufferError (formatErgAmount a.fee)
  | k + 3 =>
    match a.nonZeroIndex (k / 2) with
    | none => some ⟨Sw.badTokenIndex, List.replicate titleLen nul, List.replicate textLen nul⟩
    | some i =>
      if k % 2 = 0 then
        drawToken (k / 2 + 1) "]".toList Sw.addressFormattingFailed
          (formatHexId nanoS (tableEntry a.table i))
      else
        let v := a.tokens.getD i 0
        if v < 0 then
          if v = Int64.minValue then none
          else drawToken (k / 2 + 1) "] Value".toList Sw.ok (drawNumber "Minting: ".toList (-v).toUInt64)
        else drawToken (k / 2 + 1) "] Value".toList Sw.ok (drawNumber "Burning: ".toList v.toUInt64)

/-- Eight hexadecimal digits of a number, `"%08x"`. -/
def hex08 (v : Nat) : List Char :=
  ((List.range 8).map (fun i => "0123456789abcdef".toList.getD (v / 16 ^ (7 - i) % 16) '?'))

/-- `ui_application_id_screen`, ui_application_id.c:14-22: the text array of 11 characters. -/
def drawAppId (v : UInt32) : Option (List Char) :=
  snprintf (List.replicate 11 nul) 0 11 ("0x".toList ++ hex08 v.toNat)

/-- `ui_bip32_path_screen`, ui_bip32_path.c:29-45: the text array of 60 characters. -/
def drawPath (p : List UInt32) : Option (List Char × Bool) :=
  formatPath p (List.replicate bip32StrLen nul) bip32StrLen

end Ergo
