import Verif.Model.Device
/-!
# The application with calls of the operating system that may fail

Every call whose result the code tests is made here, in the order of the code: the hash functions of
helpers/blake2b.c:3-23, the key functions of helpers/crypto.c, the curve and modular arithmetic of
ergo/schnorr.c.  `ok n` says whether the call with number `n` (counted from the start of the event)
works; a call that works gives what the functions of `Env` give.  (`cx_hmac_sha256`, whose result the
code does not test, and the random numbers are not counted.)  What a failed call leaves in the hash
context is not kept: the handlers answer with an error and wipe their context.

The functions here are those of the other model files with the calls put in; the parts of the code
that make no call are taken over unchanged.
-/
namespace Ergo

/-- A computation with calls: from the number of calls made so far to the result and the new number. -/
def Calls (α : Type) : Type := Nat → α × Nat

namespace Calls

/-- No call. -/
def ret {α : Type} (a : α) : Calls α := fun n => (a, n)

/-- One after the other. -/
def andThen {α β : Type} (m : Calls α) (f : α → Calls β) : Calls β := fun n => f (m n).1 (m n).2

/-- The result changed without a call. -/
def map {α β : Type} (f : α → β) (m : Calls α) : Calls β := fun n => (f (m n).1, (m n).2)

/-- `if (!call(…)) return bad;` followed by the rest. -/
def need {α : Type} (ok : Nat → Bool) (bad : α) (rest : Calls α) : Calls α :=
  fun n => if ok n then rest (n + 1) else (bad, n + 1)

/-- The same for `k` calls in a row. -/
def needs {α : Type} (ok : Nat → Bool) : Nat → α → Calls α → Calls α
  | 0, _, rest => rest
  | k + 1, bad, rest => need ok bad (needs ok k bad rest)

end Calls

open Calls

variable {σ : Type}

/-! ## Keys, addresses, Schnorr -/

/-- `crypto_generate_public_key`, helpers/crypto.c:81-106, with `crypto_derive_private_key`, 24-47 (two
calls), and `crypto_init_public_key`, 67-79 (one). -/
def Env.genPublicF (env : Env) (ok : Nat → Bool) (path : List UInt32) : Calls (Option (Bytes × Bytes)) :=
  need ok none <|
    match env.derive path with
    | none => ret none
    | some (k, c) =>
      needs ok 2 none <|
        match env.pubOf k with
        | none => ret none
        | some p => ret (some (p, c))

/-- `crypto_generate_private_key`, helpers/crypto.c:49-65. -/
def Env.genPrivateF (env : Env) (ok : Nat → Bool) (path : List UInt32) : Calls (Option Bytes) :=
  need ok none <|
    match env.derive path with
    | none => ret none
    | some (k, _) => need ok none (ret (some k))

/-- `ergo_address_from_pubkey`, address.c:16-61: the checksum is one call. -/
def addressFromPubkeyF (env : Env) (ok : Nat → Bool) (network : UInt8) (pk : Bytes) :
    Calls (Option Bytes) :=
  if networkValid network then
    need ok none (ret (some (withChecksum env ((1 + network) :: compress pk))))
  else ret none

/-- `ergo_address_from_compressed_pubkey`, address.c:16-55,63-67. -/
def addressFromCompressedF (env : Env) (ok : Nat → Bool) (network : UInt8) (pk : Bytes) :
    Calls (Option Bytes) :=
  if networkValid network then
    need ok none (ret (some (withChecksum env ((1 + network) :: pk.take 33))))
  else ret none

/-- `ergo_address_from_script_hash`, address.c:69-92. -/
def addressFromScriptHashF (env : Env) (ok : Nat → Bool) (network : UInt8) (hash : Bytes) :
    Calls (Option Bytes) :=
  if networkValid network then
    need ok none (ret (some (withChecksum env ((2 + network) :: hash.take 24))))
  else ret none

/-- One pass of the loop body, schnorr.c:34-81: two hash calls, the comparison with the order (not
made for zero), the multiplication, two hash calls, the draw, the comparison, the multiplication, a
hash call.  A failed call ends the pass like an unusable draw. -/
def schnorrTryF (env : Env) (ok : Nat → Bool) (secret draw : Bytes) : Calls (Option (Bytes × Bytes)) :=
  needs ok 2 none <|
    if beNat secret = 0 then ret none
    else
      need ok none <|
        if beNat secret > secpN then ret none
        else
          need ok none <|
            match env.mulG secret with
            | none => ret none
            | some pk =>
              needs ok 2 none <|
                if beNat draw = 0 then ret none
                else
                  need ok none <|
                    if beNat draw > secpN then ret none
                    else
                      need ok none <|
                        match env.mulG draw with
                        | none => ret none
                        | some w =>
                          need ok none <| ret <|
                            some (schnorrPrefix ++ compress pk ++ schnorrSuffix ++ compress w, draw)

/-- Loop of `ergo_secp256k1_schnorr_p2pk_sign_init`, schnorr.c:32-86. -/
def schnorrInitLoopF (env : Env) (ok : Nat → Bool) (secret : Bytes) (draws : Nat → Bytes) :
    Nat → Nat → Calls (Option (Bytes × Bytes))
  | 0, _ => ret none
  | fuel + 1, i =>
    andThen (schnorrTryF env ok secret (draws i)) fun r =>
      match r with
      | some r => ret (some r)
      | none => schnorrInitLoopF env ok secret draws fuel (i + 1)

/-- `ergo_secp256k1_schnorr_p2pk_sign_init`, schnorr.c:28-88. -/
def schnorrInitF (env : Env) (ok : Nat → Bool) (secret : Bytes) (draws : Nat → Bytes) :
    Calls (Option (Bytes × Bytes)) :=
  schnorrInitLoopF env ok secret draws 100 0

/-- `ergo_secp256k1_schnorr_p2pk_sign_finish`, schnorr.c:90-118: the end of the hash, the product and
the sum. -/
def schnorrFinishF (env : Env) (ok : Nat → Bool) (transcript secret key : Bytes) :
    Calls (Option Bytes) :=
  need ok none <|
    let c := (env.blake transcript).take 24
    if beNat c = 0 then ret none
    else
      let prod := beNat c * beNat secret % secpN
      needs ok 2 none (ret (some (c ++ beBytes 32 ((beNat key + prod) % secpN))))

/-! ## Box serializer -/

/-- `CHECK_CALL_RESULT_OK` applied to a callback result, tx_ser_box.c:10-15. -/
def BoxSt.checkF (x : BoxSt σ) (r : Res BoxErr) (k : Calls (BoxSt σ × Res BoxErr)) :
    Calls (BoxSt σ × Res BoxErr) :=
  match r with
  | .ok => k
  | .more => k
  | .err e => ret (x.fail e)
  | .ub => ret (x, .ub)

/-- Callbacks of the box serializer; only `on_finished` makes a call. -/
structure BoxCbsF (σ : Type) where
  cbs : BoxCbs σ
  onFinished : BoxType → σ → Calls (σ × Res BoxErr)

/-- `box_finished`, tx_ser_box.c:55-64. -/
def BoxSt.finishF (cbs : BoxCbsF σ) (x : BoxSt σ) : Calls (BoxSt σ × Res BoxErr) :=
  map (fun r =>
    let x := { x with s := r.1 }
    x.check r.2 ({ x with c := { x.c with state := .finished } }, .ok)) (cbs.onFinished x.c.type x.s)

/-- `ergo_tree_added`, tx_ser_box.c:66-84, with `add_height_and_token_count`, 23-41 (two calls), and
`add_empty_registers_count`, 43-53 (one). -/
def BoxSt.treeAddedF (ok : Nat → Bool) (cbs : BoxCbsF σ) (x : BoxSt σ) : Calls (BoxSt σ × Res BoxErr) :=
  let r := cbs.cbs.onType x.c.type x.c.value x.s
  let x := { x with s := r.1 }
  x.checkF r.2 <|
    needs ok 2 (x.fail .hasher) <|
      let x := { x with h := x.h ++ heightCountBytes x.c }
      if x.c.tokensCount = 0 then
        let x := { x with c := { x.c with state := .tokensAdded } }
        if x.c.regsSize = 0 then
          need ok (x.fail .hasher) (BoxSt.finishF cbs { x with h := x.h ++ gvePutU8 0 })
        else ret (x, .ok)
      else ret ({ x with c := { x.c with state := .treeAdded } }, .ok)

/-- `ergo_tx_serializer_box_init`, tx_ser_box.c:86-126. -/
def boxInitF (ok : Nat → Bool) (value : UInt64) (treeSize height : UInt32) (tokens : UInt8)
    (regs : UInt32) (h : Bytes) : Calls (BoxCtx × Bytes × Res BoxErr) :=
  let bad : BoxCtx := { BoxCtx.zero with state := .error }
  if tokens.toNat > tokenMax then ret (bad, h, .err .tooManyTokens)
  else if treeSize.toNat > maxPart then ret (bad, h, .err .tooMuchData)
  else if regs.toNat > maxPart then ret (bad, h, .err .tooMuchData)
  else
    need ok (bad, h, .err .hasher) <| ret
      (⟨.initialized, value, treeSize, height, regs, tokens, .tree⟩, h ++ gvePutU64 value, .ok)

/-- `ergo_tx_serializer_box_add_tree`, tx_ser_box.c:128-151. -/
def BoxSt.addTreeF (ok : Nat → Bool) (cbs : BoxCbsF σ) (x : BoxSt σ) (chunk : Bytes) :
    Calls (BoxSt σ × Res BoxErr) :=
  if x.c.state ≠ .initialized then ret (x.fail .badState)
  else if x.c.treeSize.toNat < chunk.length then ret (x.fail .tooMuchData)
  else if x.c.treeSize.toNat > chunk.length ∧ chunk.length < maxChunk then ret (x.fail .smallChunk)
  else
    need ok (x.fail .hasher) <|
      let size := x.c.treeSize - UInt32.ofNat chunk.length
      let x := { x with h := x.h ++ chunk, c := { x.c with treeSize := size } }
      if size = 0 then BoxSt.treeAddedF ok cbs { x with c := { x.c with type := .tree } }
      else ret (x, .more)

/-- `ergo_tx_serializer_box_add_miners_fee_tree`, tx_ser_box.c:153-165. -/
def BoxSt.addFeeTreeF (ok : Nat → Bool) (cbs : BoxCbsF σ) (x : BoxSt σ) : Calls (BoxSt σ × Res BoxErr) :=
  if x.c.state ≠ .initialized then ret (x.fail .badState)
  else
    need ok (x.fail .hasher) <|
      BoxSt.treeAddedF ok cbs { x with h := x.h ++ minersFeeTree, c := { x.c with type := .fee } }

/-- `ergo_tx_serializer_box_add_change_tree`, tx_ser_box.c:167-179. -/
def BoxSt.addChangeTreeF (ok : Nat → Bool) (cbs : BoxCbsF σ) (x : BoxSt σ) (pk : Bytes) :
    Calls (BoxSt σ × Res BoxErr) :=
  if x.c.state ≠ .initialized then ret (x.fail .badState)
  else
    need ok (x.fail .hasher) <| BoxSt.treeAddedF ok cbs
      { x with h := x.h ++ treeGenerateP2pk pk, c := { x.c with type := .change } }

/-- Loop of `ergo_tx_serializer_box_add_tokens`, tx_ser_box.c:188-249: a call for the token and a call
for its amount. -/
def BoxSt.tokensLoopF (ok : Nat → Bool) (cbs : BoxCbsF σ) (table : Option TableArg) :
    Nat → Bytes → BoxSt σ → Calls (BoxSt σ × Res BoxErr)
  | _, [], x => ret (x, .ok)
  | 0, _ :: _, x => ret (x, .ub)
  | n + 1, b :: bs, x =>
    if x.c.tokensCount = 0 then ret (x.fail .tooManyTokens)
    else
      match boxTokenId table (b :: bs) with
      | .error (e, true) => ret (x.fail e)
      | .error (e, false) => ret (x, .err e)
      | .ok (id, rest, hashed) =>
        need ok (x.fail .hasher) <|
          let x := { x with h := x.h ++ hashed }
          match bufU64 rest with
          | none => ret (x.fail .badTokenValue)
          | some (v, rest) =>
            need ok (x.fail .hasher) <|
              let x := { x with h := x.h ++ gvePutU64 v }
              let r := cbs.cbs.onToken x.c.type id v x.s
              let x := { x with s := r.1 }
              x.checkF r.2 <|
                BoxSt.tokensLoopF ok cbs table n rest
                  { x with c := { x.c with tokensCount := x.c.tokensCount - 1 } }

/-- `ergo_tx_serializer_box_add_tokens`, tx_ser_box.c:181-260. -/
def BoxSt.addTokensF (ok : Nat → Bool) (cbs : BoxCbsF σ) (table : Option TableArg) (x : BoxSt σ)
    (input : Bytes) : Calls (BoxSt σ × Res BoxErr) :=
  if x.c.state ≠ .treeAdded then ret (x.fail .badState)
  else
    andThen (BoxSt.tokensLoopF ok cbs table input.length input x) fun r =>
      match r with
      | (x, .ok) =>
        if x.c.tokensCount = 0 then
          if x.c.regsSize = 0 then
            need ok (x.fail .hasher) (BoxSt.finishF cbs { x with h := x.h ++ gvePutU8 0 })
          else ret ({ x with c := { x.c with state := .tokensAdded } }, .ok)
        else ret (x, .more)
      | r => ret r

/-- `ergo_tx_serializer_box_add_registers`, tx_ser_box.c:262-281. -/
def BoxSt.addRegistersF (ok : Nat → Bool) (cbs : BoxCbsF σ) (x : BoxSt σ) (chunk : Bytes) :
    Calls (BoxSt σ × Res BoxErr) :=
  if x.c.state ≠ .tokensAdded then ret (x.fail .badState)
  else if x.c.regsSize.toNat < chunk.length then ret (x.fail .tooMuchData)
  else
    need ok (x.fail .hasher) <|
      let size := x.c.regsSize - UInt32.ofNat chunk.length
      let x := { x with h := x.h ++ chunk, c := { x.c with regsSize := size } }
      if size = 0 then BoxSt.finishF cbs x else ret (x, .more)

/-- `ergo_tx_serializer_box_id_hash`, tx_ser_box.c:287-313: three calls. -/
def BoxSt.idHashF (env : Env) (ok : Nat → Bool) (x : BoxSt σ) (txId : Bytes) (index : UInt16) :
    Calls (BoxSt σ × Except BoxErr Bytes) :=
  if x.c.state ≠ .finished then
    ret ({ x with c := { x.c with state := .error } }, .error .badState)
  else
    needs ok 3 ({ x with c := { x.c with state := .error } }, .error .hasher) <|
      let h := x.h ++ txId ++ gvePutU16 index
      ret ({ x with h := h, c := { x.c with state := .hashFinalized } }, .ok (env.blake h))

/-! ## Input serializer and token table -/

/-- `ergo_tx_serializer_input_add_tokens`, tx_ser_input.c:40-96: the box id, the empty proof and the
empty extension are one call each. -/
def InputSt.addTokensF (ok : Nat → Bool) (x : InputSt) (boxId : Bytes) (index : UInt8) (tokens : Bytes) :
    Calls (InputSt × Res InputErr) :=
  if x.c.state ≠ .framesStarted then ret (x.fail .badState)
  else if x.c.boxId ≠ boxId then ret (x.fail .badInputId)
  else if index ≥ x.c.framesCount then ret (x.fail .tooManyInputFrames)
  else if index ≠ x.c.framesProcessed then ret (x.fail .badFrameIndex)
  else
    match InputSt.tokensLoop tokens.length tokens x with
    | (x, .ok) =>
      let x := { x with c := { x.c with framesProcessed := x.c.framesProcessed + 1 } }
      if x.c.framesProcessed = x.c.framesCount then
        needs ok 2 (x.fail .hasher) <|
          if x.c.extSize = 0 then
            need ok (x.fail .hasher) <| ret
              ({ x with h := x.h ++ boxId ++ [0] ++ [0], c := { x.c with state := .finished } }, .ok)
          else
            ret ({ x with h := x.h ++ boxId ++ [0], c := { x.c with state := .extensionStarted } }, .ok)
      else ret (x, .more)
    | r => ret r

/-- `ergo_tx_serializer_input_add_context_extension`, tx_ser_input.c:98-115. -/
def InputSt.addExtensionF (ok : Nat → Bool) (x : InputSt) (chunk : Bytes) :
    Calls (InputSt × Res InputErr) :=
  if x.c.state ≠ .extensionStarted then ret (x.fail .badState)
  else if x.c.extSize.toNat < chunk.length then ret (x.fail .tooMuchProofData)
  else
    need ok (x.fail .hasher) <|
      let size := x.c.extSize - UInt32.ofNat chunk.length
      let x := { x with h := x.h ++ chunk, c := { x.c with extSize := size } }
      if size = 0 then ret ({ x with c := { x.c with state := .finished } }, .ok) else ret (x, .more)

/-- `ergo_tx_serializer_table_hash`, tx_ser_table.c:49-65: a call for the count and one for each entry. -/
def tableHashF (ok : Nat → Bool) (distinct : UInt8) : Calls (Res TableErr) :=
  needs ok (1 + distinct.toNat) (.err .hasher) (ret .ok)

/-! ## Output info -/

/-- `maybe_finished`, stx_output.c:22-34: the end of the tree hash is a call.  The inner option is that
of `OutInfo.maybeFinished`, the outer one the failure. -/
def OutInfo.maybeFinishedF (env : Env) (ok : Nat → Bool) (o : OutInfo) :
    Calls (Option (Option OutInfo)) :=
  if o.finished then
    if o.type = .script then
      need ok none <|
        match o.data with
        | .hashing bs => ret (some (some { o with data := .treeHash (env.blake bs) }))
        | _ => ret (some none)
    else ret (some (some o))
  else ret (some (some o))

/-- Tail call of `maybe_finished` in the setters; `none` is `SW_HASHER_ERROR`, the status word of
`ERGO_TX_SERIALIZER_BOX_RES_ERR_HASHER`, helpers/sw_result.h:72-73. -/
def outOfMaybeF (m : Calls (Option (Option OutInfo))) : Calls (Option OutRes) :=
  map (fun r => r.map OutRes.ofMaybe) m

/-- `stx_output_info_set_bip32`, stx_output.c:36-47. -/
def OutInfo.setBip32F (env : Env) (ok : Nat → Bool) (o : OutInfo) (p : List UInt32) :
    Calls (Option OutRes) :=
  if o.type ≠ .unknown then ret (some .badState)
  else outOfMaybeF
    (OutInfo.maybeFinishedF env ok { o with type := .bip32, treeSet := true, data := .path p })

/-- `stx_output_info_set_fee`, stx_output.c:49-56. -/
def OutInfo.setFeeF (env : Env) (ok : Nat → Bool) (o : OutInfo) : Calls (Option OutRes) :=
  if o.type ≠ .unknown then ret (some .badState)
  else outOfMaybeF (OutInfo.maybeFinishedF env ok { o with type := .minersFee, treeSet := true })

/-- `stx_output_info_add_tree_chunk`, stx_output.c:58-94: a call to start the tree hash, if the first
chunk is classified as a script, and one to hash the chunk. -/
def OutInfo.addTreeChunkF (env : Env) (ok : Nat → Bool) (o : OutInfo) (chunk : Bytes)
    (isFinished : Bool) : Calls (Option OutRes) :=
  if o.type ≠ .unknown ∧ o.type ≠ .script then ret (some .badState)
  else if o.treeSet then ret (some .badState)
  else
    let o' := if o.type = .unknown then o.classify chunk isFinished else o
    needs ok (if o.type = .unknown ∧ o'.type = .script then 1 else 0) none <|
      if o'.type = .script then
        need ok none <|
          match o'.data with
          | .hashing bs =>
            outOfMaybeF (OutInfo.maybeFinishedF env ok
              { o' with data := .hashing (bs ++ chunk), treeSet := o'.treeSet || isFinished })
          | _ => ret (some .ub)
      else outOfMaybeF (o'.maybeFinishedF env ok)

/-- `stx_output_info_set_box_finished`, stx_output.c:110-114. -/
def OutInfo.setBoxFinishedF (env : Env) (ok : Nat → Bool) (o : OutInfo) :
    Calls (OutInfo × Res BoxErr) :=
  map (fun r =>
    match r with
    | none => (o, .err .hasher)
    | some (some o) => (o, .ok)
    | some none => (o, .ub)) (OutInfo.maybeFinishedF env ok { o with boxFinished := true })

/-! ## Transaction serializer -/

/-- The callbacks of stx_op_p2pk.c:40-63. -/
def accCbsF (env : Env) (ok : Nat → Bool) : BoxCbsF Acc where
  cbs := accCbs env
  onFinished _ s := map (fun r => ({ s with o := r.1 }, r.2)) (s.o.setBoxFinishedF env ok)

/-- `data_inputs_finished`, tx_ser_full.c:127-137. -/
def FullSt.dataInputsFinishedF (ok : Nat → Bool) (x : FullSt) : Calls (FullSt × Res FullErr) :=
  andThen (tableHashF ok x.c.distinct) fun r =>
    match r with
    | .err e => ret (x.fail e.toFull)
    | _ => need ok (x.fail .hasher) (ret x.dataInputsFinished)

/-- `input_finished`, tx_ser_full.c:139-152. -/
def FullSt.inputFinishedF (ok : Nat → Bool) (x : FullSt) : Calls (FullSt × Res FullErr) :=
  let x := { x with c := { x.c with inputs := x.c.inputs - 1 } }
  if x.c.inputs = 0 then
    need ok (x.fail .hasher) <|
      let x := { x with
        h := x.h ++ gvePutU16 x.c.dataInputs, c := { x.c with state := .dataInputsStarted } }
      if x.c.dataInputs = 0 then x.dataInputsFinishedF ok else ret (x, .ok)
  else ret (x, .ok)

/-- `ergo_tx_serializer_full_init`, tx_ser_full.c:163-196: the number of inputs is one call. -/
def fullInitF (ok : Nat → Bool) (inputs dataInputs outputs : UInt16) (tokens : UInt8)
    (table : List Bytes) (h : Bytes) : Calls (FullCtx × Bytes × Res FullErr) :=
  if inputs = 0 then ret (⟨.error, 0, 0, 0, 0, .zeroed⟩, h, .err .badInputCount)
  else if outputs = 0 then ret (⟨.error, 0, 0, 0, 0, .zeroed⟩, h, .err .badOutputCount)
  else
    need ok (⟨.error, 0, 0, 0, 0, .zeroed⟩, h, .err .hasher)
      (ret (fullInit inputs dataInputs outputs tokens table h))

/-- `ergo_tx_serializer_full_add_input_tokens`, tx_ser_full.c:238-255. -/
def FullSt.addInputTokensF (ok : Nat → Bool) (x : FullSt) (boxId : Bytes) (index : UInt8)
    (tokens : Bytes) : Calls (FullSt × Res FullErr) :=
  if x.c.state ≠ .inputsStarted then ret (x.fail .badState)
  else
    match x.c.sub with
    | .input i =>
      andThen (InputSt.addTokensF ok ⟨i, x.h, x.s.a⟩ boxId index tokens) fun r =>
        let x : FullSt := { x with
          h := r.1.h, s := { x.s with a := r.1.a }, c := { x.c with sub := .input r.1.c } }
        match r.2 with
        | .ok => if r.1.c.state = .finished then x.inputFinishedF ok else ret (x, .ok)
        | .more => ret (x, .more)
        | .err e => ret (x.fail e.toFull)
        | .ub => ret (x, .ub)
    | _ => ret (x, .ub)

/-- `ergo_tx_serializer_full_add_input_context_extension`, tx_ser_full.c:257-267. -/
def FullSt.addInputExtensionF (ok : Nat → Bool) (x : FullSt) (chunk : Bytes) :
    Calls (FullSt × Res FullErr) :=
  if x.c.state ≠ .inputsStarted then ret (x.fail .badState)
  else
    match x.c.sub with
    | .input i =>
      andThen (InputSt.addExtensionF ok ⟨i, x.h, x.s.a⟩ chunk) fun r =>
        let x : FullSt := { x with
          h := r.1.h, s := { x.s with a := r.1.a }, c := { x.c with sub := .input r.1.c } }
        match r.2 with
        | .ok => x.inputFinishedF ok
        | .more => ret (x, .more)
        | .err e => ret (x.fail e.toFull)
        | .ub => ret (x, .ub)
    | _ => ret (x, .ub)

/-- Loop of `ergo_tx_serializer_full_add_data_inputs`, tx_ser_full.c:273-285. -/
def FullSt.dataInputsLoopF (ok : Nat → Bool) : Nat → Bytes → FullSt → Calls (FullSt × Res FullErr)
  | _, [], x => ret (x, .ok)
  | 0, _ :: _, x => ret (x, .ub)
  | n + 1, b :: bs, x =>
    if x.c.dataInputs = 0 then ret (x.fail .tooManyDataInputs)
    else
      match bufBytes idLen (b :: bs) with
      | none => ret (x.fail .badDataInput)
      | some (id, rest) =>
        need ok (x.fail .hasher) <|
          FullSt.dataInputsLoopF ok n rest
            { x with h := x.h ++ id, c := { x.c with dataInputs := x.c.dataInputs - 1 } }

/-- `ergo_tx_serializer_full_add_data_inputs`, tx_ser_full.c:269-290. -/
def FullSt.addDataInputsF (ok : Nat → Bool) (x : FullSt) (input : Bytes) :
    Calls (FullSt × Res FullErr) :=
  if x.c.state ≠ .dataInputsStarted then ret (x.fail .badState)
  else
    andThen (FullSt.dataInputsLoopF ok input.length input x) fun r =>
      match r with
      | (x, .ok) => if x.c.dataInputs = 0 then x.dataInputsFinishedF ok else ret (x, .more)
      | r => ret r

/-- `ergo_tx_serializer_full_add_box`, tx_ser_full.c:292-312. -/
def FullSt.addBoxF (ok : Nat → Bool) (x : FullSt) (value : UInt64) (treeSize height : UInt32)
    (tokens : UInt8) (regs : UInt32) : Calls (FullSt × Res FullErr) :=
  if x.c.state ≠ .outputsStarted then ret (x.fail .badState)
  else if x.c.outputs = 0 then ret (x.fail .tooManyOutputs)
  else
    map (fun r =>
      let x : FullSt := { x with h := r.2.1, c := { x.c with sub := .box r.1 } }
      match r.2.2 with
      | .err e => x.fail e.toFull
      | .ub => (x, .ub)
      | _ => (x, .ok)) (boxInitF ok value treeSize height tokens regs x.h)

/-- The box part functions, tx_ser_full.c:314-386. -/
def FullSt.boxPartF (x : FullSt) (f : BoxSt Acc → Calls (BoxSt Acc × Res BoxErr)) :
    Calls (FullSt × Res FullErr) :=
  if x.c.state ≠ .outputsStarted then ret (x.fail .badState)
  else
    match x.c.sub with
    | .box b =>
      map (fun r =>
        let x : FullSt := { x with h := r.1.h, s := r.1.s, c := { x.c with sub := .box r.1.c } }
        match r.2 with
        | .ok => if r.1.c.state = .finished then x.outputFinished else (x, .ok)
        | .more => (x, .more)
        | .err e => x.fail e.toFull
        | .ub => (x, .ub)) (f ⟨b, x.h, x.s⟩)
    | _ => ret (x, .ub)

/-! ## The signing operation -/

/-- `stx_operation_p2pk_init`, stx_op_p2pk.c:65-99. -/
def p2pkInitF (env : Env) (ok : Nat → Bool) (path : List UInt32) (network : UInt8)
    (draws : Nat → Bytes) : Calls OpRes :=
  if ¬ pathValidate path .addressGe5 then ret (.err Sw.bip32BadPath)
  else if ¬ networkSupported network then ret (.err Sw.badNetType)
  else
    andThen (env.genPrivateF ok path) fun r =>
      match r with
      | none => ret (.err Sw.internalCryptoError)
      | some secret =>
        map (fun r =>
          match r with
          | none => .err Sw.internalCryptoError
          | some (h, key) => .ok ⟨.initialized, key, path, h, network, .zero, .zero⟩)
          (schnorrInitF env ok secret draws)

/-- `stx_operation_p2pk_start_tx`, stx_op_p2pk.c:101-118. -/
def P2pk.startTxF (ok : Nat → Bool) (p : P2pk) (inputs dataInputs outputs : UInt16) (tokens : UInt8) :
    Calls OpRes :=
  if p.state ≠ .initialized then ret (.err Sw.badState)
  else
    map (fun r =>
      match r with
      | (_, _, .err e) => .err e.sw
      | (_, _, .ub) => .ub
      | (tx, h, _) =>
        .ok { p with state := .txStarted, hash := h, amounts := .zero
                     u := .transaction ⟨tx, none, []⟩ })
      (fullInitF ok inputs dataInputs outputs tokens p.amounts.table p.hash)

/-- A serializer call that only uses the amounts, stx_op_p2pk.c:17-18. -/
def P2pk.withTxF (p : P2pk) (f : FullSt → Calls (FullSt × Res FullErr)) : Calls OpRes :=
  match p.u with
  | .transaction t =>
    map (fun r =>
      match r with
      | (x, .ok) | (x, .more) =>
        .ok { p with hash := x.h, amounts := x.s.a, u := .transaction { t with tx := x.c } }
      | (_, .err e) => .err e.sw
      | (_, .ub) => .ub) (f ⟨t.tx, p.hash, ⟨p.amounts, t.out.getD (.init 0)⟩⟩)
  | _ => ret .ub

/-- `stx_operation_p2pk_add_input_tokens`, stx_op_p2pk.c:153-164. -/
def P2pk.addInputTokensF (ok : Nat → Bool) (p : P2pk) (boxId : Bytes) (index : UInt8)
    (tokens : Bytes) : Calls OpRes :=
  if p.state ≠ .inputsStarted then ret (.err Sw.badState)
  else p.withTxF (fun x => x.addInputTokensF ok boxId index tokens)

/-- `stx_operation_p2pk_add_input_context_extension`, stx_op_p2pk.c:166-173. -/
def P2pk.addExtensionF (ok : Nat → Bool) (p : P2pk) (chunk : Bytes) : Calls OpRes :=
  if p.state ≠ .inputsStarted then ret (.err Sw.badState)
  else p.withTxF (fun x => x.addInputExtensionF ok chunk)

/-- `stx_operation_p2pk_add_data_inputs`, stx_op_p2pk.c:175-181. -/
def P2pk.addDataInputsF (ok : Nat → Bool) (p : P2pk) (input : Bytes) : Calls OpRes :=
  if p.state ≠ .inputsStarted then ret (.err Sw.badState)
  else p.withTxF (fun x => x.addDataInputsF ok input)

/-- `stx_operation_p2pk_add_output`, stx_op_p2pk.c:183-213. -/
def P2pk.addOutputF (ok : Nat → Bool) (p : P2pk) (value : UInt64) (treeSize height : UInt32)
    (tokens : UInt8) (regs : UInt32) : Calls OpRes :=
  if p.state ≠ .inputsStarted ∧ p.state ≠ .outputsStarted then ret (.err Sw.badState)
  else
    map (fun r =>
      match r with
      | .ok p =>
        match p.u with
        | .transaction t =>
          .ok { p with state := .outputsStarted
                       u := .transaction { t with out := some (.init value) } }
        | _ => .ub
      | r => r) (p.withTxF (fun x => x.addBoxF ok value treeSize height tokens regs))

/-- A serializer call on the current output, then the update of the output info. -/
def P2pk.withOutF (p : P2pk) (f : FullSt → Calls (FullSt × Res FullErr))
    (g : OutInfo → Bool → Calls (Option OutRes)) : Calls OpRes :=
  if p.state ≠ .outputsStarted then ret (.err Sw.badState)
  else
    match p.u with
    | .transaction t =>
      match t.out with
      | none => ret .ub
      | some o =>
        andThen (f ⟨t.tx, p.hash, ⟨p.amounts, o⟩⟩) fun r =>
          match r with
          | (_, .err e) => ret (.err e.sw)
          | (_, .ub) => ret .ub
          | (x, r) =>
            map (fun q =>
              match q with
              | none => .err Sw.hasherError
              | some .badState => .err Sw.badState
              | some .ub => .ub
              | some (.ok o) =>
                .ok { p with hash := x.h, amounts := x.s.a, state := p.checkFinished x.c
                             u := .transaction { t with tx := x.c, out := some o } })
              (g x.s.o (r = .ok))
    | _ => ret .ub

/-- `stx_operation_p2pk_add_output_tree_chunk`, stx_op_p2pk.c:215-244. -/
def P2pk.addOutputTreeF (env : Env) (ok : Nat → Bool) (p : P2pk) (chunk : Bytes) : Calls OpRes :=
  p.withOutF (fun x => x.boxPartF (fun b => b.addTreeF ok (accCbsF env ok) chunk))
    (fun o fin => o.addTreeChunkF env ok chunk fin)

/-- `stx_operation_p2pk_add_output_tree_fee`, stx_op_p2pk.c:246-255. -/
def P2pk.addOutputFeeF (env : Env) (ok : Nat → Bool) (p : P2pk) : Calls OpRes :=
  p.withOutF (fun x => x.boxPartF (fun b => b.addFeeTreeF ok (accCbsF env ok)))
    (fun o _ => o.setFeeF env ok)

/-- `stx_operation_p2pk_add_output_tree_change`, stx_op_p2pk.c:257-269. -/
def P2pk.addOutputChangeF (env : Env) (ok : Nat → Bool) (p : P2pk) (path : List UInt32) (pk : Bytes) :
    Calls OpRes :=
  p.withOutF (fun x => x.boxPartF (fun b => b.addChangeTreeF ok (accCbsF env ok) pk))
    (fun o _ => o.setBip32F env ok path)

/-- `stx_operation_p2pk_add_output_tokens`, stx_op_p2pk.c:271-278. -/
def P2pk.addOutputTokensF (env : Env) (ok : Nat → Bool) (p : P2pk) (input : Bytes) : Calls OpRes :=
  p.withOutF
    (fun x => x.boxPartF (fun b =>
      b.addTokensF ok (accCbsF env ok) (some (x.c.distinct, x.s.a.table)) input))
    (fun o _ => ret (some (.ok o)))

/-- `stx_operation_p2pk_add_output_registers`, stx_op_p2pk.c:280-287. -/
def P2pk.addOutputRegistersF (env : Env) (ok : Nat → Bool) (p : P2pk) (chunk : Bytes) : Calls OpRes :=
  p.withOutF (fun x => x.boxPartF (fun b => b.addRegistersF ok (accCbsF env ok) chunk))
    (fun o _ => ret (some (.ok o)))

/-- `ui_stx_operation_p2pk_send_response`, stx_op_p2pk.c:381-413. -/
def P2pk.sendResponseF (env : Env) (ok : Nat → Bool) (p : P2pk) : Calls (Except UInt16 Bytes) :=
  if p.state ≠ .finalized then ret (.error Sw.badState)
  else
    andThen (env.genPrivateF ok p.path) fun r =>
      match r with
      | none => ret (.error Sw.internalCryptoError)
      | some secret =>
        map (fun r =>
          match r with
          | some sig => .ok sig
          | none => .error Sw.schnorrSigningFailed) (schnorrFinishF env ok p.hash secret p.key)

/-! ## Attestation -/

/-- The callbacks of the attestation; no callback makes a call. -/
def attestCbsF : BoxCbsF (List (Bytes × UInt64)) where
  cbs := attestCbs
  onFinished ty s := ret (attestCbs.onFinished ty s)

/-- `handle_init`, ainpt_handler.c:71-110: the start of the hash is a call. -/
def attestInitF (ok : Nat → Bool) (d : Bytes) (hasToken : Bool) (session : UInt8) :
    Calls (Except UInt16 AttestCtx) :=
  match attestParse d hasToken with
  | .error e => ret (.error e)
  | .ok i =>
    need ok (.error Sw.hasherError) <|
      map (fun r =>
        match r with
        | (_, _, .err e) => .error e.sw
        | (c, h, _) => .ok ⟨i.txId, ⟨c, h, []⟩, i.token, i.index, session, .initialized⟩)
        (boxInitF ok i.value i.treeSize i.height i.tokens i.regs [])

/-- `check_box_finished`, ainpt_handler.c:41-50. -/
def AttestCtx.checkFinishedF (env : Env) (ok : Nat → Bool) (x : AttestCtx) : Calls AttestRes :=
  if x.st.c.state ≠ .finished then ret (.ok x [])
  else
    map (fun r =>
      match r with
      | (_, .error e) => .err e.sw
      | (st, .ok id) =>
        .ok { x with st := st, boxId := id, state := .finished }
          [UInt8.ofNat (framesCount st.s.length)]) (x.st.idHashF env ok x.boxId x.index)

/-- `CHECK_CALL_BOX_FINISHED`, ainpt_handler.c:22-33, after `CHECK_PROPER_STATE`. -/
def AttestCtx.partF (env : Env) (ok : Nat → Bool) (x : AttestCtx)
    (r : Calls (BoxSt (List (Bytes × UInt64)) × Res BoxErr)) : Calls AttestRes :=
  if x.state ≠ .approved then ret (.err Sw.badState)
  else
    andThen r fun r =>
      match r with
      | (st, .ok) => AttestCtx.checkFinishedF env ok { x with st := st }
      | (st, .more) => ret (.ok { x with st := st } [])
      | (_, .err e) => ret (.err e.sw)
      | (_, .ub) => ret .ub

/-! ## The whole application -/

/-- `handler_get_extended_public_key`, epk_handler.c:29-73. -/
def Device.extPubKeyF (env : Env) (ok : Nat → Bool) (d : Device) (data : Bytes) (hasToken : Bool) :
    Calls (Device × Reply) :=
  if d.busy then ret (d, status Sw.busy)
  else
    let d := d.setCommand .extPubKey
    match parsePathToken data hasToken with
    | .error e => ret (d.abort e)
    | .ok (path, token) =>
      if ¬ pathValidate path .accountGe3 then ret (d.abort Sw.bip32BadPath)
      else
        map (fun r =>
          match r with
          | none => d.abort Sw.internalCryptoError
          | some (pub, chain) =>
            if isKnown token d.connectedApp then
              (d.setCommand .none, .sw Sw.ok (epkResponse pub chain))
            else
              match pathFormat path bip32StrLen with
              | none => d.abort Sw.bip32FormattingFailed
              | some t =>
                let d := { d with ctx := .extPub ⟨pub, chain, token⟩ }
                let steps : List FlowStep :=
                  [.info ⟨.extPubKeyExport, .nothing⟩, .info ⟨.path, .text t⟩] ++
                  (if token ≠ 0 then [appIdPage token] else [])
                (d.display (.static steps) .extPubKey, .wait)) (env.genPublicF ok path)

/-- `handler_derive_address`, da_handler.c:30-79.  A failed checksum is answered without wiping,
da_handler.c:64-66. -/
def Device.deriveAddressF (env : Env) (ok : Nat → Bool) (d : Device) (data : Bytes)
    (disp hasToken : Bool) : Calls (Device × Reply) :=
  if d.busy then ret (d, status Sw.busy)
  else
    let d := d.setCommand .deriveAddress
    match bufU8 data with
    | none => ret (d.abort Sw.notEnoughData)
    | some (network, data) =>
      match parsePathToken data hasToken with
      | .error e => ret (d.abort e)
      | .ok (path, token) =>
        if ¬ pathValidate path .addressGe5 then ret (d.abort Sw.bip32BadPath)
        else
          andThen (env.genPublicF ok path) fun r =>
            match r with
            | none => ret (d.abort Sw.internalCryptoError)
            | some (pub, _) =>
              map (fun r =>
                match r with
                | none => (d, status Sw.addressGenerationFailed)
                | some raw =>
                  if ¬ disp ∧ isKnown token d.connectedApp then
                    (d.setCommand .none, .sw Sw.ok raw)
                  else d.showAddress (!disp) token path raw) (addressFromPubkeyF env ok network pub)

/-- Subcommands of the attestation after INIT, ainpt_handler.c:163-178. -/
def Device.attestSubF (env : Env) (ok : Nat → Bool) (d : Device) (sub session : UInt8) (data : Bytes) :
    Calls (Device × Reply) :=
  if d.command ≠ .attestInput then ret (d.abort Sw.badState)
  else
    match d.ctx with
    | .attest x =>
      if session ≠ x.session then ret (d.abort Sw.badSessionId)
      else if sub = 0x02 then
        map d.attestResult (x.partF env ok (x.st.addTreeF ok attestCbsF data))
      else if sub = 0x03 then
        map d.attestResult (x.partF env ok (x.st.addTokensF ok attestCbsF none data))
      else if sub = 0x04 then
        map d.attestResult (x.partF env ok (x.st.addRegistersF ok attestCbsF data))
      else ret (d.attestResult (x.getFrame env d.sessionKey data))
    | _ => ret (d, .ub)

/-- `handle_init` of the attestation, ainpt_handler.c:71-117. -/
def Device.attestStartF (ok : Nat → Bool) (d : Device) (data : Bytes) (hasToken : Bool) (rnd : Rnd) :
    Calls (Device × Reply) :=
  let d := d.setCommand .attestInput
  map (fun r =>
    match r with
    | .error e => d.abort e
    | .ok x =>
      match newSession 0 rnd.u8s with
      | none => (d, .hang)
      | some s =>
        let x : AttestCtx := { x with session := s }
        if isKnown d.connectedApp x.token then
          ({ d with ctx := .attest { x with state := .approved } }, .sw Sw.ok [s])
        else
          let steps : List FlowStep := .info ⟨.confirmAttest, .nothing⟩ ::
            (if x.token ≠ 0 then [appIdPage x.token] else [])
          (({ d with ctx := .attest x }).display (.static steps) .attest, .wait))
    (attestInitF ok data hasToken 0)

/-- `handler_attest_input`, ainpt_handler.c:147-181. -/
def Device.attestInputF (env : Env) (ok : Nat → Bool) (d : Device) (sub p2 : UInt8) (data : Bytes)
    (rnd : Rnd) : Calls (Device × Reply) :=
  if d.busy then ret (d, status Sw.busy)
  else if sub = 0x01 then
    if p2 ≠ 0x01 ∧ p2 ≠ 0x02 then ret (d.abort Sw.wrongP1P2)
    else d.attestStartF ok data (p2 = 0x02) rnd
  else if sub = 0x02 ∨ sub = 0x03 ∨ sub = 0x04 ∨ sub = 0x05 then d.attestSubF env ok sub p2 data
  else ret (d.abort Sw.wrongSubcommand)

/-- `handle_init_p2pk`, stx_handler.c:61-89. -/
def Device.signStartF (env : Env) (ok : Nat → Bool) (d : Device) (data : Bytes) (hasToken : Bool)
    (rnd : Rnd) : Calls (Device × Reply) :=
  let d := d.setCommand .signTransaction
  match parseSignInit data hasToken with
  | .error e => ret (d.abort e)
  | .ok (network, path, token) =>
    map (fun r =>
      match r with
      | .err e => d.abort e
      | .ub => (d, .ub)
      | .ok p =>
        match newSession 0 rnd.u8s with
        | none => (d, .hang)
        | some s =>
          match pathFormat path bip32StrLen with
          | none => d.abort Sw.bip32FormattingFailed
          | some t =>
            let steps : List FlowStep := .pathApprove ⟨.p2pkSigning, .text t⟩ ::
              (if isKnown d.connectedApp token then [] else [appIdPage token])
            let x : SignCtx := ⟨false, s, { p with u := .uiApprove token }⟩
            (({ d with ctx := .sign x }).display (.static steps) .signInit, .wait))
      (p2pkInitF env ok path network rnd.keys)

/-- `handle_tx_start`, stx_handler.c:91-110. -/
def opStartF (ok : Nat → Bool) (p : P2pk) (data : Bytes) : Calls OpRes :=
  match parseStart data with
  | .error e => ret (.err e)
  | .ok (inputs, dataInputs, tokens, outputs) => p.startTxF ok inputs dataInputs outputs tokens

/-- `handle_input_frame`, stx_handler.c:119-180. -/
def opFrameF (env : Env) (ok : Nat → Bool) (key : Bytes) (p : P2pk) (data : Bytes) : Calls OpRes :=
  let len := (frameDataLen data).toNat
  if len = 0 then ret (.err Sw.notEnoughData)
  else if (env.hmac key (data.take len)).take 16 ≠ (data.drop len).take 16 then
    ret (.err Sw.badFrameSignature)
  else
    match frameParse data with
    | none => ret (.err Sw.notEnoughData)
    | some f =>
      match f.ext with
      | none => p.addInputTokensF ok f.boxId f.index f.tokens
      | some ext =>
        match p.addInput f.boxId f.value f.count ext with
        | .ok p => p.addInputTokensF ok f.boxId f.index f.tokens
        | r => ret r

/-- `handle_output_init`, stx_handler.c:196-218. -/
def opOutputF (ok : Nat → Bool) (p : P2pk) (data : Bytes) : Calls OpRes :=
  match parseOutput data with
  | .error e => ret (.err e)
  | .ok (value, treeSize, height, tokens, regs) => p.addOutputF ok value treeSize height tokens regs

/-- `handle_output_tree_fee`, stx_handler.c:227-233. -/
def opFeeF (env : Env) (ok : Nat → Bool) (p : P2pk) (data : Bytes) : Calls OpRes :=
  if data ≠ [] then ret (.err Sw.tooMuchData) else p.addOutputFeeF env ok

/-- `handle_output_tree_change`, stx_handler.c:235-254. -/
def opChangeF (env : Env) (ok : Nat → Bool) (p : P2pk) (data : Bytes) : Calls OpRes :=
  match readPath data with
  | none => ret (.err Sw.bufferError)
  | some (path, _) =>
    if ¬ pathValidate path .addressGe5 then ret (.err Sw.bip32BadPath)
    else
      andThen (env.genPublicF ok path) fun r =>
        match r with
        | none => ret (.err Sw.internalCryptoError)
        | some (pub, _) => p.addOutputChangeF env ok path pub

/-- Subcommands of the signing command after SIGN_PK, stx_handler.c:292-340. -/
def Device.signSubF (env : Env) (ok : Nat → Bool) (d : Device) (sub session : UInt8) (data : Bytes) :
    Calls (Device × Reply) :=
  if d.command ≠ .signTransaction then ret (d.abort Sw.badState)
  else
    match d.ctx with
    | .sign x =>
      if session ≠ x.session then ret (d.abort Sw.badSessionId)
      else if ¬ x.approved then ret (d.abort Sw.badState)
      else if sub = 0x10 then map (d.signResult x) (opStartF ok x.p data)
      else if sub = 0x11 then ret (d.signResult x (x.p.addTokens data))
      else if sub = 0x12 then map (d.signResult x) (opFrameF env ok d.sessionKey x.p data)
      else if sub = 0x13 then map (d.signResult x) (x.p.addExtensionF ok data)
      else if sub = 0x14 then map (d.signResult x) (x.p.addDataInputsF ok data)
      else if sub = 0x15 then map (d.signResult x) (opOutputF ok x.p data)
      else if sub = 0x16 then map (d.signShow x) (x.p.addOutputTreeF env ok data)
      else if sub = 0x17 then map (d.signShow x) (opFeeF env ok x.p data)
      else if sub = 0x18 then map (d.signShow x) (opChangeF env ok x.p data)
      else if sub = 0x19 then map (d.signShow x) (x.p.addOutputTokensF env ok data)
      else if sub = 0x1A then map (d.signShow x) (x.p.addOutputRegistersF env ok data)
      else ret (d.signConfirm x)
    | _ => ret (d, .ub)

/-- `handler_sign_transaction`, stx_handler.c:277-343. -/
def Device.signTransactionF (env : Env) (ok : Nat → Bool) (d : Device) (sub p2 : UInt8) (data : Bytes)
    (rnd : Rnd) : Calls (Device × Reply) :=
  if d.busy then ret (d, status Sw.busy)
  else if sub = 0x01 then
    if p2 ≠ 0x01 ∧ p2 ≠ 0x02 then ret (d, status Sw.wrongP1P2)
    else d.signStartF env ok data (p2 = 0x02) rnd
  else if (0x10 ≤ sub ∧ sub ≤ 0x1A) ∨ sub = 0x20 then d.signSubF env ok sub p2 data
  else ret (d.abort Sw.wrongSubcommand)

/-- `ui_stx_operation_execute_action`, stx_ui.c:350-362. -/
def Device.actSignTxF (env : Env) (ok : Nat → Bool) (d : Device) (x : SignCtx) (approved : Bool) :
    Calls (Device × Reply) :=
  if approved then
    map (fun r =>
      match r with
      | .ok sig => ((d.setCommand .none).menu, .sw Sw.ok sig)
      | .error e => ((d.setCommand .none).menu, status e)) (x.p.sendResponseF env ok)
  else ret ((d.setCommand .none).menu, status Sw.deny)

/-- Approve/reject callback of the flow on display; only the signature makes calls. -/
def Device.actF (env : Env) (ok : Nat → Bool) (d : Device) (cb : Callback) (approved : Bool) :
    Calls (Device × Reply) :=
  match cb, d.ctx with
  | .signTx, .sign x => d.actSignTxF env ok x approved
  | cb, _ => ret (d.act env cb approved)

/-- `output_info_print_address`, stx_ui.c:118-168. -/
def printAddressF (env : Env) (ok : Nat → Bool) (o : OutInfo) (network : UInt8) : Calls ShowRes :=
  if ¬ o.finished then ret (.err Sw.badState)
  else
    match o.type with
    | .address =>
      match o.data with
      | .publicKey k =>
        map (fun r =>
          match r with
          | none => .err Sw.addressGenerationFailed
          | some raw =>
            match base58Encode raw textLen with
            | none => .err Sw.addressFormattingFailed
            | some t => .page ⟨.address, .text t⟩) (addressFromCompressedF env ok network k)
      | _ => ret .ub
    | .script | .scriptHash =>
      match o.data with
      | .treeHash h =>
        map (fun r =>
          match r with
          | none => .err Sw.addressGenerationFailed
          | some raw =>
            match base58Encode raw textLen with
            | none => .err Sw.addressFormattingFailed
            | some t => .page ⟨.scriptHash, .text t⟩) (addressFromScriptHashF env ok network h)
      | _ => ret .ub
    | _ => ret (printAddress env o network)

/-- `ui_stx_display_output_state`, stx_ui.c:170-218: only the address makes a call. -/
def showOutputF (env : Env) (ok : Nat → Bool) (nanoS : Bool) (o : OutInfo) (table : List Bytes)
    (network : UInt8) (screen : Nat) : Calls ShowRes :=
  match screen with
  | 0 => printAddressF env ok o network
  | k => ret (showOutput env nanoS o table network k)

/-- Screen callback of the dynamic flow on display. -/
def Device.showF (env : Env) (ok : Nat → Bool) (nanoS : Bool) (d : Device) (cb : Callback) (k : Nat) :
    Calls ShowRes :=
  match cb, d.ctx with
  | .signOutput, .sign x =>
    match x.p.u with
    | .transaction t =>
      match t.out with
      | some o => showOutputF env ok nanoS o x.p.amounts.table x.p.network k
      | none => ret .ub
    | _ => ret .ub
  | cb, _ => ret (d.show env nanoS cb k)

/-- Left or right button, ui_dynamic_flow.c:32-45. -/
def Device.moveF (env : Env) (ok : Nat → Bool) (nanoS : Bool) (d : Device) (s : Screen) (m : Move) :
    Calls (Device × Reply) :=
  let d' := { d with screen := some { s with flow := m.flow } }
  match m.draw with
  | none => ret (d', .wait)
  | some k =>
    map (fun r =>
      match r with
      | .page _ => (d', .wait)
      | .err e => ((d.setCommand .none).menu, status e)
      | .ub => (d, .ub)) (d.showF env ok nanoS s.cb k)

/-- Both buttons. -/
def Device.bothF (env : Env) (ok : Nat → Bool) (d : Device) (s : Screen) : Calls (Device × Reply) :=
  match s.flow.here with
  | .approve => d.actF env ok s.cb true
  | .reject => d.actF env ok s.cb false
  | .pathApprove _ => d.actF env ok s.cb true
  | _ => ret (d, .wait)

/-- `apdu_dispatcher`, apdu_dispatcher.c:16-58. -/
def Device.dispatchF (env : Env) (ok : Nat → Bool) (d : Device) (cla ins p1 p2 : UInt8) (data : Bytes)
    (rnd : Rnd) : Calls (Device × Reply) :=
  if cla ≠ 0xE0 then ret (d, status Sw.claNotSupported)
  else if ins = 0x01 then
    if p1 ≠ 0 ∨ p2 ≠ 0 then ret (d, status Sw.wrongP1P2) else ret (d, .sw Sw.ok env.appVersion)
  else if ins = 0x02 then
    if p1 ≠ 0 ∨ p2 ≠ 0 then ret (d, status Sw.wrongP1P2) else ret (d, .sw Sw.ok env.appName)
  else if ins = 0x10 then
    if p1 = 0 ∨ p1 > 2 ∨ p2 > 0 then ret (d, status Sw.wrongP1P2)
    else d.extPubKeyF env ok data (p1 = 2)
  else if ins = 0x11 then
    if p1 = 0 ∨ p1 > 2 ∨ p2 = 0 ∨ p2 > 2 then ret (d, status Sw.wrongP1P2)
    else d.deriveAddressF env ok data (p1 = 2) (p2 = 2)
  else if ins = 0x20 then
    if p1 = 0 ∨ p2 = 0 then ret (d, status Sw.wrongP1P2)
    else d.attestInputF env ok p1 p2 data rnd
  else if ins = 0x21 then
    if p1 = 0 ∨ p2 = 0 then ret (d, status Sw.wrongP1P2)
    else d.signTransactionF env ok p1 p2 data rnd
  else ret (d, status Sw.insNotSupported)

/-- One event, with the calls that work: device, reply, and number of calls made. -/
def Device.stepF (env : Env) (ok : Nat → Bool) (nanoS : Bool) (d : Device) : Event → Calls (Device × Reply)
  | .apdu cla ins p1 p2 data rnd =>
    if data.length > 255 then ret (d, status Sw.wrongDataLength)
    else d.dispatchF env ok cla ins p1 p2 data rnd
  | .left =>
    match d.screen with
    | none => ret (d, .wait)
    | some s => d.moveF env ok nanoS s s.flow.left
  | .right =>
    match d.screen with
    | none => ret (d, .wait)
    | some s => d.moveF env ok nanoS s s.flow.right
  | .both =>
    match d.screen with
    | none => ret (d, .wait)
    | some s => d.bothF env ok s

end Ergo
