import Verif.Spec.Accept
/-!
# Why a command is refused

For every command of a signing session the list of what is demanded, in the order in which it is
demanded, each with the status word of the refusal.  Written over the description of the transaction
so far and the data of the command, with the status words of src/sw.h.
-/
namespace Ergo.Spec

/-- A demand and the status word that says it is not met. -/
abbrev Demand := Prop × UInt16

/-- The first demand that is not met has this status word. -/
inductive FirstUnmet : List Demand → UInt16 → Prop
  | here {P : Prop} {c : UInt16} {l : List Demand} : ¬ P → FirstUnmet ((P, c) :: l) c
  | later {P : Prop} {c c' : UInt16} {l : List Demand} :
    P → FirstUnmet l c' → FirstUnmet ((P, c) :: l) c'

/-- All demands are met. -/
def AllMet (l : List Demand) : Prop := ∀ d ∈ l, d.1

/-- Ids of 32 bytes, after `n` earlier ones, at most `max` altogether: `many` if there are too many,
`short` if the last one is incomplete. -/
def idDemands (max : Nat) (many short : UInt16) : Nat → List Bytes → List Demand
  | _, [] => []
  | n, b :: bs => (n < max, many) :: (b.length = 32, short) :: idDemands max many short (n + 1) bs

/-- One more token in the newest input. -/
def TxDesc.inToken (D : TxDesc) (t : Bytes × Nat) : TxDesc :=
  D.onInput (fun i => { i with tokens := i.tokens ++ [t] })

/-- Tokens of an input: whole id, whole amount, at most 20 different tokens, sums that can be
represented. -/
def inTokDemands : TxDesc → List Bytes → List Demand
  | _, [] => []
  | D, b :: bs =>
    let D' := D.inToken (tok40 b)
    (32 ≤ b.length, 0xE001) :: (b.length = 40, 0xE002) ::
    (D'.table.length + D'.otherIds.length ≤ 20, 0xE00A) :: (D'.tokIn (b.take 32) < 2 ^ 63, 0xE011) ::
    inTokDemands D' bs

/-- The tag of a frame of `n` bytes is the one this device made. -/
def TagAt (env : Env) (key : Bytes) (n : Nat) (data : Bytes) : Prop :=
  (data.drop n).take 16 = (env.hmac key (data.take n)).take 16

/-- A frame.  (The length of the part under the tag is a one-byte number on the device.) -/
def frameDemands (env : Env) (key : Bytes) (D : TxDesc) (data : Bytes) : List Demand :=
  let toks := pieces 40 ((data.drop 43).take (40 * field data 42 1 % 256))
  [(59 ≤ data.length, 0xE014), (frameLen data % 256 + 16 ≤ data.length, 0xE014),
    (TagAt env key (frameLen data % 256) data, 0xE018), (leastLen 0x21 0x12 data ≤ data.length, 0xE014)] ++
  if field data 33 1 = 0 then
    [(0 < D.nIn ∧ D.table.length = D.nTok ∧ D.inputs.length < D.nIn ∧ ∀ i ∈ D.inputs, i.complete, 0xB0FF),
      (field data (frameLen data + 16) 4 ≠ 1 ∧ field data (frameLen data + 16) 4 ≤ 32768, 0xE003),
      (D.sumIn + field data 34 8 < 2 ^ 64, 0xE011), (1 ≤ field data 32 1, 0xE00D)] ++
    inTokDemands { D with inputs := ⟨data.take 32, field data 34 8, field data 32 1, 0, [],
      field data (frameLen data + 16) 4, []⟩ :: D.inputs } toks
  else
    [(∃ i ∈ D.inputs.head?, i.got < i.frames, 0xB0FF),
      (∀ i ∈ D.inputs.head?, data.take 32 = i.boxId, 0xE005),
      (∀ i ∈ D.inputs.head?, field data 33 1 < i.frames, 0xE00D),
      (∀ i ∈ D.inputs.head?, field data 33 1 = i.got, 0xE007)] ++
    inTokDemands D toks

/-- Tokens of an output, after those in `got`: not more than announced, whole index, index into the
token table, whole amount, not listed before with an amount, balance that can be represented. -/
def outTokDemands (D : TxDesc) (o : OutDesc) : List (Nat × Nat) → List Bytes → List Demand
  | _, [] => []
  | got, b :: bs =>
    (o.box.tokens.length + got.length < o.box.nTokens, 0xE00A) :: (4 ≤ b.length, 0xE006) ::
    ((tok12 b).1 < D.nTok, 0xE006) :: (b.length = 12, 0xE002) ::
    (∀ id ∈ D.table[(tok12 b).1]?, tokRefs D.table (o.box.tokens ++ got) id = 0, 0xE002) ::
    (∀ id ∈ D.table[(tok12 b).1]?,
      D.tokOut id + tokRefs D.table got id + (tok12 b).2 ≤ D.tokIn id + 2 ^ 63, 0xE011) ::
    outTokDemands D o (got ++ [tok12 b]) bs

/-- A script that the device makes itself. -/
def ownScriptDemands (D : TxDesc) : List Demand :=
  [(∃ o ∈ D.outputs.head?, o.box.scriptDone = false, 0xB0FF),
    (∀ o ∈ D.outputs.head?, ValueFits D o, 0xE011), (∀ o ∈ D.outputs.head?, o.box.script = none, 0xB0FF)]

/-- What is demanded of a command of a signing session. -/
def signDemands (env : Env) (key : Bytes) (D : TxDesc) (sub : UInt8) (data : Bytes) : List Demand :=
  if sub = 0x10 then
    [(7 ≤ data.length, 0xE014), (data.length ≤ 7, 0xE015), (D.nIn = 0, 0xB0FF),
      (0 < field data 0 2, 0xE008), (0 < field data 5 2, 0xE009), (field data 4 1 ≤ 20, 0xE00A)]
  else if sub = 0x11 then
    (0 < D.nIn ∧ D.table.length < D.nTok, 0xB0FF) ::
      idDemands D.nTok 0xE00A 0xE001 D.table.length (pieces 32 data)
  else if sub = 0x12 then frameDemands env key D data
  else if sub = 0x13 then
    [(∃ i ∈ D.inputs.head?, i.got = i.frames ∧ i.ext.length < i.extSize, 0xB0FF),
      (∀ i ∈ D.inputs.head?, i.ext.length + data.length ≤ i.extSize, 0xE015)]
  else if sub = 0x14 then
    (0 < D.nIn ∧ D.AllInputs ∧ D.dataInputs.length < D.nData, 0xB0FF) ::
      idDemands D.nData 0xE00C 0xE004 D.dataInputs.length (pieces 32 data)
  else if sub = 0x15 then
    [(21 ≤ data.length, 0xE014), (data.length ≤ 21, 0xE015),
      (0 < D.nIn ∧ D.AllInputs ∧ D.dataInputs.length = D.nData ∧
        D.outputs.countP (·.box.complete) < D.nOut, 0xB0FF),
      (field data 16 1 ≤ 20, 0xE00A), (field data 8 4 ≤ 32768, 0xE015), (field data 17 4 ≤ 32768, 0xE015)]
  else if sub = 0x16 then
    [(∃ o ∈ D.outputs.head?, o.box.scriptDone = false, 0xB0FF),
      (∀ o ∈ D.outputs.head?, scriptLen o.box + data.length ≤ o.box.treeSize, 0xE015),
      (∀ o ∈ D.outputs.head?, scriptLen o.box + data.length = o.box.treeSize ∨ 255 ≤ data.length, 0xE01A)]
  else if sub = 0x17 then (data = [], 0xE015) :: ownScriptDemands D
  else if sub = 0x18 then
    (1 ≤ field data 0 1 ∧ field data 0 1 ≤ 10 ∧ pathLen data ≤ data.length, 0xE010) ::
    (IsAddressPath (pathOf data), 0xE012) :: ((env.genPublic (pathOf data)).isSome, 0xE013) ::
    ownScriptDemands D
  else if sub = 0x19 then
    (∃ o ∈ D.outputs.head?, o.box.scriptDone = true ∧ o.box.tokens.length < o.box.nTokens, 0xB0FF) ::
    match D.outputs with
    | [] => []
    | o :: _ => outTokDemands D o [] (pieces 12 data)
  else if sub = 0x1A then
    [(∃ o ∈ D.outputs.head?, o.box.scriptDone = true ∧ o.box.tokens.length = o.box.nTokens ∧
        o.box.regs.length < o.box.regsSize, 0xB0FF),
      (∀ o ∈ D.outputs.head?, o.box.regs.length + data.length ≤ o.box.regsSize, 0xE015)]
  else [(0 < D.nIn ∧ D.outputs.countP (·.box.complete) = D.nOut, 0xB0FF)]

end Ergo.Spec
