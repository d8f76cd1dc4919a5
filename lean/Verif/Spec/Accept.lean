import Verif.Spec.Limits
import Verif.Spec.Lengths
import Verif.Spec.Authentic
import Verif.Spec.Keys
import Verif.Spec.Commands
import Mathlib.Data.List.Dedup
/-!
# Which command fits next into a transaction

Written over the description of the transaction so far and the data of the command.
-/
namespace Ergo.Spec

/-- All declared inputs are there, with all their parts. -/
def TxDesc.AllInputs (D : TxDesc) : Prop := D.inputs.length = D.nIn ∧ ∀ i ∈ D.inputs, i.complete

/-- Token ids in the inputs that are not in the token table, each once. -/
def TxDesc.otherIds (D : TxDesc) : List Bytes :=
  ((D.inputs.flatMap (fun i => i.tokens.map (·.1))).filter (· ∉ D.table)).dedup

/-- The sums over the inputs can be represented, and there are at most 20 tokens. -/
structure SumsFit (D : TxDesc) : Prop where
  value : D.sumIn < 2 ^ 64
  toks : ∀ id, D.tokIn id < 2 ^ 63
  ids : D.table.length + D.otherIds.length ≤ 20

/-- A frame fits: long enough, whole tokens only, valid tag, token table received; number 0 when all
inputs so far are complete and one more is expected; another number when it is the next one of the
newest input, which has the same box id.  The sums with the frame fit. -/
def FrameFits (env : Env) (key : Bytes) (D : TxDesc) (data : Bytes) : Prop :=
  leastLen 0x21 0x12 data ≤ data.length ∧ (40 * field data 42 1 % 256) % 40 = 0 ∧
  TagValid env key data ∧ D.table.length = D.nTok ∧ SumsFit (D.frame data) ∧
  if field data 33 1 = 0 then
    D.inputs.length < D.nIn ∧ (∀ i ∈ D.inputs, i.complete) ∧ 1 ≤ field data 32 1 ∧
    field data (frameLen data + 16) 4 ≠ 1 ∧ field data (frameLen data + 16) 4 ≤ 32768
  else ∃ i is, D.inputs = i :: is ∧ field data 33 1 = i.got ∧ i.got < i.frames ∧
    data.take 32 = i.boxId

/-- Script bytes received so far; none if there is no script or it is not sent as bytes. -/
def scriptLen {α : Type} (o : BoxDesc α) : Nat :=
  match o.script with
  | some (.raw b) => b.length
  | _ => 0

/-- The value of an output with own script can be taken from what the inputs leave. -/
def ValueFits (D : TxDesc) (o : OutDesc) : Prop :=
  o.box.value + D.sumOut Script.isFee + D.sumOut Script.isChange ≤ D.sumIn

/-- A token may only be listed again if all its earlier entries in the output have amount 0. -/
def NoRepeat (table : List Bytes) (l : List (Nat × Nat)) : Prop :=
  ∀ a t b, l = a ++ t :: b → ∀ id, table[t.1]? = some id → tokRefs table a id = 0

/-- The command (subcommand and data) fits after what was described. -/
def Fits (env : Env) (key : Bytes) (D : TxDesc) (sub : UInt8) (data : Bytes) : Prop :=
  if sub = 0x10 then
    D.nIn = 0 ∧ data.length = 7 ∧ 0 < field data 0 2 ∧ 0 < field data 5 2 ∧ field data 4 1 ≤ 20
  else 0 < D.nIn ∧
    if sub = 0x11 then
      D.table.length < D.nTok ∧ data.length % 32 = 0 ∧ D.table.length + data.length / 32 ≤ D.nTok
    else if sub = 0x12 then FrameFits env key D data
    else if sub = 0x13 then
      ∃ i is, D.inputs = i :: is ∧ i.got = i.frames ∧ i.ext.length < i.extSize ∧
        i.ext.length + data.length ≤ i.extSize
    else if sub = 0x14 then
      D.AllInputs ∧ D.dataInputs.length < D.nData ∧ data.length % 32 = 0 ∧
        D.dataInputs.length + data.length / 32 ≤ D.nData
    else if sub = 0x15 then
      D.AllInputs ∧ D.dataInputs.length = D.nData ∧ D.outputs.countP (·.box.complete) < D.nOut ∧
        data.length = 21 ∧ field data 8 4 ≤ 32768 ∧ field data 16 1 ≤ 20 ∧ field data 17 4 ≤ 32768
    else if sub = 0x20 then D.outputs.countP (·.box.complete) = D.nOut
    else ∃ o os, D.outputs = o :: os ∧
      if sub = 0x16 then
        o.box.scriptDone = false ∧ scriptLen o.box + data.length ≤ o.box.treeSize ∧
          (scriptLen o.box + data.length = o.box.treeSize ∨ 255 ≤ data.length)
      else if sub = 0x17 then data = [] ∧ o.box.script = none ∧ ValueFits D o
      else if sub = 0x18 then
        1 ≤ field data 0 1 ∧ field data 0 1 ≤ 10 ∧ pathLen data ≤ data.length ∧
          IsAddressPath (pathOf data) ∧ (env.genPublic (pathOf data)).isSome ∧
          o.box.script = none ∧ ValueFits D o
      else if sub = 0x19 then
        o.box.scriptDone = true ∧ o.box.tokens.length < o.box.nTokens ∧ data.length % 12 = 0 ∧
          o.box.tokens.length + data.length / 12 ≤ o.box.nTokens ∧
          (∀ t ∈ (pieces 12 data).map tok12, t.1 < D.nTok) ∧
          NoRepeat D.table (o.box.tokens ++ (pieces 12 data).map tok12) ∧
          ∀ id, D.tokOut id + tokRefs D.table ((pieces 12 data).map tok12) id ≤ D.tokIn id + 2 ^ 63
      else if sub = 0x1A then
        o.box.scriptDone = true ∧ o.box.tokens.length = o.box.nTokens ∧
          o.box.regs.length < o.box.regsSize ∧ o.box.regs.length + data.length ≤ o.box.regsSize
      else False

/-- The signing session still goes on: since it was opened, no start of an attestation was refused
for its P2 value, unless that was 0 (this ends the session although the status word is one that
otherwise ends nothing). -/
def Live : List Obs → Prop
  | [] => True
  | o :: tr => OpensSign o ∨
    Live tr ∧ ¬ ∃ cla p2 data rnd out, o.event = .apdu cla 0x20 0x01 p2 data rnd ∧
      p2 ≠ 0 ∧ o.reply = .sw 0x6A86 out

end Ergo.Spec
