import Verif.Spec.Tx
import Verif.Spec.Path
/-!
# Limits and order of the parts of a transaction
-/
namespace Ergo.Spec

/-- Limits of an output (or box): sizes; never more data than declared; script before tokens before
registers. -/
structure BoxLimits {α : Type} (b : BoxDesc α) : Prop where
  tree : b.treeSize ≤ 32768
  regs : b.regsSize ≤ 32768
  toks : b.nTokens ≤ 20
  rawLen : ∀ bs, b.script = some (.raw bs) → bs.length ≤ b.treeSize
  toksLen : b.tokens.length ≤ b.nTokens
  regsLen : b.regs.length ≤ b.regsSize
  toksAfter : b.tokens ≠ [] → b.scriptDone
  regsAfter : b.regs ≠ [] → b.scriptDone ∧ b.tokens.length = b.nTokens

/-- Limits of an input: extension size; never more data than declared; frames before extension. -/
structure InLimits (i : InDesc) : Prop where
  ext : i.extSize ≠ 1 ∧ i.extSize ≤ 32768
  got : 0 < i.got ∧ i.got ≤ i.frames
  extLen : i.ext.length ≤ i.extSize
  extAfter : i.ext ≠ [] → i.got = i.frames

/-- Limits of a transaction after its start command: numbers, never more than declared, everything of
one kind before the next kind. -/
structure Limits (D : TxDesc) : Prop where
  nIn : 0 < D.nIn
  nOut : 0 < D.nOut
  nTok : D.nTok ≤ 20
  table : D.table.length ≤ D.nTok
  inputs : D.inputs.length ≤ D.nIn
  dataInputs : D.dataInputs.length ≤ D.nData
  outputs : D.outputs.countP (·.box.complete) ≤ D.nOut
  inLimits : ∀ i ∈ D.inputs, InLimits i
  boxLimits : ∀ o ∈ D.outputs, BoxLimits o.box
  inputsAfter : D.inputs ≠ [] → D.table.length = D.nTok
  inputsOrder : ∀ i ∈ D.inputs.tail, i.complete
  dataAfter : D.dataInputs ≠ [] → D.inputs.length = D.nIn ∧ ∀ i ∈ D.inputs, i.complete
  outputsAfter : D.outputs ≠ [] → D.table.length = D.nTok ∧ D.inputs.length = D.nIn ∧
    (∀ i ∈ D.inputs, i.complete) ∧ D.dataInputs.length = D.nData
  refs : ∀ o ∈ D.outputs, ∀ t ∈ o.box.tokens, t.1 < D.table.length

end Ergo.Spec
