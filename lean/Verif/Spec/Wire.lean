import Verif.Spec.Tx
/-!
# What a node reads

A node reads the signed bytes with its own parsers for scripts, registers and context extensions.
Here they are arbitrary languages of byte strings; a parser that finds the end of its part by itself
accepts a language in which no string continues another.
-/
namespace Ergo.Spec

/-- An output as a node reads it: script and registers are byte strings, tokens are pairs (index in
the token table, amount). -/
@[ext] structure WireBox where
  value : Nat
  script : Bytes
  height : Nat
  tokens : List (Nat × Nat)
  regs : Bytes
  deriving DecidableEq, Repr

/-- A transaction as a node reads it, in the order of the bytes; inputs are pairs (box id, context
extension). -/
@[ext] structure WireTx where
  inputs : List (Bytes × Bytes)
  dataInputs : List Bytes
  table : List Bytes
  outputs : List WireBox
  deriving DecidableEq, Repr

/-- Ergo serialization of an output. -/
def WireBox.bytes (o : WireBox) : Bytes :=
  vlq o.value ++ o.script ++ vlq o.height ++ [UInt8.ofNat o.tokens.length] ++
    o.tokens.flatMap (fun t => vlq t.1 ++ vlq t.2) ++ o.regs

/-- Ergo serialization of an unsigned transaction. -/
def WireTx.bytes (w : WireTx) : Bytes :=
  vlq w.inputs.length ++ w.inputs.flatMap (fun i => i.1 ++ [0] ++ i.2) ++
  vlq w.dataInputs.length ++ w.dataInputs.flatten ++ vlq w.table.length ++ w.table.flatten ++
  vlq w.outputs.length ++ w.outputs.flatMap WireBox.bytes

/-- A language in which no string continues another one. -/
def SelfDelimiting (L : Bytes → Prop) : Prop :=
  ∀ a b r s : Bytes, L a → L b → a ++ r = b ++ s → a = b

/-- A node whose parsers accept the scripts `T`, the registers `R` and the extensions `X` can read
the transaction. -/
structure Readable (T R X : Bytes → Prop) (w : WireTx) : Prop where
  ids : ∀ i ∈ w.inputs, i.1.length = 32
  exts : ∀ i ∈ w.inputs, X i.2
  dataIds : ∀ b ∈ w.dataInputs, b.length = 32
  tableIds : ∀ b ∈ w.table, b.length = 32
  scripts : ∀ o ∈ w.outputs, T o.script
  regs : ∀ o ∈ w.outputs, R o.regs
  tokens : ∀ o ∈ w.outputs, o.tokens.length < 256

/-- A described output, as it is meant. -/
def wireBox (keyOf : List UInt32 → Bytes) (o : BoxDesc Nat) : WireBox :=
  ⟨o.value, (o.script.map (scriptBytes keyOf)).getD [], o.height, o.tokens,
    if o.regsSize = 0 then [0] else o.regs⟩

/-- The described transaction, as it is meant. -/
def wireTx (keyOf : List UInt32 → Bytes) (D : TxDesc) : WireTx :=
  ⟨D.inputs.reverse.map (fun i => (i.boxId, if i.extSize = 0 then [0] else i.ext)), D.dataInputs,
    D.table, D.outputs.reverse.map (fun o => wireBox keyOf o.box)⟩

end Ergo.Spec
