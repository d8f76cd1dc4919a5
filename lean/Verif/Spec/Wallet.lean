import Verif.Spec.AttestFits
/-!
# Transactions as a wallet has them, and the commands that send them

Boxes, inputs and outputs are plain data; the serialization follows the Ergo formats, the commands
follow the documentation of the attest and sign commands (doc/INS-20-ATTEST-BOX.md,
doc/INS-21-SIGN-TRANSACTION.md).
-/
namespace Ergo.Spec

/-- A number in `k` bytes, most significant byte first. -/
def num : Nat → Nat → Bytes
  | 0, _ => []
  | k + 1, n => num k (n / 256) ++ [UInt8.ofNat n]

/-- Consecutive groups of `n` elements (the last one may be shorter). -/
def groups {α : Type} (n : Nat) (l : List α) : List (List α) :=
  if _h : n = 0 ∨ l = [] then [] else l.take n :: groups n (l.drop n)
termination_by l.length
decreasing_by
  have : 0 < l.length := List.length_pos_iff.2 (fun e => _h (.inr e))
  simp only [List.length_drop]; omega

/-! ## Boxes to be spent -/

/-- A box: the output number `index` of a transaction.  `regs` are the serialized registers, empty if
there are none. -/
structure Coin where
  txId : Bytes
  index : Nat
  value : Nat
  tree : Bytes
  height : Nat
  tokens : List (Bytes × Nat)
  regs : Bytes

/-- Serialization of a box. -/
def Coin.bytes (c : Coin) : Bytes :=
  vlq c.value ++ c.tree ++ vlq c.height ++ [UInt8.ofNat c.tokens.length] ++
    c.tokens.flatMap (fun t => t.1 ++ vlq t.2) ++ (if c.regs = [] then [0] else c.regs) ++
    c.txId ++ vlq c.index

/-- The id of a box. -/
def Coin.id (env : Env) (c : Coin) : Bytes := env.blake c.bytes

/-- What the device can attest. -/
structure Coin.Within (c : Coin) : Prop where
  txId : c.txId.length = 32
  index : c.index < 2 ^ 16
  value : c.value < 2 ^ 64
  tree : c.tree.length ≤ 32768
  height : c.height < 2 ^ 32
  count : c.tokens.length ≤ 20
  tokens : ∀ t ∈ c.tokens, t.1.length = 32 ∧ t.2 < 2 ^ 64
  distinct : (c.tokens.map (·.1)).Nodup
  regs : c.regs.length ≤ 32768

/-- The request that opens the attestation of a box, without application token. -/
def Coin.request (c : Coin) (rnd : Rnd) : Request :=
  ⟨0x20, 0x01, 1, c.txId ++ num 2 c.index ++ num 8 c.value ++ num 4 c.tree.length ++ num 4 c.height ++
    num 1 c.tokens.length ++ num 4 c.regs.length, rnd⟩

/-- Script bytes in full chunks; one empty chunk for an empty script. -/
def treeChunks (b : Bytes) : List Bytes := if b = [] then [[]] else groups 255 b

/-- The commands that send the parts of a box: script, tokens by six, registers. -/
def Coin.cmds (c : Coin) (rnd : Rnd) : List SignCmd :=
  (treeChunks c.tree).map (fun b => ⟨0x02, b, rnd⟩) ++
  (groups 6 c.tokens).map (fun l => ⟨0x03, l.flatMap (fun t => t.1 ++ num 8 t.2), rnd⟩) ++
  (groups 255 c.regs).map (fun b => ⟨0x04, b, rnd⟩)

/-- Frame number `i` of a box, with its tag. -/
def Coin.frame (env : Env) (key : Bytes) (c : Coin) (i : Nat) : Bytes :=
  let body := frameBytes (c.id env) (UInt64.ofNat c.value) (toks64 c.tokens) i
  body ++ (env.hmac key body).take 16

/-! ## Transactions -/

/-- A box to be spent, with the serialized context extension (empty if there is none). -/
structure Spend where
  coin : Coin
  ext : Bytes

/-- A new box: tokens are given by their number in the token table. -/
structure Pay where
  value : Nat
  script : Script
  height : Nat
  tokens : List (Nat × Nat)
  regs : Bytes

/-- A transaction. -/
structure WalletTx where
  inputs : List Spend
  dataInputs : List Bytes
  table : List Bytes
  outputs : List Pay

/-- Serialization of an unsigned input. -/
def Spend.bytes (env : Env) (s : Spend) : Bytes :=
  s.coin.id env ++ [0] ++ (if s.ext = [] then [0] else s.ext)

/-- Serialization of an output. -/
def Pay.bytes (env : Env) (p : Pay) : Bytes :=
  vlq p.value ++ scriptBytes env.keyOf p.script ++ vlq p.height ++ [UInt8.ofNat p.tokens.length] ++
    p.tokens.flatMap (fun t => vlq t.1 ++ vlq t.2) ++ (if p.regs = [] then [0] else p.regs)

/-- The bytes to be signed. -/
def WalletTx.bytes (env : Env) (t : WalletTx) : Bytes :=
  vlq t.inputs.length ++ t.inputs.flatMap (Spend.bytes env) ++
  vlq t.dataInputs.length ++ t.dataInputs.flatten ++ vlq t.table.length ++ t.table.flatten ++
  vlq t.outputs.length ++ t.outputs.flatMap (Pay.bytes env)

/-- The commands that send an input: its frames, the first one with the size of the context extension;
then the context extension. -/
def Spend.cmds (env : Env) (key : Bytes) (rnd : Rnd) (s : Spend) : List SignCmd :=
  (List.range (framesFor s.coin.tokens.length)).map (fun i =>
    ⟨0x12, s.coin.frame env key i ++ (if i = 0 then num 4 s.ext.length else []), rnd⟩) ++
  (groups 255 s.ext).map (fun b => ⟨0x13, b, rnd⟩)

/-- The commands that send the script of an output. -/
def scriptCmds (rnd : Rnd) : Script → List SignCmd
  | .raw b => (treeChunks b).map (fun b => ⟨0x16, b, rnd⟩)
  | .fee => [⟨0x17, [], rnd⟩]
  | .change p => [⟨0x18, num 1 p.length ++ p.flatMap (fun c => num 4 c.toNat), rnd⟩]

/-- The commands that send an output: parameters, script, all tokens at once, registers. -/
def Pay.cmds (env : Env) (rnd : Rnd) (p : Pay) : List SignCmd :=
  ⟨0x15, num 8 p.value ++ num 4 (scriptBytes env.keyOf p.script).length ++ num 4 p.height ++
    num 1 p.tokens.length ++ num 4 p.regs.length, rnd⟩ ::
  (scriptCmds rnd p.script ++
  (groups 20 p.tokens).map (fun l => ⟨0x19, l.flatMap (fun t => num 4 t.1 ++ num 8 t.2), rnd⟩) ++
  (groups 255 p.regs).map (fun b => ⟨0x1A, b, rnd⟩))

/-- The commands that send a transaction. -/
def WalletTx.cmds (env : Env) (key : Bytes) (rnd : Rnd) (t : WalletTx) : List SignCmd :=
  ⟨0x10, num 2 t.inputs.length ++ num 2 t.dataInputs.length ++ num 1 t.table.length ++
    num 2 t.outputs.length, rnd⟩ ::
  ((groups 7 t.table).map (fun l => ⟨0x11, l.flatten, rnd⟩) ++
  t.inputs.flatMap (Spend.cmds env key rnd) ++
  (groups 7 t.dataInputs).map (fun l => ⟨0x14, l.flatten, rnd⟩) ++
  t.outputs.flatMap (Pay.cmds env rnd))

/-! ## What the device can sign -/

/-- Amount of a token in a box. -/
def Coin.amount (c : Coin) (id : Bytes) : Nat := ((c.tokens.filter (·.1 = id)).map (·.2)).sum

/-- Amount of a token in all inputs. -/
def WalletTx.tokIn (t : WalletTx) (id : Bytes) : Nat := (t.inputs.map (fun s => s.coin.amount id)).sum

/-- Amount of a token in all outputs. -/
def WalletTx.tokOut (t : WalletTx) (id : Bytes) : Nat :=
  (t.outputs.map (fun p => tokRefs t.table p.tokens id)).sum

/-- The outputs with fee script and change script together. -/
def WalletTx.own (t : WalletTx) : Nat :=
  (t.outputs.map (fun p => if p.script.isFee || p.script.isChange then p.value else 0)).sum

/-- An output that can be sent. -/
structure Pay.Within (env : Env) (table : List Bytes) (p : Pay) : Prop where
  value : p.value < 2 ^ 64
  tree : (scriptBytes env.keyOf p.script).length ≤ 32768
  path : ∀ q, p.script = .change q → IsAddressPath q ∧ q.length ≤ 10 ∧ (env.genPublic q).isSome
  height : p.height < 2 ^ 32
  count : p.tokens.length ≤ 20
  tokens : ∀ t ∈ p.tokens, t.1 < table.length ∧ t.2 < 2 ^ 64
  repeats : NoRepeat table p.tokens
  regs : p.regs.length ≤ 32768

/-- A transaction that can be sent: numbers and sizes, sums that can be represented, at most 20
different tokens, not more taken for fee and change than the inputs have. -/
structure WalletTx.Within (env : Env) (t : WalletTx) : Prop where
  nIn : 0 < t.inputs.length ∧ t.inputs.length < 2 ^ 16
  nData : t.dataInputs.length < 2 ^ 16
  nTok : t.table.length ≤ 20
  nOut : 0 < t.outputs.length ∧ t.outputs.length < 2 ^ 16
  coins : ∀ s ∈ t.inputs, s.coin.Within
  exts : ∀ s ∈ t.inputs, s.ext.length ≠ 1 ∧ s.ext.length ≤ 32768
  dataIds : ∀ b ∈ t.dataInputs, b.length = 32
  table : ∀ b ∈ t.table, b.length = 32
  outputs : ∀ p ∈ t.outputs, p.Within env t.table
  sumIn : (t.inputs.map (·.coin.value)).sum < 2 ^ 64
  tokIn : ∀ id, t.tokIn id < 2 ^ 63
  ids : t.table.length + ((t.inputs.flatMap (fun s => s.coin.tokens.map (·.1))).filter
    (· ∉ t.table)).dedup.length ≤ 20
  own : t.own ≤ (t.inputs.map (·.coin.value)).sum
  tokOut : ∀ id, t.tokOut id ≤ t.tokIn id + 2 ^ 63

end Ergo.Spec
