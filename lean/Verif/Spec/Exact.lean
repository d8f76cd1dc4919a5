import Verif.Spec.Wallet
/-!
# Which transaction a session describes, as the wallet has it
-/
namespace Ergo.Spec

/-- The description says this transaction: the inputs with box id, value, tokens and context
extension, the data inputs, the token table, and the outputs, all in order. -/
structure TxDesc.Says (env : Env) (D : TxDesc) (t : WalletTx) : Prop where
  inputs : D.inputs.reverse.map (fun i => (i.boxId, i.value, i.tokens, i.ext)) =
    t.inputs.map (fun s => (s.coin.id env, s.coin.value, s.coin.tokens, s.ext))
  dataInputs : D.dataInputs = t.dataInputs
  table : D.table = t.table
  outputs : D.outputs.reverse.map (fun o => (o.box.value, o.box.script, o.box.height, o.box.tokens,
    o.box.regs)) = t.outputs.map (fun p => (p.value, some p.script, p.height, p.tokens, p.regs))

/-- `A` is an attestation of the box `c`. -/
structure AttestSess.Of (A : AttestSess) (c : Coin) : Prop where
  txId : A.start.data.take 32 = c.txId
  index : field A.start.data 32 2 = c.index
  box : A.box = ⟨c.value, c.tree.length, c.height, c.tokens.length, c.regs.length,
    some (.raw c.tree), c.tokens, c.regs⟩

end Ergo.Spec
