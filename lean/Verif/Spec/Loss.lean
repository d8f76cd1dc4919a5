import Verif.Spec.Shown
import Verif.Spec.Pages
/-!
# What leaves the wallet, and the screens about it
-/
namespace Ergo.Spec

/-- The script is one sent by the host. -/
def Script.isOther : Script → Bool | .raw _ => true | _ => false

/-- The whole value of the inputs is in the outputs, as the Ergo network demands of a transaction. -/
def TxDesc.Balanced (D : TxDesc) : Prop := D.sumIn = (D.outputs.map (·.box.value)).sum

/-- Amount of token `id` in the outputs whose script satisfies `p`. -/
def TxDesc.tokOutOf (p : Script → Bool) (D : TxDesc) (id : Bytes) : Nat :=
  (D.outputs.map (fun o => match o.box.script with
    | some s => if p s then tokRefs D.table o.box.tokens id else 0
    | none => 0)).sum

/-- The pages of a question say: to whom (the address of the script in the network, or that it is the
fee), the value, and for every token with an amount in the output its id and that amount. -/
def OutputShown (env : Env) (nanoS : Bool) (network : UInt8) (table : List Bytes) (o : BoxDesc Nat)
    (pages : List ShowRes) : Prop :=
  ∃ first L, pages = .page first :: .page ⟨.outputValue, .erg (UInt64.ofNat o.value)⟩ ::
      tokenListPages nanoS amountPage L ∧
    o.value < 2 ^ 64 ∧
    (∀ b, o.script = some (.raw b) → ScriptPage env network b first) ∧
    (o.script = some .fee → first = ⟨.fee, .text "Miners Fee".toList⟩) ∧
    (L.map (·.1)).Nodup ∧ (∀ id a, (id, a) ∈ L ↔ a = tokRefs table o.tokens id ∧ a ≠ 0) ∧
    ∀ id a, (id, a) ∈ L → a < 2 ^ 64

end Ergo.Spec
