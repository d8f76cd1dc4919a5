import Verif.Spec.Exact
import Verif.Spec.Forgery
import Verif.Spec.Schnorr
/-!
# Signatures that spend attested boxes
-/
namespace Ergo.Spec

/-- Attested boxes with the same id have the same tokens. -/
def IdsDistinct (env : Env) (tr : List Obs) : Prop :=
  ∀ A B, Attested tr A → Attested tr B → A.boxId env = B.boxId env → A.box.tokens = B.box.tokens

/-- The signature is over the bytes of a transaction that the commands of the session say, that is within the
limits, and whose inputs are boxes that this device attested (if every announced output was sent in full). -/
def SpendsAttested (env : Env) (tr : List Obs) (out : Bytes) : Prop :=
  ∃ S secret chain j pk w, (know tr).sign = some S ∧
    env.derive (pathOf (S.start.data.drop 1)) = some (secret, chain) ∧
    env.mulG secret = some pk ∧ env.mulG (S.start.rnd.keys j) = some w ∧
    ((∀ o ∈ (describe S.log).outputs, o.box.complete) → ∃ t : WalletTx,
      (describe S.log).Says env t ∧ (∀ s ∈ t.inputs, ∃ A, Attested tr A ∧ A.Of s.coin) ∧ t.Within env ∧
        out.take 24 = (env.blake (commitBytes pk w ++ t.bytes env)).take 24)

end Ergo.Spec
