import Verif.Spec.Base58
import Verif.Model.Env
/-!
# Specification of reading addresses back
-/
namespace Ergo.Spec

/-- The bytes of an address: kind and network, content, and four bytes of the hash of both. -/
def IsAddress (env : Env) (kind : UInt8) (len : Nat) (raw : Bytes) : Prop :=
  ∃ network content, content.length = len ∧
    raw = (kind + network) :: content ++ (env.blake ((kind + network) :: content)).take 4

end Ergo.Spec
