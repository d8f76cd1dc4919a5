import Verif.Model.Env
import Verif.Spec.Tx
/-!
# Keys of paths, and the bytes hashed for a signature
-/
namespace Ergo

/-- The compressed public key of a path (empty if it cannot be derived). -/
def Env.keyOf (env : Env) (path : List UInt32) : Bytes :=
  ((env.genPublic path).map (fun k => compress k.1)).getD []

/-- The bytes in front of the transaction in the hash of a signature: fixed prefix, public key, fixed
bytes, commitment. -/
def Spec.commitBytes (pk w : Bytes) : Bytes :=
  [0x01, 0x00, 0x27, 0x10, 0x01, 0x08, 0xcd] ++ compress pk ++ [0x73, 0x00, 0x00, 0x21] ++ compress w

end Ergo
