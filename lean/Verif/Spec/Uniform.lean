import Verif.Spec.Secp256k1
import Verif.Spec.Trace
import Mathlib.SetTheory.Cardinal.Finite
/-!
# Random draws of a signing session and the signatures that can result

The generator of the device gives 32-byte numbers.  A *tape* is everything that it gives for one start of
signing: 100 numbers below `2^256`.  All tapes are equally likely, so a probability is a number of tapes.
-/
namespace Ergo.Spec

/-- What the generator gives for one start of signing. -/
abbrev RandTape : Type := Fin 100 → Fin (2 ^ 256)

/-- The bytes of draw number `i`. -/
def RandTape.keys (t : RandTape) (i : Nat) : Bytes := if h : i < 100 then bytes32 (t ⟨i, h⟩) else []

/-- A number that can serve as ephemeral key: a nonzero residue. -/
def KeyNumber (v : Nat) : Prop := 0 < v ∧ v < groupOrder

instance (v : Nat) : Decidable (KeyNumber v) := by unfold KeyNumber; infer_instance

/-- Some draw of the tape can serve as ephemeral key. -/
def RandTape.Usable (t : RandTape) : Prop := ∃ i, KeyNumber (t i)

/-- The first draw that can serve as ephemeral key. -/
def RandTape.first (t : RandTape) : Option (Fin (2 ^ 256)) :=
  ((List.finRange 100).map t).find? fun v : Fin (2 ^ 256) => KeyNumber v.val

/-- The signatures that an honest signer can give under the public key `P`: those which the network accepts,
except that the challenge is not zero and the commitment is not the point at infinity.  Anybody can decide
this, without the secret. -/
def Producible {G : Type} [AddCommGroup G] (g : G) (ser : G → Bytes) (hash : Bytes → Bytes) (P : G)
    (msg sig : Bytes) : Prop :=
  ValidSig g ser hash P msg sig ∧ be (sig.take 24) ≠ 0 ∧
    be (sig.drop 24) • g ≠ be (sig.take 24) • P

/-- `N` tapes for each of the ephemeral keys, and the tapes without usable draw, are all tapes. -/
def FairShare (N : Nat) : Prop :=
  (groupOrder - 1) * N + (2 ^ 256 - (groupOrder - 1)) ^ 100 = (2 ^ 256) ^ 100

/-- A command to start signing is put on the screen. -/
def StartsSign (o : Obs) : Prop :=
  o.reply = .wait ∧ ∃ cla p2 data rnd, o.event = .apdu cla 0x21 0x01 p2 data rnd

end Ergo.Spec
