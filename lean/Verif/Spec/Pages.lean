import Verif.Spec.Tx
import Verif.Spec.Path
import Verif.Spec.Base58
import Verif.Model.Ui
/-!
# What the confirmation screens have to show

In terms of the described transaction.  The types of titles and values of pages are those of the
device (`Page`); the texts are given here from their description.
-/
namespace Ergo.Spec

/-- The hexadecimal digits of a byte string, upper case. -/
def hexChars (b : Bytes) : List Char :=
  b.flatMap (fun x => [x.toNat / 16, x.toNat % 16].map ("0123456789ABCDEF".toList.getD · '?'))

/-- A token id on screen: the first and the last digits (7 on Nano S, else 26) of its 64. -/
def idText (nanoS : Bool) (id : Bytes) : List Char :=
  let n := if nanoS then 7 else 26
  (hexChars id).take n ++ "...".toList ++ (hexChars id).drop (64 - n)

/-- Two pages per token, tokens numbered from 1: its id, then `value`. -/
def tokenListPages {α : Type} (nanoS : Bool) (value : Nat → α → ShowRes) (l : List (Bytes × α)) :
    List ShowRes :=
  (l.zipIdx 1).flatMap (fun t =>
    [.page ⟨.token t.2, .text (idText nanoS t.1.1)⟩, value t.2 t.1.2])

/-- The page for the difference `b` between the amount of a token in the inputs and in the outputs.
For -2^63 the device has no page. -/
def balancePage (n : Nat) (b : Int) : ShowRes :=
  if b = -2 ^ 63 then .ub
  else .page ⟨.tokenValue n, if b < 0 then .minting b.natAbs else .burning b.natAbs⟩

/-- The page for the amount of a token in an output. -/
def amountPage (n : Nat) (a : Nat) : ShowRes := .page ⟨.tokenValue n, .amount (UInt64.ofNat a)⟩

/-! ## Addresses of scripts -/

/-- `b` is the script of the compressed public key `k`. -/
def IsKeyScript (b k : Bytes) : Prop :=
  b = [0x00, 0x08, 0xcd] ++ k ∧ k.length = 33 ∧ (k.head? = some 2 ∨ k.head? = some 3)

/-- `b` is the pay-to-script-hash script of `h`. -/
def IsHashScript (b h : Bytes) : Prop :=
  b = [0x00, 0xea, 0x02, 0xd1, 0x93, 0xb4, 0xcb, 0xe4, 0xe3, 0x01, 0x0e, 0x04, 0x00, 0x04, 0x30, 0x0e,
    0x18] ++ h ++ [0xd4, 0x08, 0x01] ∧ h.length = 24

/-- Text of the address with the given content: type and network byte, content, four bytes of
hash. -/
def addressText (env : Env) (kind network : UInt8) (content : Bytes) : List Char :=
  base58 ((kind + network) :: content ++ (env.blake ((kind + network) :: content)).take 4)

/-- The page of a script in an output. -/
def ScriptPage (env : Env) (network : UInt8) (b : Bytes) (p : Page) : Prop :=
  (∃ k, IsKeyScript b k ∧ p = ⟨.address, .text (addressText env 1 network k)⟩) ∨
  (∃ h, IsHashScript b h ∧ p = ⟨.scriptHash, .text (addressText env 2 network h)⟩) ∨
  (¬ ∃ k, IsKeyScript b k) ∧ (¬ ∃ h, IsHashScript b h) ∧
    p = ⟨.scriptHash, .text (addressText env 2 network ((env.blake b).take 24))⟩

end Ergo.Spec
