import Verif.Spec.Pages
import Verif.Model.Draw
/-!
# The characters on the screens

What the user reads, given from the meaning of a page.
-/
namespace Ergo.Spec

/-- The last `k` decimal digits of a number, leading zeros included. -/
def lastDigits (k v : Nat) : List Char :=
  (List.range k).map (fun i => "0123456789".toList.getD (v / 10 ^ (k - 1 - i) % 10) '?')

/-- An amount of nanoERG in ERG. -/
def ergText (v : Nat) : List Char :=
  Nat.toDigits 10 (v / 10 ^ 9) ++ ['.'] ++ lastDigits 9 v ++ " ERG".toList

/-- Titles of the pages. -/
def titleText : Title → List Char
  | .path => "Path".toList
  | .p2pkSigning => "P2PK Signing".toList
  | .p2pkPath => "P2PK Path".toList
  | .application => "Application".toList
  | .change => "Change".toList
  | .address => "Address".toList
  | .scriptHash => "Script Hash".toList
  | .fee => "Fee".toList
  | .outputValue => "Output Value".toList
  | .token n => "Token [".toList ++ Nat.toDigits 10 n ++ "]".toList
  | .tokenValue n => "Token [".toList ++ Nat.toDigits 10 n ++ "] Value".toList
  | .txAmount => "Transaction Amount".toList
  | .txFee => "Transaction Fee".toList
  | .confirmAttest => "Confirm Attest Input".toList
  | .extPubKeyExport => "Ext PubKey Export".toList
  | .confirmAddress => "Confirm Address".toList
  | .confirmSendAddress => "Confirm Send Address".toList
  | .confirmOutput => "Confirm Output".toList
  | .approveSigning => "Approve Signing".toList

/-- Values on the pages. -/
def shownText : Shown → List Char
  | .nothing => []
  | .text t => t
  | .appToken v => "0x".toList ++ (List.range 8).map (fun i =>
      "0123456789abcdef".toList.getD (v.toNat / 16 ^ (7 - i) % 16) '?')
  | .erg v => ergText v.toNat
  | .amount v => Nat.toDigits 10 v.toNat
  | .minting v => "Minting: ".toList ++ Nat.toDigits 10 v
  | .burning v => "Burning: ".toList ++ Nat.toDigits 10 v

/-- The array of `n` characters holds the text, with a terminator. -/
def Holds (n : Nat) (b t : List Char) : Prop :=
  b.length = n ∧ (∃ rest, b = t ++ nul :: rest) ∧ nul ∉ t

/-- The arrays that a screen callback leaves hold title and value of the page; the callback refuses
with the status word of the page that cannot be shown; it has undefined behaviour only where the page
has. -/
def Renders : ShowRes → Option Drawn → Prop
  | .page p, some r => r.sw = 0x9000 ∧ Holds 20 r.title (titleText p.title) ∧
      Holds 70 r.text (shownText p.shown)
  | .err sw, some r => r.sw = sw ∧ sw ≠ 0x9000
  | .ub, none => True
  | _, _ => False

end Ergo.Spec

namespace Ergo

/-- The values that are numbers. -/
def Shown.numeric : Shown → Bool
  | .nothing | .text _ => false
  | _ => true

end Ergo
