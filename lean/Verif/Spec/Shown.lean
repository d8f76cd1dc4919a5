import Verif.Spec.Tx
import Verif.Spec.Path
/-!
# Which outputs need a decision of the user
-/
namespace Ergo.Spec

/-- Fee output: the fee contract and no token with an amount. -/
def PlainFee (b : BoxDesc Nat) : Prop := b.script = some .fee ∧ ∀ t ∈ b.tokens, t.2 = 0

/-- Change in the window of the signing path `own`: standard five-component path, same fourth
component (change), address index less than 20 above the own one. -/
def InWindow (own : List UInt32) (b : BoxDesc Nat) : Prop :=
  ∃ p, b.script = some (.change p) ∧ IsAddressPath p ∧ p.length = 5 ∧ p[3]? = own[3]? ∧
    ∃ i j, p[4]? = some i ∧ own[4]? = some j ∧ i.toNat < j.toNat + 20

/-- Change to a standard five-component path after the user's last approval of an output (among
`older`, newest first) was for change to such a path. -/
def AfterChange (older : List OutDesc) (b : BoxDesc Nat) : Prop :=
  ∃ p, b.script = some (.change p) ∧ IsAddressPath p ∧ p.length = 5 ∧
    ∃ o q, older.find? (·.approved) = some o ∧ o.box.script = some (.change q) ∧
      IsAddressPath q ∧ q.length = 5

/-- Outputs that are accepted without being shown. -/
def Automatic (own : List UInt32) (older : List OutDesc) (b : BoxDesc Nat) : Prop :=
  PlainFee b ∨ InWindow own b ∨ AfterChange older b

/-- Every complete output (newest first) is approved or accepted without being shown. -/
def AllShown (own : List UInt32) : List OutDesc → Prop
  | [] => True
  | o :: older =>
    (o.box.complete = true → o.approved = true ∨ Automatic own older o.box) ∧ AllShown own older

end Ergo.Spec
