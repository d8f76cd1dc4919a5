import Verif.Model.Bytes
/-!
# Specification of BIP-32 path classes and texts (over component numbers)
-/
namespace Ergo.Spec

/-- Hardened component. -/
def Hardened (c : UInt32) : Prop := 2 ^ 31 ≤ c.toNat

/-- `m/44'/429'/…` with at least one further component, all hardened. -/
def IsAccountPath (p : List UInt32) : Prop :=
  ∃ a more, p = 0x8000002C :: 0x800001AD :: a :: more ∧ Hardened a ∧ ∀ c ∈ more, Hardened c

/-- `m/44'/429'/a'/{0,1}/i/…`, everything from `i` on not hardened. -/
def IsAddressPath (p : List UInt32) : Prop :=
  ∃ a ch i more, p = 0x8000002C :: 0x800001AD :: a :: ch :: i :: more ∧
    Hardened a ∧ (ch = 0 ∨ ch = 1) ∧ ¬ Hardened i ∧ ∀ c ∈ more, ¬ Hardened c

/-- Text of a component: decimal index, with `'` if hardened. -/
def compText (c : UInt32) : List Char :=
  if c.toNat < 2 ^ 31 then Nat.toDigits 10 c.toNat
  else Nat.toDigits 10 (c.toNat - 2 ^ 31) ++ ['\'']

/-- Text of a path: the components separated by `/`. -/
def pathText : List UInt32 → List Char
  | [] => []
  | [c] => compText c
  | c :: d :: cs => compText c ++ '/' :: pathText (d :: cs)

end Ergo.Spec
