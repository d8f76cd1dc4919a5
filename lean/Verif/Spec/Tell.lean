import Verif.Spec.Display
import Mathlib.Data.List.Forall2
/-!
# What the pages of a question tell apart
-/
namespace Ergo.Spec

/-- Token ids that look the same: on the Nano S they agree in the first and last 7 of 64 hexadecimal
digits (3 bytes and a half), elsewhere in the first and last 13 bytes. -/
def SameEnds (nanoS : Bool) (a b : Bytes) : Prop :=
  if nanoS then
    a.take 3 = b.take 3 ∧ (a.getD 3 0).toNat / 16 = (b.getD 3 0).toNat / 16 ∧
      (a.getD 28 0).toNat % 16 = (b.getD 28 0).toNat % 16 ∧ a.drop 29 = b.drop 29
  else a.take 13 = b.take 13 ∧ a.drop 19 = b.drop 19

/-- Lists of tokens that look the same: one for one the same amounts, and ids that look the same. -/
def SameTokens {α : Type} (nanoS : Bool) (l m : List (Bytes × α)) : Prop :=
  List.Forall₂ (fun t u => SameEnds nanoS t.1 u.1 ∧ t.2 = u.2) l m

/-- Whom a script pays: a key, or what is known of another script (24 bytes of hash). -/
inductive Payee where
  | key (script : Bytes)
  | hash (h : Bytes)

/-- The payee of a script. -/
noncomputable def payee (env : Env) (b : Bytes) : Payee :=
  open scoped Classical in
  if IsKeyScript b (b.drop 3) then .key b
  else if IsHashScript b ((b.drop 17).take 24) then .hash ((b.drop 17).take 24)
  else .hash ((env.blake b).take 24)

/-- Outputs (of transactions, in networks) that look the same. -/
def SameOutput (env : Env) (nanoS : Bool) (n1 : UInt8) (D1 : TxDesc) (o1 : OutDesc)
    (n2 : UInt8) (D2 : TxDesc) (o2 : OutDesc) : Prop :=
  match o1.box.script, o2.box.script with
  | some (.change p), some (.change q) =>
    70 ≤ pathNeed p ∧ 70 ≤ pathNeed q ∨
      pathNeed p < 70 ∧ pathNeed q < 70 ∧ (pathText p).take 69 = (pathText q).take 69
  | some (.raw b), some (.raw c) =>
    n1 = n2 ∧ payee env b = payee env c ∧ o1.box.value = o2.box.value ∧
      SameTokens nanoS (outTokens D1 o1) (outTokens D2 o2)
  | some .fee, some .fee =>
    o1.box.value = o2.box.value ∧ SameTokens nanoS (outTokens D1 o1) (outTokens D2 o2)
  | _, _ => False

/-- Transactions, signed with paths, that look the same. -/
def SameTx (nanoS : Bool) (p1 : List UInt32) (D1 : TxDesc) (p2 : List UInt32) (D2 : TxDesc) : Prop :=
  p1 = p2 ∧
  D1.sumIn - (D1.sumOut Script.isChange + D1.sumOut Script.isFee) =
    D2.sumIn - (D2.sumOut Script.isChange + D2.sumOut Script.isFee) ∧
  D1.sumOut Script.isFee = D2.sumOut Script.isFee ∧
  SameTokens nanoS (burnedMinted D1) (burnedMinted D2)

/-- The application is the one of the last approval. -/
def Ghost.Knows (g : Ghost) (a : Request) : Prop := a.token ≠ 0 ∧ a.token = g.app

/-- Requests, with what was observed before, that look the same: the first 59 characters of the path, an
address to be confirmed, and the application token, except for a known application at the start of
signing.  Of a box to be attested nothing is shown. -/
def SameRequest (env : Env) (g1 : Ghost) (a1 : Request) (g2 : Ghost) (a2 : Request) : Prop :=
  (a1.ins ≠ 0x20 → (pathText a1.path).take 59 = (pathText a2.path).take 59) ∧
  (a1.ins = 0x11 → a1.p1 = 2 → a1.exports env = a2.exports env) ∧
  (a1.ins ≠ 0x21 → a1.token = a2.token) ∧
  (a1.ins = 0x21 → g1.Knows a1 ∧ g2.Knows a2 ∨ ¬ g1.Knows a1 ∧ ¬ g2.Knows a2 ∧ a1.token = a2.token)

end Ergo.Spec
