import Verif.Spec.Trace
/-!
# The command set, from the documentation (doc/ins.md and doc/INS-*.md)
-/
namespace Ergo.Spec

/-- The documented instructions: version, name, extended public key, address, attest, sign. -/
def knownIns (ins : UInt8) : Bool :=
  ins = 0x01 || ins = 0x02 || ins = 0x10 || ins = 0x11 || ins = 0x20 || ins = 0x21

/-- P1/P2 values the dispatcher lets through. -/
def paramsOk (ins p1 p2 : UInt8) : Bool :=
  if ins = 0x01 ∨ ins = 0x02 then p1 = 0 ∧ p2 = 0
  else if ins = 0x10 then (p1 = 1 ∨ p1 = 2) ∧ p2 = 0
  else if ins = 0x11 then (p1 = 1 ∨ p1 = 2) ∧ (p2 = 1 ∨ p2 = 2)
  else p1 ≠ 0 ∧ p2 ≠ 0

/-- Subcommands of the attest instruction that continue a session. -/
def attestCont (p1 : UInt8) : Bool := p1 = 2 || p1 = 3 || p1 = 4 || p1 = 5

/-- Subcommands of the sign instruction that continue a session. -/
def signCont (p1 : UInt8) : Bool := (0x10 ≤ p1 && p1 ≤ 0x1A) || p1 = 0x20

/-- Commands that start an operation: both exports, start of an attestation, start of signing. -/
def starts (ins p1 p2 : UInt8) : Bool :=
  (ins = 0x10 || ins = 0x11) && paramsOk ins p1 p2 ||
  (ins = 0x20 || ins = 0x21) && p1 = 0x01 && (p2 = 1 || p2 = 2)

/-- A reply with a status word other than success. -/
def IsError (r : Reply) : Prop := ∃ sw, sw ≠ 0x9000 ∧ r = .sw sw []

/-- The user approves the start of signing. -/
def OpensSign (o : Obs) : Prop :=
  o.event = .both ∧ o.asked = some .p2pkSigning ∧ ∃ out, o.reply = .sw 0x9000 out

/-- An attestation is started: by the user's approval, or at once. -/
def OpensAttest (o : Obs) : Prop :=
  (∃ out, o.reply = .sw 0x9000 out) ∧
    (o.event = .both ∧ o.asked = some .confirmAttest ∨
      ∃ cla p2 data rnd, o.event = .apdu cla 0x20 0x01 p2 data rnd)

/-- An answer with a status word that ends a session. -/
def Fails (o : Obs) : Prop :=
  ∃ sw out, o.reply = .sw sw out ∧ sw ≠ 0x9000 ∧ harmless sw = false

end Ergo.Spec
