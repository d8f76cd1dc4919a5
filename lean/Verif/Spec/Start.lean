import Verif.Spec.Consent
import Verif.Spec.Lengths
/-!
# Which commands that start an operation are accepted

Written over the data of the command and the application token of the last approval.
-/
namespace Ergo.Spec

/-- Number of characters that have to fit for a path to be shown: its text, of which the last
component, if not hardened, may be cut after its first digit. -/
def pathNeed : List UInt32 → Nat
  | [] => 0
  | [c] => if c.toNat < 2 ^ 31 then 1 else (compText c).length
  | c :: d :: cs => (compText c).length + 1 + pathNeed (d :: cs)

/-- The path in the data of a request. -/
def Request.path (a : Request) : List UInt32 := pathOf (if a.ins = 0x10 then a.data else a.data.drop 1)

/-- A number that can be used as a secret or as a random scalar. -/
def UsableScalar (env : Env) (k : Bytes) : Prop :=
  0 < be k ∧ be k ≤ groupOrder ∧ (env.mulG k).isSome

/-- The data of a start command is as documented: length, number of path components, kind of path,
network, sizes; and the key can be derived.  For the start of signing, one of the first hundred
random scalars is usable. -/
def Request.Good (env : Env) (a : Request) : Prop :=
  wantedLen a.ins a.p1 a.p2 a.data = some a.data.length ∧
  if a.ins = 0x20 then
    field a.data 50 1 ≤ 20 ∧ field a.data 42 4 ≤ 32768 ∧ field a.data 51 4 ≤ 32768
  else (1 ≤ pathCount a.ins a.data ∧ pathCount a.ins a.data ≤ 10) ∧
    if a.ins = 0x10 then IsAccountPath a.path ∧ (env.genPublic a.path).isSome
    else IsAddressPath a.path ∧
      if a.ins = 0x11 then a.data.headD 0 ≤ 252 ∧ (env.genPublic a.path).isSome
      else (a.data.headD 0 = 0 ∨ a.data.headD 0 = 16) ∧
        ∃ secret, env.genPrivate a.path = some secret ∧ UsableScalar env secret ∧
          ∃ j < 100, UsableScalar env (a.rnd.keys j)

/-- No question is needed: an export or attestation with the application token of the last
approval. -/
def Request.AtOnce (a : Request) (app : UInt32) : Prop :=
  a.token ≠ 0 ∧ a.token = app ∧ (a.ins = 0x10 ∨ a.ins = 0x11 ∧ a.p1 = 1 ∨ a.ins = 0x20)

/-- A session id can be drawn, if one is needed. -/
def Request.IdDrawn (a : Request) : Prop :=
  a.ins = 0x20 ∨ a.ins = 0x21 → ∃ i ∈ a.rnd.u8s, i ≠ 0

/-- The question can be shown. -/
def Request.Showable (a : Request) : Prop := a.ins = 0x20 ∨ pathNeed a.path < 60

end Ergo.Spec
