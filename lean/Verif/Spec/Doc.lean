import Verif.Spec.Start
/-!
# The requests that start an operation, as the documentation has them

The tables of doc/INS-10-EXT-PUB-KEY.md, INS-11-DERIVE-ADDR.md, INS-20-ATTEST-BOX.md (0x01) and
INS-21-SIGN-TRANSACTION.md (0x01).
-/
namespace Ergo.Spec

/-- A path of `least` to 10 components at the start of the data, `m/44'/429'/a'/…`, followed by `rest`
more bytes. -/
structure DocPath (least : Nat) (d : Bytes) (rest : Nat) : Prop where
  len : d.length = pathLen d + rest
  least : least ≤ field d 0 1
  most : field d 0 1 ≤ 10
  purpose : (pathOf d)[0]? = some 0x8000002C
  coin : (pathOf d)[1]? = some 0x800001AD
  account : ∀ c, (pathOf d)[2]? = some c → Hardened c

/-- The request is in the documentation. -/
def Request.Documented (a : Request) : Prop :=
  let tok := if a.hasToken then 4 else 0
  a.ins = 0x10 ∧ (a.p1 = 1 ∨ a.p1 = 2) ∧ a.p2 = 0 ∧ DocPath 2 a.data tok ∨
  a.ins = 0x11 ∧ (a.p1 = 1 ∨ a.p1 = 2) ∧ (a.p2 = 1 ∨ a.p2 = 2) ∧ a.data ≠ [] ∧ a.data.headD 0 ≤ 252 ∧
    DocPath 5 (a.data.drop 1) tok ∧ ((pathOf (a.data.drop 1))[3]? = some 0 ∨ (pathOf (a.data.drop 1))[3]? = some 1) ∨
  a.ins = 0x20 ∧ a.p1 = 1 ∧ (a.p2 = 1 ∨ a.p2 = 2) ∧ a.data.length = 55 + tok ∨
  a.ins = 0x21 ∧ a.p1 = 1 ∧ (a.p2 = 1 ∨ a.p2 = 2) ∧ a.data ≠ [] ∧ a.data.headD 0 ≤ 252 ∧
    DocPath 5 (a.data.drop 1) tok

/-- What the device demands beyond the documentation: an export of a key needs a third component and only
hardened ones; in an address path everything after the chain is not hardened; a signing path is an address
path, the network one of two; an attested box has at most 20 tokens and at most 32768 bytes of script and
of registers. -/
def Request.Narrower (a : Request) : Prop :=
  (a.ins = 0x10 → 3 ≤ a.path.length ∧ ∀ c ∈ a.path.drop 2, Hardened c) ∧
  (a.ins = 0x11 ∨ a.ins = 0x21 → ∀ c ∈ a.path.drop 4, ¬ Hardened c) ∧
  (a.ins = 0x20 → field a.data 50 1 ≤ 20 ∧ field a.data 42 4 ≤ 32768 ∧ field a.data 51 4 ≤ 32768) ∧
  (a.ins = 0x21 → (a.data.headD 0 = 0 ∨ a.data.headD 0 = 16) ∧
    (a.path[3]? = some 0 ∨ a.path[3]? = some 1))

/-- The keys that are needed can be computed. -/
def Request.Keys (env : Env) (a : Request) : Prop :=
  (a.ins = 0x10 ∨ a.ins = 0x11 → (env.genPublic a.path).isSome) ∧
  (a.ins = 0x21 → ∃ secret, env.genPrivate a.path = some secret ∧ UsableScalar env secret ∧
    ∃ j < 100, UsableScalar env (a.rnd.keys j))

end Ergo.Spec
