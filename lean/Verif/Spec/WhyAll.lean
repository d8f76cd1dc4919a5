import Verif.Spec.Why
import Verif.Spec.Start
import Verif.Spec.AttestFits
import Verif.Spec.Commands
/-!
# Why any command is refused

For every command, whatever its bytes and whenever it comes, the list of what is demanded, in the order
in which it is demanded, each with the status word of the refusal (src/sw.h).  Written over what an
observer knows: the commands and replies so far, and whether the user is being asked something.
-/
namespace Ergo.Spec

/-- Tokens of an attested box, after those in `got`: not more than announced, whole id, whole amount,
not listed before. -/
def attestTokDemands (o : BoxDesc Bytes) : List (Bytes × Nat) → List Bytes → List Demand
  | _, [] => []
  | got, b :: bs =>
    (o.tokens.length + got.length < o.nTokens, 0xE00A) :: (32 ≤ b.length, 0xE001) ::
    (b.length = 40, 0xE002) :: (b.take 32 ∉ (o.tokens ++ got).map (·.1), 0xE001) ::
    attestTokDemands o (got ++ [tok40 b]) bs

/-- What is demanded of a command of an attestation. -/
def attestDemands (o : BoxDesc Bytes) (sub : UInt8) (data : Bytes) : List Demand :=
  if sub = 0x02 then
    [(o.scriptDone = false, 0xB0FF), (scriptLen o + data.length ≤ o.treeSize, 0xE015),
      (scriptLen o + data.length = o.treeSize ∨ 255 ≤ data.length, 0xE01A)]
  else if sub = 0x03 then
    (o.scriptDone = true ∧ o.tokens.length < o.nTokens, 0xB0FF) :: attestTokDemands o [] (pieces 40 data)
  else if sub = 0x04 then
    [(o.scriptDone = true ∧ o.tokens.length = o.nTokens ∧ o.regs.length < o.regsSize, 0xB0FF),
      (o.regs.length + data.length ≤ o.regsSize, 0xE015)]
  else
    [(o.complete, 0xB0FF), (1 ≤ data.length, 0xE014), (data.length ≤ 1, 0xE015),
      (field data 0 1 < framesFor o.nTokens, 0xE007)]

/-- What is demanded of a command that starts an operation; `app` is the application token of the last
approval.  The last demand of a start of signing is only reached if a session id can be drawn. -/
def startDemands (env : Env) (app : UInt32) (a : Request) : List Demand :=
  let tok := if (if a.ins = 0x10 then a.p1 else a.p2) = 2 then 4 else 0
  let path := a.path
  if a.ins = 0x10 then
    [(1 ≤ field a.data 0 1 ∧ field a.data 0 1 ≤ 10 ∧ pathLen a.data + tok ≤ a.data.length, 0xE014),
      (a.data.length ≤ pathLen a.data + tok, 0xE015), (IsAccountPath path, 0xE012),
      ((env.genPublic path).isSome, 0xE013), (a.AtOnce app ∨ pathNeed path < 60, 0xE101)]
  else if a.ins = 0x11 then
    [(1 ≤ field a.data 1 1 ∧ field a.data 1 1 ≤ 10 ∧
        1 + pathLen (a.data.drop 1) + tok ≤ a.data.length, 0xE014),
      (a.data.length ≤ 1 + pathLen (a.data.drop 1) + tok, 0xE015), (IsAddressPath path, 0xE012),
      ((env.genPublic path).isSome, 0xE013), (a.data.headD 0 ≤ 252, 0xE016),
      (a.AtOnce app ∨ pathNeed path < 60, 0xE101)]
  else if a.ins = 0x20 then
    [(a.p2 = 1 ∨ a.p2 = 2, 0x6A86), (55 + tok ≤ a.data.length, 0xE014),
      (a.data.length ≤ 55 + tok, 0xE015), (field a.data 50 1 ≤ 20, 0xE00A),
      (field a.data 42 4 ≤ 32768, 0xE015), (field a.data 51 4 ≤ 32768, 0xE015)]
  else
    [(a.p2 = 1 ∨ a.p2 = 2, 0x6A86), (1 ≤ a.data.length, 0xE014),
      (1 ≤ field a.data 1 1 ∧ field a.data 1 1 ≤ 10 ∧
        1 + pathLen (a.data.drop 1) ≤ a.data.length, 0xE010),
      (1 + pathLen (a.data.drop 1) + tok ≤ a.data.length, 0xE014),
      (a.data.length ≤ 1 + pathLen (a.data.drop 1) + tok, 0xE015), (IsAddressPath path, 0xE012),
      (a.data.headD 0 = 0 ∨ a.data.headD 0 = 16, 0xE019),
      (∃ secret, env.genPrivate path = some secret ∧ UsableScalar env secret ∧
        ∃ j < 100, UsableScalar env (a.rnd.keys j), 0xE013),
      (a.IdDrawn → pathNeed path < 60, 0xE101)]

/-- What is demanded of a command that continues an attestation or a signing session: a session of its
kind goes on, the id is that of the session, and then what the command itself demands. -/
def contDemands (env : Env) (key : Bytes) (tr : List Obs) (a : Request) : List Demand :=
  if a.ins = 0x20 then
    (attestCont a.p1, 0xB003) :: ((know tr).attest.isSome ∧ LiveAttest tr, 0xB0FF) ::
    (∀ S ∈ (know tr).attest, a.p2 = S.id, 0xB002) ::
    match (know tr).attest with
    | none => []
    | some S => attestDemands S.box a.p1 a.data
  else
    (signCont a.p1, 0xB003) :: ((know tr).sign.isSome ∧ Live tr, 0xB0FF) ::
    (∀ S ∈ (know tr).sign, a.p2 = S.id, 0xB002) ::
    match (know tr).sign with
    | none => []
    | some S => signDemands env key (describe S.log) a.p1 a.data

/-- What is demanded of any command; `asks` is what the user is being asked. -/
def allDemands (env : Env) (key : Bytes) (tr : List Obs) (asks : Option Title) (cla : UInt8)
    (a : Request) : List Demand :=
  [(a.data.length ≤ 255, 0x6A87), (cla = 0xE0, 0x6E00),
    (a.ins ∈ [0x01, 0x02, 0x10, 0x11, 0x20, 0x21], 0x6D00), (paramsOk a.ins a.p1 a.p2, 0x6A86)] ++
  if a.ins = 0x01 ∨ a.ins = 0x02 then []
  else (asks = none, 0xB000) ::
    if a.ins = 0x10 ∨ a.ins = 0x11 ∨ a.p1 = 0x01 then startDemands env (know tr).app a
    else contDemands env key tr a

/-- The reply that goes with a list of demands: if all are met success, a question, or endless search
for a session id among random numbers that are all 0; otherwise the status word of the first that is
not, and nothing else. -/
def Answers (rnd : Rnd) (l : List Demand) (r : Reply) : Prop :=
  AllMet l ∧ ((∃ out, r = .sw 0x9000 out) ∨ r = .wait ∨ r = .hang ∧ ∀ i ∈ rnd.u8s, i = 0) ∨
  ∃ c, FirstUnmet l c ∧ c ≠ 0x9000 ∧ r = .sw c []

end Ergo.Spec
