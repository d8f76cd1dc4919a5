import Verif.Spec.WhyAll
import Verif.Spec.AttestFits
import Verif.Spec.Shown
import Verif.Spec.Keys
import Verif.Spec.Pages
import Mathlib.Data.List.Dedup
/-!
# The whole behaviour as one table

For every event, what the device replies, given what was seen before.  The parts are those of the other
specifications: what is demanded of a command (`WhyAll`), what is asked about (`Shown`), what an
attestation answers (`AttestFits`), what is hashed (`Tx`).
-/
namespace Ergo.Spec

/-! ## The question on the screen -/

/-- The question that a request puts on the screen. -/
def Request.title (a : Request) : Title :=
  if a.ins = 0x10 then .extPubKeyExport
  else if a.ins = 0x11 then (if a.p1 = 1 then .confirmSendAddress else .confirmAddress)
  else if a.ins = 0x20 then .confirmAttest
  else if a.p1 = 0x01 then .p2pkSigning
  else if a.p1 = 0x20 then .approveSigning
  else .confirmOutput

/-- Number of pages about the newest output: change has its path; other outputs have address, value,
and two pages for every token with an amount. -/
def outputPages (D : TxDesc) : Nat :=
  match D.outputs with
  | [] => 0
  | o :: _ =>
    match o.box.script with
    | some (.change _) => 1
    | _ => 2 + 2 * (D.table.dedup.filter (fun id => tokRefs D.table o.box.tokens id ≠ 0)).length

/-- Number of pages about the transaction: path, amount, fee, and two pages for every token with
different amounts in inputs and outputs. -/
def finalPages (D : TxDesc) : Nat :=
  3 + 2 * ((D.table ++ D.inputs.flatMap (fun i => i.tokens.map (fun t => t.1))).dedup.filter
    (fun id => D.tokIn id ≠ D.tokOut id)).length

/-- Number of pages of a question before Approve and Reject. -/
def Ghost.pages (g : Ghost) (a : Request) : Nat :=
  if a.ins = 0x21 ∧ a.p1 ≠ 0x01 then
    match g.sign with
    | none => 0
    | some S => 1 + if a.p1 = 0x20 then finalPages (describe S.log) else outputPages (describe S.log)
  else if a.ins = 0x21 then 1 + if a.token ≠ 0 ∧ a.token = g.app then 0 else 1
  else (if a.ins = 0x20 then 1 else if a.ins = 0x11 ∧ a.p1 = 2 then 3 else 2) +
    if a.token = 0 then 0 else 1

/-- The pages of the question, followed by Approve and Reject, form a ring; one to the left. -/
def leftOf (pages k : Nat) : Nat := if k = 0 then pages + 1 else k - 1
/-- One to the right. -/
def rightOf (pages k : Nat) : Nat := if k = pages + 1 then 0 else k + 1

/-- Number of pages of the question on the screen. -/
def Ghost.pagesNow (g : Ghost) : Nat := (g.pending.map g.pages).getD 0

/-- Where in its ring the question is (`none`: nothing is asked). -/
def position : List Obs → Option Nat
  | [] => none
  | o :: tr =>
    match o.event, o.reply with
    | .apdu _ _ _ _ _ _, .wait => some 0
    | .apdu _ _ _ _ _ _, _ => position tr
    | .left, .wait => (position tr).map (leftOf (know tr).pagesNow)
    | .right, .wait => (position tr).map (rightOf (know tr).pagesNow)
    | .both, .wait => position tr
    | _, _ => none

/-- What is asked. -/
def question (tr : List Obs) : Option Title :=
  (position tr).bind (fun _ => (know tr).pending.map Request.title)

/-- What pressing both buttons means. -/
inductive Choice where
  | nothing
  | approve
  | reject
  deriving DecidableEq, Repr

/-- What pressing both buttons means now.  The first page of the question about signing approves. -/
def choice (tr : List Obs) : Choice :=
  match position tr with
  | none => .nothing
  | some k =>
    let n := (know tr).pagesNow
    if k = n then .approve
    else if k = n + 1 then .reject
    else if k = 0 ∧ question tr = some .p2pkSigning then .approve
    else .nothing

/-! ## Replies -/

open scoped Classical in
/-- The status word of the first demand that is not met. -/
noncomputable def refusal : List Demand → Option UInt16
  | [] => none
  | (P, c) :: l => if P then refusal l else some c

/-- What is sent for a start command that is granted: the id of the session, or what is exported. -/
def Request.grant (env : Env) (a : Request) : Bytes :=
  if a.ins = 0x20 ∨ a.ins = 0x21 then [(a.rnd.u8s.find? (fun i => i ≠ 0)).getD 0]
  else if a.ins = 0x11 ∧ a.p1 = 2 then []
  else (a.exports env).getD []

/-- After this command the newest output needs a decision. -/
def NeedsDecision (S : SignSess) (a : Request) : Prop :=
  ∃ o older, (describe (S.log ++ [.cmd a.p1 a.data])).outputs = o :: older ∧ o.box.complete = true ∧
    ¬ Automatic (pathOf (S.start.data.drop 1)) older o.box

open scoped Classical in
/-- The reply to a command that meets all demands. -/
noncomputable def accepted (env : Env) (key : Bytes) (g : Ghost) (a : Request) : Reply :=
  if a.ins = 0x01 then .sw 0x9000 env.appVersion
  else if a.ins = 0x02 then .sw 0x9000 env.appName
  else if a.ins = 0x10 ∨ a.ins = 0x11 ∨ a.p1 = 0x01 then
    if ¬ a.IdDrawn then .hang
    else if a.AtOnce g.app then .sw 0x9000 (a.grant env)
    else .wait
  else if a.ins = 0x20 then
    .sw 0x9000 ((g.attest.map (fun S => S.answer env key a.p1 a.data)).getD [])
  else if a.p1 = 0x20 ∨ (0x16 ≤ a.p1 ∧ ∃ S ∈ g.sign, NeedsDecision S a) then .wait
  else .sw 0x9000 []

/-- The `n` lowest bytes of a number, highest first. -/
def bytesOf : Nat → Nat → Bytes
  | 0, _ => []
  | n + 1, v => bytesOf n (v / 256) ++ [UInt8.ofNat v]

open scoped Classical in
/-- The scalar that is used for a signature: the first usable one of a hundred. -/
noncomputable def nonce (env : Env) (rnd : Rnd) : Bytes :=
  (((List.range 100).map rnd.keys).find? (fun k => UsableScalar env k)).getD []

/-- The signature of a session, or the status word if the challenge is 0. -/
noncomputable def SignSess.signed (env : Env) (S : SignSess) : Reply :=
  let secret := (env.genPrivate (pathOf (S.start.data.drop 1))).getD []
  let k := nonce env S.start.rnd
  let c := (env.blake (commitBytes ((env.mulG secret).getD []) ((env.mulG k).getD []) ++
    txBytesSoFar env.keyOf (describe S.log))).take 24
  if be c = 0 then .sw 0xE017 []
  else .sw 0x9000 (c ++ bytesOf 32 ((be k + be c * be secret) % groupOrder))

/-- The reply to an approval. -/
noncomputable def granted (env : Env) (g : Ghost) : Reply :=
  match g.pending with
  | none => .wait
  | some a =>
    if a.ins = 0x21 ∧ a.p1 ≠ 0x01 then
      if a.p1 = 0x20 then (g.sign.map (fun S => S.signed env)).getD .wait else .sw 0x9000 []
    else .sw 0x9000 (a.grant env)

/-- The newest output is change with a path that cannot be shown. -/
def Unshowable (g : Ghost) : Prop :=
  ∃ a S o os p, g.pending = some a ∧ a.title = .confirmOutput ∧ g.sign = some S ∧
    (describe S.log).outputs = o :: os ∧ o.box.script = some (.change p) ∧ 70 ≤ pathNeed p

open scoped Classical in
/-- The reply to paging, when this page is reached: none, unless the page cannot be shown. -/
noncomputable def paged (g : Ghost) (k : Option Nat) : Reply :=
  if Unshowable g ∧ k = some 1 then .sw 0xE101 [] else .wait

/-- A token is minted by exactly 2^63. -/
def MintsHalf (g : Ghost) : Prop :=
  ∃ S id, g.sign = some S ∧ (describe S.log).tokOut id = (describe S.log).tokIn id + 2 ^ 63

/-- The reply to every event. -/
noncomputable def expected (env : Env) (key : Bytes) (tr : List Obs) : Event → Reply
  | .apdu cla ins p1 p2 data rnd =>
    match refusal (allDemands env key tr (question tr) cla ⟨ins, p1, p2, data, rnd⟩) with
    | some c => .sw c []
    | none => accepted env key (know tr) ⟨ins, p1, p2, data, rnd⟩
  | .left => paged (know tr) ((position tr).map (leftOf (know tr).pagesNow))
  | .right => paged (know tr) ((position tr).map (rightOf (know tr).pagesNow))
  | .both =>
    match choice tr with
    | .nothing => .wait
    | .reject => .sw 0x6985 []
    | .approve => granted env (know tr)

/-- What is seen, except for the page on display. -/
def unpaged (o : Obs) : Obs := { o with here := none }

/-- What is seen when these events happen one after the other (newest first). -/
noncomputable def foreseen (env : Env) (key : Bytes) : List Event → List Obs
  | [] => []
  | e :: es =>
    let tr := foreseen env key es
    ⟨question tr, none, e, expected env key tr e⟩ :: tr

end Ergo.Spec
