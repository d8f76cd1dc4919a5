import Verif.Proof.Chunks
import Verif.Props.Pages
import Verif.Props.Attest
/-!
# C29: chunking does not matter
-/
namespace Ergo
open Spec

/-- Give the pieces one after the other to an operation; `none` as soon as one is not accepted. -/
def feed {α : Type} (op : α → Bytes → Option α) : α → List Bytes → Option α
  | x, [] => some x
  | x, c :: cs => (op x c).bind (fun y => feed op y cs)

theorem feed_join {α : Type} {op : α → Bytes → Option α}
    (hj : ∀ x y z a b, op x a = some y → op y b = some z → op x (a ++ b) = some z) :
    ∀ (cs : List Bytes) (c : Bytes) (x z : α), feed op x (c :: cs) = some z →
      op x (c ++ cs.flatten) = some z := by
  intro cs
  induction cs with
  | nil =>
    intro c x z h
    simpa [feed] using h
  | cons b cs ih =>
    intro c x z h
    simp only [feed, Option.bind_eq_some_iff] at h
    obtain ⟨y, h1, w, h2, h3⟩ := h
    have := ih (c ++ b) x z (by
      simp only [feed, Option.bind_eq_some_iff]
      exact ⟨w, hj _ _ _ _ _ h1 h2, h3⟩)
    simpa using this

/-- The signing operation accepts the data and changes to this state. -/
def signAccepts (env : Env) (key : Bytes) (sub : UInt8) (p : P2pk) (data : Bytes) : Option P2pk :=
  match signOp env key p sub data with
  | .ok p => some p
  | _ => none

/-- C29 (one part of a transaction): pieces that are accepted one after the other have the effect of
their concatenation, on the hashed bytes, on all counters and on the completion, in every state. -/
theorem C29_sign_part {env : Env} {key : Bytes} {sub : UInt8} (hc : inPieces sub) {p p' : P2pk}
    {c : Bytes} {cs : List Bytes} (h : feed (signAccepts env key sub) p (c :: cs) = some p') :
    signAccepts env key sub p (c ++ cs.flatten) = some p' := by
  refine feed_join ?_ cs c p p' h
  intro x y z a b h1 h2
  unfold signAccepts at h1 h2 ⊢
  cases e1 : signOp env key x sub a with
  | ok q =>
    simp only [e1, Option.some.injEq] at h1
    subst h1
    cases e2 : signOp env key q sub b with
    | ok q' =>
      simp only [e2, Option.some.injEq] at h2
      subst h2
      rw [signOp_join (inPieces_iff hc) e1 e2]
    | err e => simp [e2] at h2
    | ub => simp [e2] at h2
  | err e => simp [e1] at h1
  | ub => simp [e1] at h1

/-- The attestation accepts the data, changes to this state and answers this. -/
def attestAccepts (env : Env) (key : Bytes) (sub : UInt8) (x : AttestCtx × Bytes) (data : Bytes) :
    Option (AttestCtx × Bytes) :=
  match attestOp env key x.1 sub data with
  | .ok y out => some (y, out)
  | _ => none

/-- C29 (one part of an attested box): pieces that are accepted one after the other have the effect of
their concatenation, and the last answer is the same. -/
theorem C29_attest_part {env : Env} {key : Bytes} {sub : UInt8} (hc : attestPieces sub)
    {x x' : AttestCtx × Bytes} {c : Bytes} {cs : List Bytes}
    (h : feed (attestAccepts env key sub) x (c :: cs) = some x') :
    attestAccepts env key sub x (c ++ cs.flatten) = some x' := by
  refine feed_join ?_ cs c x x' h
  intro x y z a b h1 h2
  unfold attestAccepts at h1 h2 ⊢
  cases e1 : attestOp env key x.1 sub a with
  | ok q o =>
    simp only [e1, Option.some.injEq] at h1
    subst h1
    simp only at h2
    cases e2 : attestOp env key q sub b with
    | ok q' o' =>
      simp only [e2, Option.some.injEq] at h2
      subst h2
      rw [attestOp_join (by simpa [attestPieces] using hc) e1 e2]
    | err e => simp [e2] at h2
    | ub => simp [e2] at h2
  | err e => simp [e1] at h1
  | ub => simp [e1] at h1

/-- C29 (signing sessions): two executions with the same start of a session and the same accepted data,
in whatever pieces, ask the same question (or none) and leave the device in the same state up to the
page on display; if no question is asked, everything that can happen afterwards is the same. -/
theorem C29_sign {env : Env} {nanoS : Bool} {key : Bytes} {tr1 tr2 : List Obs} {d1 d2 : Device}
    (h1 : Runs env nanoS key tr1 d1) (h2 : Runs env nanoS key tr2 d2) {S1 S2 : SignSess}
    (hS1 : (know tr1).sign = some S1) (hS2 : (know tr2).sign = some S2)
    (hc1 : d1.command = .signTransaction) (hc2 : d2.command = .signTransaction)
    (ha1 : d1.asks ≠ some .approveSigning) (ha2 : d2.asks ≠ some .approveSigning)
    (hst : S1.start = S2.start) (hid : S1.id = S2.id) (hj : joined S1.log = joined S2.log) :
    d1.asks = d2.asks ∧ d2 = { d1 with screen := d2.screen } ∧
      (d1.asks = none → ∀ es, d1.run env nanoS es = d2.run env nanoS es) := by
  obtain ⟨q1, q2⟩ := sign_same h1 h2 hS1 hS2 hc1 hc2 ha1 ha2 hst hid hj
  refine ⟨q1, q2, ?_⟩
  intro hn es
  have none_of : ∀ {tr : List Obs} {d : Device}, Runs env nanoS key tr d → d.asks = none →
      d.screen = none := by
    intro tr d h hn
    cases hs : d.screen with
    | none => rfl
    | some s =>
      have := h.inv.asks hs
      rw [hn] at this
      cases hcb : s.cb <;> rw [hcb] at this <;> simp [AsksFor] at this
  have e1 := none_of h1 hn
  have e2 := none_of h2 (q1 ▸ hn)
  have : d1 = d2 := by
    rw [q2, e2]
    obtain ⟨_, _, _, _, _, _⟩ := d1
    simp only at e1
    rw [e1]
  rw [this]

/-- C29 (attestation sessions): two executions with the same start of a session and the same accepted
data, in whatever pieces, behave in the same way from then on. -/
theorem C29_attest {env : Env} {nanoS : Bool} {key : Bytes} {tr1 tr2 : List Obs} {d1 d2 : Device}
    (h1 : Runs env nanoS key tr1 d1) (h2 : Runs env nanoS key tr2 d2) {S1 S2 : AttestSess}
    (hS1 : (know tr1).attest = some S1) (hS2 : (know tr2).attest = some S2)
    (hc1 : d1.command = .attestInput) (hc2 : d2.command = .attestInput)
    (hs1 : d1.screen = none) (hs2 : d2.screen = none) (hst : S1.start = S2.start)
    (hid : S1.id = S2.id) (happ : (know tr1).app = (know tr2).app)
    (hj : attestJoined S1.log = attestJoined S2.log) :
    ∀ es, d1.run env nanoS es = d2.run env nanoS es := by
  have facts : ∀ {tr : List Obs} {d : Device} {S : AttestSess}, Runs env nanoS key tr d →
      (know tr).attest = some S → d.command = .attestInput → d.screen = none →
      ∃ x x0, d.ctx = .attest x ∧ attestInit S.start.data (S.start.p2 = 2) 0 = .ok x0 ∧
        attestReplay env key { x0 with session := S.id, state := .approved }
          (attestJoined S.log) = some x ∧ d.connectedApp = (know tr).app ∧ d.sessionKey = key ∧
        d.busy = false := by
    intro tr d S h hS hc hs
    have hI := h.inv
    have hi := hI.idle hs
    unfold Idle at hi
    rw [hc] at hi
    obtain ⟨x, S', hx, hS', hb⟩ := hi
    rw [hS] at hS'
    cases hS'
    obtain ⟨x0, r1, r2⟩ := attest_replay h hs hx hS
    refine ⟨x, x0, hx, r1, ?_, hI.app, hI.key, by rw [hI.busy, hs]; rfl⟩
    rw [hb.id]; exact r2
  obtain ⟨x, x0, a1, a2, a3, a4, a5, a6⟩ := facts h1 hS1 hc1 hs1
  obtain ⟨y, y0, b1, b2, b3, b4, b5, b6⟩ := facts h2 hS2 hc2 hs2
  rw [hst, b2] at a2
  cases a2
  rw [hid, hj, b3] at a3
  cases a3
  have : d1 = d2 := by
    clear facts h1 h2
    obtain ⟨_, _, _, _, _, _⟩ := d1
    obtain ⟨_, _, _, _, _, _⟩ := d2
    simp_all
  intro es
  rw [this]

/-- A session whose output has a script of 300 bytes, three tokens and three bytes of registers, with
the token table, the tokens and the registers cut as given. -/
def demoPieces (table toks regs : List Bytes) : List Event :=
  [cmd 0x21 0x10 7 [0, 1, 0, 0, 2, 0, 2]] ++ table.map (cmd 0x21 0x11 7) ++
  [cmd 0x21 0x12 7 (demoFrame 1 1 0 100 [demoIdA ++ [0, 0, 0, 0, 0, 0, 0, 5]] [0, 0, 0, 0]),
   cmd 0x21 0x15 7 [0, 0, 0, 0, 0, 0, 0, 90, 0, 0, 1, 44, 0, 0, 0, 1, 2, 0, 0, 0, 3],
   cmd 0x21 0x16 7 (List.replicate 255 1), cmd 0x21 0x16 7 (List.replicate 45 2)] ++
  toks.map (cmd 0x21 0x19 7) ++ regs.map (cmd 0x21 0x1A 7)
/-- A token of an output. -/
def demoItem (i v : UInt8) : Bytes := [0, 0, 0, i, 0, 0, 0, 0, 0, 0, 0, v]
/-- Everything at once. -/
def demoWhole : List Event :=
  demoOpen ++ demoPieces [demoIdA ++ demoIdB] [demoItem 0 3 ++ demoItem 1 4] [[1, 2, 3]]
/-- In pieces. -/
def demoCut : List Event :=
  demoOpen ++ demoPieces [demoIdA, demoIdB] [demoItem 0 3, demoItem 1 4] [[1], [2], [3]]

/-- Both are accepted, with different logs that are equal when joined; both ask for the output, and
the same final screen and signature follow. -/
example : (know (seen demoWhole)).sign.map (fun S => S.log.length) = some 8 ∧
    (know (seen demoCut)).sign.map (fun S => S.log.length) = some 12 ∧
    (know (seen demoWhole)).sign.map (fun S => joined S.log) =
      (know (seen demoCut)).sign.map (fun S => joined S.log) ∧
    (know (seen demoWhole)).sign.map (fun S => (joined S.log).length) = some 7 ∧
    (after demoWhole).asks = some .confirmOutput ∧ (after demoCut).asks = some .confirmOutput ∧
    after demoWhole = after demoCut := by decide +kernel

example : inPieces 0x1A ∧ (∃ p p', feed (signAccepts toyEnv [1] 0x1A) p [[1], [2], [3]] = some p') := by
  refine ⟨rfl, ?_⟩
  have h : (match (after (demoOpen ++ demoPieces [demoIdA, demoIdB] [demoItem 0 3, demoItem 1 4] [])).ctx
      with | .sign x => (feed (signAccepts toyEnv [1] 0x1A) x.p [[1], [2], [3]]).isSome
           | _ => false) = true := by decide +kernel
  split at h
  · rename_i x _
    exact ⟨x.p, _, (Option.some_get h).symm⟩
  · cases h

/-- The attestation of `demoAttestTok` with tokens and registers sent at once. -/
def demoAttestWhole : List Event :=
  [cmd 0x20 0x01 1 (List.replicate 32 1 ++ [0, 2, 0, 0, 0, 0, 0, 0, 1, 9, 0, 0, 0, 36, 0, 0, 0, 1, 2,
    0, 0, 0, 3]), .left, .left, .both, cmd 0x20 0x02 7 demoTree,
   cmd 0x20 0x03 7 (List.replicate 32 6 ++ [0, 0, 0, 0, 0, 0, 0, 5] ++ List.replicate 32 7 ++
    [0, 0, 0, 0, 0, 0, 1, 0]), cmd 0x20 0x04 7 [1, 2, 3]]

example : (know (seen demoAttestTok)).attest.map (fun S => S.log.length) = some 5 ∧
    (know (seen demoAttestWhole)).attest.map (fun S => S.log.length) = some 3 ∧
    (know (seen demoAttestTok)).attest.map (fun S => attestJoined S.log) =
      (know (seen demoAttestWhole)).attest.map (fun S => attestJoined S.log) ∧
    after demoAttestTok = after demoAttestWhole ∧
    (after demoAttestTok).command = .attestInput := by decide +kernel

end Ergo
