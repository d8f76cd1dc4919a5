import Verif.Proof.Replay
import Verif.Proof.AcceptDev
import Verif.Proof.AttestFits
import Verif.Props.Wallet
/-!
# A session is what was accepted in it, and nothing else (C70)
-/
namespace Ergo
open Spec

variable {env : Env} {nanoS : Bool} {key : Bytes}

/-- C70, signing: if a signing session goes on and nothing is asked, the device is the one that is
reached from power-on by the session's accepted commands and approvals alone.  Whatever else happened
since power-on (other sessions, refused commands, button presses, commands sent while the user was
being asked) has left no trace. -/
theorem C70_sign {tr : List Obs} {d : Device} (h : Runs env nanoS key tr d) {S : SignSess}
    (hS : (know tr).sign = some S) (hL : Live tr) (hn : d.asks = none) :
    Leads env nanoS (.boot key) (replaySign S) d := by
  have hc := h.canon
  have hk := (ready_sign h hS hL hn).2.1
  have hs := asks_none h.inv hn
  simp only [Canon, hs, hk] at hc
  obtain ⟨S', h1, h2⟩ := hc
  rw [hS] at h1
  cases h1
  exact h2

/-- C70, attestation: the same; the application token of the last approval before the session decides
whether the user is asked, so the shortest execution starts with that token. -/
theorem C70_attest {tr : List Obs} {d : Device} (h : Runs env nanoS key tr d) {S : AttestSess}
    (hS : (know tr).attest = some S) (hL : LiveAttest tr) :
    Leads env nanoS (powerOn key S.app) (replayAttest S) d := by
  have hc := h.canon
  obtain ⟨-, hk, hs, -⟩ := ready_attest h hS hL
  simp only [Canon, hs, hk] at hc
  obtain ⟨S', h1, h2⟩ := hc
  rw [hS] at h1
  cases h1
  exact h2

/-- C70, while an output is being confirmed: the device differs from the one reached by the accepted
commands and approvals alone in the page on display only. -/
theorem C70_asked {tr : List Obs} {d : Device} (h : Runs env nanoS key tr d)
    (hq : d.asks = some .confirmOutput) :
    ∃ S d0, (know tr).sign = some S ∧ Leads env nanoS (.boot key) (replaySign S) d0 ∧
      d0.asks = some .confirmOutput ∧ d = { d0 with screen := d.screen } := by
  have hc := h.canon
  cases hs : d.screen with
  | none => simp [Device.asks, hs] at hq
  | some s =>
    have hA := h.inv.asks hs
    rw [hq] at hA
    cases hcb : s.cb <;> simp [hcb, AsksFor] at hA
    simp only [Canon, hs, hcb] at hc
    obtain ⟨S, f0, h1, h2, h3⟩ := hc
    refine ⟨S, _, h1, h3, rfl, ?_⟩
    rw [← hs]

/-- C70, signature: a released signature is the last answer of the execution that consists of the
session's accepted commands and approvals, the confirmation command and its approval. -/
theorem C70_signature {tr : List Obs} {d : Device} (h : Runs env nanoS key tr d)
    (hq : d.asks = some .approveSigning) {out : Bytes} (hr : (d.step env nanoS .both).2 = .sw 0x9000 out) :
    ∃ S, (know tr).sign = some S ∧
      ((Device.boot key).run env nanoS (replayConfirm S ++ toApprove)).2.getLast? = some (.sw 0x9000 out) := by
  have hc := h.canon
  cases hs : d.screen with
  | none => simp [Device.asks, hs] at hq
  | some s =>
    have hA := h.inv.asks hs
    rw [hq] at hA
    cases hcb : s.cb <;> simp [hcb, AsksFor] at hA
    simp only [Canon, hs, hcb] at hc
    obtain ⟨S, f0, h1, h2, h3, -⟩ := hc
    refine ⟨S, h1, ?_⟩
    obtain ⟨f, -, h4⟩ := toApprove_run (env := env) (nanoS := nanoS)
      (d := { d with screen := some ⟨f0, .signTx⟩ }) (.inr h2) rfl
    rw [run_append, h3, h4]
    simp only [Device.step, hs, Device.both] at hr
    have hact : ∀ (scr : Option Screen), (({ d with screen := scr } : Device).act env .signTx true).2 =
        (d.act env .signTx true).2 := by
      intro scr
      cases hx : d.ctx <;> simp only [Device.act, hx]
      simp only [Device.actSignTx, if_true]
      split <;> rfl
    rw [hcb] at hr
    have hr : (d.act env .signTx true).2 = .sw 0x9000 out := by
      split at hr
      · exact hr
      · exfalso
        cases hx : d.ctx <;> simp [Device.act, hx, Device.actSignTx, status, Sw.deny] at hr
      · exact hr
      · simp at hr
    simp [hact, hr]

/-- C70, two executions: with the same accepted commands and approvals in the session, everything from
here on is the same, whatever happened before. -/
theorem C70_same {tr tr' : List Obs} {d d' : Device} (h : Runs env nanoS key tr d)
    (h' : Runs env nanoS key tr' d') {S : SignSess} (hS : (know tr).sign = some S)
    (hS' : (know tr').sign = some S) (hL : Live tr) (hL' : Live tr') (hn : d.asks = none)
    (hn' : d'.asks = none) (es : List Event) : d.run env nanoS es = d'.run env nanoS es := by
  rw [← (C70_sign h hS hL hn).1, ← (C70_sign h' hS' hL' hn').1]

/-- The same for attestation. -/
theorem C70_sameAttest {tr tr' : List Obs} {d d' : Device} (h : Runs env nanoS key tr d)
    (h' : Runs env nanoS key tr' d') {S : AttestSess} (hS : (know tr).attest = some S)
    (hS' : (know tr').attest = some S) (hL : LiveAttest tr) (hL' : LiveAttest tr') (es : List Event) :
    d.run env nanoS es = d'.run env nanoS es := by
  rw [← (C70_attest h hS hL).1, ← (C70_attest h' hS' hL').1]

/-! ## A session with detours -/

/-- Before the session: name, an attestation, a signing session that is rejected, one that is opened
and given up. -/
def demoBefore : List Event :=
  [cmd 0x02 0 0 []] ++ demoAttest ++ [cmd 0x21 0x01 1 (0 :: demoPath 3), .left, .both] ++
    [cmd 0x21 0x01 1 (0 :: demoPath 1), .both, cmd 0x21 0x10 7 [0, 9, 0, 0, 0, 0, 2]]

/-- The demonstration session up to the question about its first output, with detours: pages turned back
and forth, commands while the user is asked, an unknown instruction, a wrong class. -/
def demoDetours : List Event :=
  [cmd 0x21 0x01 1 (0 :: demoPath 0), .right, cmd 0x21 0x10 7 [], .left, .both, .both, .right,
   cmd 0x21 0x10 7 [0, 1, 0, 0, 0, 0, 2], cmd 0x77 0 0 [], cmd 0x01 0 0 [],
   cmd 0x21 0x12 7 (demoFrame 1 1 0 100 [] [0, 0, 0, 0]),
   .apdu 0xE1 0x21 0x15 7 [] emptyRnd,
   .apdu 0xE0 0x21 0x15 7 [0, 0, 0, 0, 0, 0, 0, 90, 0, 0, 0, 36, 0, 0, 0, 1, 0, 0, 0, 0, 0] emptyRnd,
   cmd 0x21 0x16 7 demoTree, .right, .right, .both, .left, cmd 0x10 1 0 demoPath3]

/-- The same without detours. -/
def demoStraight : List Event := demoOpen ++ demoTx.take 4

/-- The session of both. -/
def demoSess : SignSess := ⟨⟨0x21, 0x01, 1, 0 :: demoPath 0, demoRnd⟩, 7,
  [.cmd 0x10 [0, 1, 0, 0, 0, 0, 2], .cmd 0x12 (demoFrame 1 1 0 100 [] [0, 0, 0, 0]),
   .cmd 0x15 [0, 0, 0, 0, 0, 0, 0, 90, 0, 0, 0, 36, 0, 0, 0, 1, 0, 0, 0, 0, 0], .cmd 0x16 demoTree,
   .approve]⟩

set_option maxRecDepth 20000 in
/-- The session with detours satisfies the hypotheses of `C70_sign` and `C70_same`; the session is the
one without detours. -/
example : let es := demoBefore ++ demoDetours ++ [.left, .left, .left, .both]
    let es' := demoStraight ++ [.left, .left, .both]
    Runs toyEnv false [1] (seen es) (after es) ∧ Runs toyEnv false [1] (seen es') (after es') ∧
    (seen es).length = 36 ∧ (seen es').length = 9 ∧
    (know (seen es)).sign = some demoSess ∧ (know (seen es')).sign = some demoSess ∧
    Live (seen es) ∧ Live (seen es') ∧ (after es).asks = none ∧ (after es').asks = none := by
  intro es es'
  refine ⟨runs_boot _ (by decide +kernel), runs_boot _ (by decide +kernel), by decide +kernel,
    by decide +kernel, ?_, ?_, (live_of_no (by decide +kernel)).1, (live_of_no (by decide +kernel)).1,
    by decide +kernel, by decide +kernel⟩
  · rfl
  · rfl

/-- The hypotheses of `C70_asked`: the question about the first output, not on its first page. -/
example : let es := demoBefore ++ demoDetours
    Runs toyEnv false [1] (seen es) (after es) ∧ (after es).asks = some .confirmOutput ∧
    (after es).here = some .dyn := by
  intro es
  exact ⟨runs_boot _ (by decide +kernel), by decide +kernel, by decide +kernel⟩

/-- The hypotheses of `C70_signature`: after detours, approval gives a signature. -/
example : let es := demoBefore ++ demoOpen ++ demoTx ++ [cmd 0x21 0x20 7 [], .right, .left, .left, .left]
    Runs toyEnv false [1] (seen es) (after es) ∧ (after es).asks = some .approveSigning ∧
    (match ((after es).step toyEnv false .both).2 with | .sw c out => (c, out.length) | _ => (0, 0)) =
      (0x9000, 56) := by
  intro es
  exact ⟨runs_boot _ (by decide +kernel), by decide +kernel, by decide +kernel⟩

/-- The hypotheses of `C70_attest` and `C70_sameAttest`: an attestation that is approved, and one for the
same application that is not asked about. -/
example : let es := [cmd 0x02 0 0 []] ++ demoAttest
    let es' := es ++ [cmd 0x20 0x01 2 (List.replicate 32 1 ++ [0, 2, 0, 0, 0, 0, 0, 0, 0, 9, 0, 0, 0, 36, 0,
      0, 0, 1, 0, 0, 0, 0, 0, 0, 0, 0, 5]), cmd 0x20 0x02 7 demoTree]
    Runs toyEnv false [1] (seen es) (after es) ∧ Runs toyEnv false [1] (seen es') (after es') ∧
    (know (seen es)).attest.map (fun S => (S.asked, S.app, S.log.length)) = some (true, 0, 2) ∧
    (know (seen es')).attest.map (fun S => (S.asked, S.app, S.log.length)) = some (false, 5, 1) ∧
    LiveAttest (seen es) ∧ LiveAttest (seen es') := by
  intro es es'
  exact ⟨runs_boot _ (by decide +kernel), runs_boot _ (by decide +kernel), by decide +kernel,
    by decide +kernel, (live_of_no (by decide +kernel)).2, (live_of_no (by decide +kernel)).2⟩

end Ergo
