import Verif.Proof.AttestComplete
import Verif.Props.Attest
/-!
# C52: exactly which attestation commands are accepted; C53: attestations can be completed
-/
namespace Ergo
open Spec

/-- C52: in an open attestation session, a command with the session's id is answered with success if
and only if it fits after what was described; the answer is then fully determined by the session.
Every other command is refused with an error status; nothing is shown and nothing hangs. -/
theorem C52_exact {env : Env} {nanoS : Bool} {key : Bytes} {tr : List Obs} {d : Device}
    (h : Runs env nanoS key tr d) {S : AttestSess} (hS : (know tr).attest = some S)
    (hL : LiveAttest tr) {sub : UInt8} (hsub : sub = 2 ∨ sub = 3 ∨ sub = 4 ∨ sub = 5)
    {data : Bytes} (hl : data.length ≤ 255) (rnd : Rnd) :
    let r := (d.step env nanoS (.apdu 0xE0 0x20 sub S.id data rnd)).2
    (AttestFits S.box sub data ↔ r = .sw 0x9000 (S.answer env key sub data)) ∧
    (¬ AttestFits S.box sub data ↔ IsError r) := by
  intro r
  rcases attest_reply h hS hL hl hsub rnd (r := r) rfl with ⟨h1, h2⟩ | ⟨h1, h2⟩
  · refine ⟨iff_of_true h1 h2, iff_of_false (not_not_intro h1) ?_⟩
    rintro ⟨e, he, h3⟩
    rw [h2] at h3
    injection h3 with h4
    exact he h4.symm
  · refine ⟨iff_of_false h1 ?_, iff_of_true h1 h2⟩
    intro h3
    obtain ⟨e, he, h2⟩ := h2
    rw [h3] at h2
    injection h2 with h4
    exact he h4.symm

/-- C52: while an attestation session is open, the user is not being asked anything. -/
theorem C52_idle {env : Env} {nanoS : Bool} {key : Bytes} {tr : List Obs} {d : Device}
    (h : Runs env nanoS key tr d) {S : AttestSess} (hS : (know tr).attest = some S)
    (hL : LiveAttest tr) : d.asks = none := by
  obtain ⟨_, _, hs, _⟩ := ready_attest h hS hL
  exact (here_none hs).1

/-- C53: from every reachable state in which nothing is asked, an attestation whose data is as
documented can be opened: at once if it carries the application token of the last approval, otherwise
by the user's approval. -/
theorem C53_start {env : Env} (hwf : env.WF) {nanoS : Bool} {key : Bytes} {tr : List Obs} {d : Device}
    (h : Runs env nanoS key tr d) (ha : d.asks = none) (a : Request) (hi : a.ins = 0x20)
    (hp1 : a.p1 = 1) (hp2 : a.p2 = 1 ∨ a.p2 = 2) (hl : a.data.length ≤ 255) (hg : a.Good env)
    (hid : a.IdDrawn) :
    ∃ id l d' asked, AttestStarting a (a.AtOnce (know tr).app) id l ∧
      Runs env nanoS key (l ++ tr) d' ∧
      (know (l ++ tr)).attest = some ⟨a, id, asked, (know tr).app, []⟩ ∧ LiveAttest (l ++ tr) ∧
      d'.asks = none :=
  attest_open h hwf ha hi hp1 hp2 hl hg hid

/-- C53: in an open attestation session, commands that fit one after the other are all served. -/
theorem C53_session {env : Env} {nanoS : Bool} {key : Bytes} {tr : List Obs} {d : Device}
    (h : Runs env nanoS key tr d) {S : AttestSess} (hS : (know tr).attest = some S)
    (hL : LiveAttest tr) (cs : List SignCmd) (hf : AttestFitsAll S.box cs) :
    ∃ new d', AttestServed env key S cs new ∧ Runs env nanoS key (new ++ tr) d' ∧
      (know (new ++ tr)).attest = some { S with log := S.log ++ cs.map (fun c => (c.sub, c.data)) } ∧
      LiveAttest (new ++ tr) ∧ d'.asks = none := by
  obtain ⟨new, d', h1, h2, h3, h4, h5, _⟩ := attest_serve cs h hS hL hf
  exact ⟨new, d', h1, h2, h3, h4, h5⟩

/-- C53: of a complete box all frames can be fetched, in order, each as described. -/
theorem C53_frames {env : Env} {nanoS : Bool} {key : Bytes} {tr : List Obs} {d : Device}
    (h : Runs env nanoS key tr d) {S : AttestSess} (hS : (know tr).attest = some S)
    (hL : LiveAttest tr) (hc : S.box.complete) (rnd : Rnd) :
    ∃ d', Runs env nanoS key (((List.range (framesFor S.box.nTokens)).map (fun j =>
      ⟨none, none, .apdu 0xE0 0x20 0x05 S.id [UInt8.ofNat j] rnd,
        .sw 0x9000 (S.frame env key j)⟩)).reverse ++ tr) d' ∧ d'.asks = none := by
  obtain ⟨_, hcmd, hs, _⟩ := ready_attest h hS hL
  exact attest_fetch h hS hL hc (C14_tokens h hs hS hcmd).2.1 rnd

/-- C53: from every reachable state in which nothing is asked, for every box described by a documented
start and fitting commands, the device gives all frames of exactly this box. -/
theorem C53_whole {env : Env} (hwf : env.WF) {nanoS : Bool} {key : Bytes} {tr : List Obs} {d : Device}
    (h : Runs env nanoS key tr d) (ha : d.asks = none) (a : Request) (hi : a.ins = 0x20)
    (hp1 : a.p1 = 1) (hp2 : a.p2 = 1 ∨ a.p2 = 2) (hl : a.data.length ≤ 255) (hg : a.Good env)
    (hid : a.IdDrawn) (cs : List SignCmd) (hf : AttestFitsAll (attestHeader a.data) cs)
    (hc : ((cs.map (fun c => (c.sub, c.data))).foldl attestStep (attestHeader a.data)).complete)
    (rnd : Rnd) :
    ∃ id asked l1 l2 d',
      let S0 : AttestSess := ⟨a, id, asked, (know tr).app, []⟩
      let S : AttestSess := ⟨a, id, asked, (know tr).app, cs.map (fun c => (c.sub, c.data))⟩
      AttestStarting a (a.AtOnce (know tr).app) id l1 ∧ AttestServed env key S0 cs l2 ∧
      Runs env nanoS key (((List.range (framesFor S.box.nTokens)).map (fun j =>
        ⟨none, none, .apdu 0xE0 0x20 0x05 id [UInt8.ofNat j] rnd,
          .sw 0x9000 (S.frame env key j)⟩)).reverse ++ (l2 ++ (l1 ++ tr))) d' ∧ d'.asks = none := by
  obtain ⟨id, l1, d1, asked, h1, h2, h3, h4, _⟩ := C53_start hwf h ha a hi hp1 hp2 hl hg hid
  obtain ⟨l2, d2, g1, g2, g3, g4, _⟩ := C53_session h2 h3 h4 cs hf
  obtain ⟨d3, f1, f2⟩ := C53_frames g2 g3 g4 (by simpa [AttestSess.box] using hc) rnd
  exact ⟨id, asked, l1, l2, d3, h1, g1, by simpa using f1, f2⟩

/-- The commands of `demoAttestTok`, and its start. -/
def demoAttestCmds : List SignCmd :=
  [⟨0x02, demoTree, demoRnd⟩,
   ⟨0x03, List.replicate 32 6 ++ [0, 0, 0, 0, 0, 0, 0, 5], demoRnd⟩,
   ⟨0x03, List.replicate 32 7 ++ [0, 0, 0, 0, 0, 0, 1, 0], demoRnd⟩,
   ⟨0x04, [1, 2], demoRnd⟩, ⟨0x04, [3], demoRnd⟩]

@[inherit_doc demoAttestCmds]
def demoAttestReq : Request :=
  ⟨0x20, 1, 1, List.replicate 32 1 ++ [0, 2, 0, 0, 0, 0, 0, 0, 1, 9, 0, 0, 0, 36, 0, 0, 0, 1, 2,
    0, 0, 0, 3], demoRnd⟩

/-- The hypotheses of `C53_whole` hold for the demonstration box. -/
example : demoAttestReq.Good toyEnv ∧ demoAttestReq.IdDrawn ∧ ¬ demoAttestReq.AtOnce 0 ∧
    AttestFitsAll (attestHeader demoAttestReq.data) demoAttestCmds ∧
    ((demoAttestCmds.map (fun c => (c.sub, c.data))).foldl attestStep
      (attestHeader demoAttestReq.data)).complete := by
  refine ⟨?_, fun _ => ⟨7, by decide, by decide⟩, ?_, ?_, by decide +kernel⟩
  · exact ⟨by decide +kernel, by decide +kernel, by decide +kernel, by decide +kernel⟩
  · rintro ⟨h, _⟩; exact absurd h (by decide +kernel)
  · refine ⟨by decide, ⟨by decide +kernel, by decide +kernel, by decide +kernel⟩,
      by decide, ⟨by decide +kernel, by decide +kernel, by decide +kernel, by decide +kernel, by decide +kernel⟩,
      by decide, ⟨by decide +kernel, by decide +kernel, by decide +kernel, by decide +kernel, by decide +kernel⟩,
      by decide, ⟨by decide +kernel, by decide +kernel, by decide +kernel, by decide +kernel⟩,
      by decide, ⟨by decide +kernel, by decide +kernel, by decide +kernel, by decide +kernel⟩, trivial⟩

/-- Accepted and refused commands of the demonstration session: a token id twice, a register too long,
a frame that does not exist, a frame too early. -/
example : let d := after (demoAttestTok.take 6)
    (know (seen (demoAttestTok.take 6))).attest.isSome = true ∧
    (d.step toyEnv false (cmd 0x20 0x03 7 (List.replicate 32 7 ++ [0, 0, 0, 0, 0, 0, 1, 0]))).2 =
      .sw 0x9000 [] ∧
    (d.step toyEnv false (cmd 0x20 0x03 7 (List.replicate 32 6 ++ [0, 0, 0, 0, 0, 0, 1, 0]))).2 =
      .sw 0xE001 [] ∧
    (d.step toyEnv false (cmd 0x20 0x05 7 [0])).2 = .sw 0xB0FF [] ∧
    ((after (demoAttestTok.take 8)).step toyEnv false (cmd 0x20 0x04 7 [3])).2 = .sw 0x9000 [1] ∧
    ((after demoAttestTok).step toyEnv false (cmd 0x20 0x05 7 [1])).2 = .sw 0xE007 [] := by
  decide +kernel

end Ergo
