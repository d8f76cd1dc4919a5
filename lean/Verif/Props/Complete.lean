import Verif.Proof.Complete
import Verif.Proof.Demo
/-!
# C50: a signing session that fits can always be completed
-/
namespace Ergo
open Spec

/-- C50: from every reachable state in which nothing is asked, a start of signing whose data is as
documented can be approved on its first screen; this opens a session. -/
theorem C50_start {env : Env} (hwf : env.WF) {nanoS : Bool} {key : Bytes} {tr : List Obs} {d : Device}
    (h : Runs env nanoS key tr d) (ha : d.asks = none) (a : Request) (hi : a.ins = 0x21)
    (hp1 : a.p1 = 1) (hp2 : a.p2 = 1 ∨ a.p2 = 2) (hl : a.data.length ≤ 255) (hg : a.Good env)
    (hid : a.IdDrawn) (hsh : a.Showable) :
    ∃ id l d', Starting a id l ∧ Runs env nanoS key (l ++ tr) d' ∧
      (know (l ++ tr)).sign = some ⟨a, id, []⟩ ∧ Live (l ++ tr) ∧ d'.asks = none :=
  serve_start h hwf ha hi hp1 hp2 hl hg hid hsh

/-- C50: in an open session, commands that fit one after the other can all be completed, the user
approving each question about an output; the session then describes what the commands say. -/
theorem C50_session {env : Env} {nanoS : Bool} {key : Bytes} {tr : List Obs} {d : Device}
    (h : Runs env nanoS key tr d) {S : SignSess} (hS : (know tr).sign = some S) (hL : Live tr)
    (ha : d.asks = none) (cs : List SignCmd) (hf : FitsAll env key (describe S.log) cs) :
    ∃ new d' L, ServedAll S.id cs new ∧ Runs env nanoS key (new ++ tr) d' ∧
      (know (new ++ tr)).sign = some { S with log := S.log ++ L } ∧ Live (new ++ tr) ∧
      d'.asks = none ∧ (describe (S.log ++ L)).forget = ((describe S.log).after cs).forget :=
  serve_all cs h hS hL ha hf

/-- C50: from every reachable state in which nothing is asked, an approved start, commands that fit one
after the other and describe a whole transaction, and the approved confirmation give a Schnorr
response for the key of the path over the serialized transaction, with one of the random scalars of
the start; the only exception is that the first 24 bytes of the hash are zero. -/
theorem C50_signed {env : Env} (hwf : env.WF) {nanoS : Bool} {key : Bytes} {tr : List Obs} {d : Device}
    (h : Runs env nanoS key tr d) (ha : d.asks = none) (a : Request) (hi : a.ins = 0x21)
    (hp1 : a.p1 = 1) (hp2 : a.p2 = 1 ∨ a.p2 = 2) (hl : a.data.length ≤ 255) (hg : a.Good env)
    (hid : a.IdDrawn) (hsh : a.Showable) (cs : List SignCmd) (hf : FitsAll env key TxDesc.empty cs)
    (hw : Whole (TxDesc.empty.after cs)) (data : Bytes) (hl2 : data.length ≤ 255) (rnd : Rnd) :
    ∃ id l1 l2 l3 r d' secret j pk w, Starting a id l1 ∧ ServedAll id cs l2 ∧
      Approving .approveSigning (.apdu 0xE0 0x21 0x20 id data rnd) r l3 ∧
      Runs env nanoS key (l3 ++ l2 ++ l1 ++ tr) d' ∧ d'.asks = none ∧
      env.genPrivate a.path = some secret ∧ env.mulG secret = some pk ∧
      env.mulG (a.rnd.keys j) = some w ∧
      let c := (env.blake (commitBytes pk w ++ txBytesSoFar env.keyOf (TxDesc.empty.after cs))).take 24
      (be c ≠ 0 ∧ (∃ z, r = .sw 0x9000 (c ++ z) ∧ z.length = 32 ∧
        be z = (be (a.rnd.keys j) + be c * be secret) % groupOrder) ∨
      be c = 0 ∧ r = .sw 0xE017 []) :=
  serve_signed h hwf ha hi hp1 hp2 hl hg hid hsh hf hw hl2 rnd

/-- The commands of `demoTx`. -/
def demoCmds : List SignCmd :=
  [⟨0x10, [0, 1, 0, 0, 0, 0, 2], demoRnd⟩, ⟨0x12, demoFrame 1 1 0 100 [] [0, 0, 0, 0], demoRnd⟩,
   ⟨0x15, [0, 0, 0, 0, 0, 0, 0, 90, 0, 0, 0, 36, 0, 0, 0, 1, 0, 0, 0, 0, 0], demoRnd⟩,
   ⟨0x16, demoTree, demoRnd⟩,
   ⟨0x15, [0, 0, 0, 0, 0, 0, 0, 10, 0, 0, 0, 105, 0, 0, 0, 1, 0, 0, 0, 0, 0], demoRnd⟩,
   ⟨0x17, [], demoRnd⟩]

theorem noTokens {D : TxDesc} (h : D.inputs.all (·.tokens.isEmpty) = true) (id : Bytes) :
    D.tokIn id = 0 := by
  unfold TxDesc.tokIn
  rw [List.sum_eq_zero]
  intro x hx
  obtain ⟨i, hi, rfl⟩ := List.mem_map.1 hx
  have := List.all_eq_true.1 h i hi
  rw [List.isEmpty_iff] at this
  rw [this]
  rfl

/-- They fit one after the other and are whole. -/
theorem demoCmds_fit : FitsAll toyEnv [1] TxDesc.empty demoCmds ∧
    Whole (TxDesc.empty.after demoCmds) := by
  refine ⟨⟨by decide, by decide, ?_, ⟨by decide, by decide +kernel, ?_,
    ⟨by decide, by decide, ?_, ⟨by decide, by decide, ?_, ⟨by decide, by decide, ?_,
    ⟨by decide, by decide, ?_, trivial⟩⟩⟩⟩⟩⟩, ?_⟩
  · exact ⟨by decide +kernel, by decide +kernel, by decide +kernel, by decide +kernel, by decide +kernel⟩
  · refine ⟨by decide +kernel, by decide +kernel, by decide +kernel, ?_, by decide +kernel,
      ⟨by decide +kernel, fun id => ?_, by decide +kernel⟩, by decide +kernel, by decide +kernel,
      by decide +kernel, by decide +kernel, by decide +kernel⟩
    · unfold TagValid; decide +kernel
    · rw [noTokens (by decide +kernel)]; decide
  · exact ⟨by decide +kernel, ⟨by decide +kernel, by decide +kernel⟩, by decide +kernel,
      by decide +kernel, by decide +kernel, by decide +kernel, by decide +kernel, by decide +kernel⟩
  · exact ⟨by decide +kernel, _, _, rfl, by decide +kernel, by decide +kernel, .inl (by decide +kernel)⟩
  · exact ⟨by decide +kernel, ⟨by decide +kernel, by decide +kernel⟩, by decide +kernel,
      by decide +kernel, by decide +kernel, by decide +kernel, by decide +kernel, by decide +kernel⟩
  · refine ⟨by decide +kernel, _, _, rfl, rfl, by decide +kernel, ?_⟩
    unfold ValueFits
    decide +kernel
  · unfold Whole
    decide +kernel

/-- The hypotheses of C50 hold for the demonstration session from power-on. -/
example : let a : Request := ⟨0x21, 1, 1, 0 :: demoPath 0, demoRnd⟩
    a.Good toyEnv ∧ a.IdDrawn ∧ a.Showable ∧ FitsAll toyEnv [1] TxDesc.empty demoCmds ∧
    Whole (TxDesc.empty.after demoCmds) := by
  refine ⟨⟨by decide +kernel, by decide +kernel, ?_, .inl rfl, _, rfl, ?_, 0, by decide, ?_⟩, fun _ => ⟨7, by decide, by decide⟩,
    .inr (by decide +kernel), demoCmds_fit⟩
  · rw [← validate_address]; decide +kernel
  · refine ⟨by decide +kernel, by decide +kernel, by decide +kernel⟩
  · refine ⟨by decide +kernel, by decide +kernel, by decide +kernel⟩

end Ergo
