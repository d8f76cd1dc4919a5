import Verif.Proof.ExactTx
import Verif.Props.Session
import Verif.Props.Limits
/-!
# C77: the limits on transactions are exact

C55 says that every transaction within the limits can be signed; here: nothing else is signed.
-/
namespace Ergo
open Spec

/-- C77: when a signature is released and every announced output was sent in full, then every
transaction that the commands of the session say, with attested boxes as inputs, is within the limits,
and the signature is over its bytes. -/
theorem C77_within {env : Env} (hwf : env.WF) (hv : env.appVersion.length ≠ 56)
    (hn : env.appName.length ≠ 56) {nanoS : Bool} {key : Bytes} {tr : List Obs} {d : Device}
    (h : Runs env nanoS key tr d) (e : Event) (out : Bytes)
    (hr : (d.step env nanoS e).2 = .sw 0x9000 out) (hl : out.length = 56) :
    ∃ S secret chain j pk w, (know tr).sign = some S ∧
      env.derive (pathOf (S.start.data.drop 1)) = some (secret, chain) ∧
      env.mulG secret = some pk ∧ env.mulG (S.start.rnd.keys j) = some w ∧
      ((∀ o ∈ (describe S.log).outputs, o.box.complete) → ∀ t : WalletTx,
        (describe S.log).Says env t → (∀ s ∈ t.inputs, ∃ A, Attested tr A ∧ A.Of s.coin) →
        t.Within env ∧
          out.take 24 = (env.blake (commitBytes pk w ++ t.bytes env)).take 24) := by
  obtain ⟨S, secret, chain, j, pk, w, D, h1, rfl, h3, h4, h5, h6⟩ := C01_partial hwf hv hn h e out hr hl
  refine ⟨S, secret, chain, j, pk, w, h1, h3, h4, h5, fun hall t ht hco => ?_⟩
  obtain ⟨hc, hh⟩ := h6 hall
  have hne : S.log ≠ [] := by
    obtain ⟨x, S', _, _, _, _, _, _, R⟩ := released hwf hv hn h hr hl
    have hS' : S' = S := by
      have := R.sign
      rw [h1] at this
      exact (Option.some.inj this).symm
    obtain ⟨_, _, _, _, _, _, ⟨o, os, ho, _⟩, _⟩ := R.rel.final R.state
    rw [hS'] at ho
    intro e
    rw [e] at ho
    simp [describe, TxDesc.empty] at ho
  have hlim : Limits (describe S.log) := C31_session h h1 (l' := []) (by simp) hne
  have hok : DescOk env (describe S.log) := log_ok h h1 S.log [] (by simp)
  refine ⟨within_of_says hwf hok hlim hc ht fun s hs => ?_, by rw [hh, says_bytes hc ht]⟩
  obtain ⟨A, hA, hof⟩ := hco s hs
  obtain ⟨c, hw, hof', _⟩ := coin_of_attested h hA
  have : c = s.coin := by
    have e1 := hof.txId.symm.trans hof'.txId
    have e2 := hof.index.symm.trans hof'.index
    have e3 := hof.box.symm.trans hof'.box
    rcases c with ⟨a1, a2, a3, a4, a5, a6, a7⟩
    rcases hs : s.coin with ⟨b1, b2, b3, b4, b5, b6, b7⟩
    rw [hs] at e1 e2 e3
    simp only [BoxDesc.mk.injEq, Option.some.injEq, Script.raw.injEq] at e3
    obtain ⟨k1, _, k3, _, _, k6, k7, k8⟩ := e3
    dsimp only at e1 e2
    subst e1 e2 k1 k3 k6 k7 k8
    rfl
  rw [← this]; exact hw

/-- C77: and if the host has not forged a tag, and different attested boxes have different ids, there is
such a transaction: what is signed is a transaction within the limits of C55 whose inputs are attested
boxes. -/
theorem C77_exact {env : Env} (hwf : env.WF) (hv : env.appVersion.length ≠ 56)
    (hn : env.appName.length ≠ 56) {nanoS : Bool} {key : Bytes} {tr : List Obs} {d : Device}
    (h : Runs env nanoS key tr d) (hun : OwnFrames tr)
    (hone : ∀ A B, Attested tr A → Attested tr B → A.boxId env = B.boxId env →
      A.box.tokens = B.box.tokens) (e : Event) (out : Bytes)
    (hr : (d.step env nanoS e).2 = .sw 0x9000 out) (hl : out.length = 56) :
    ∃ S secret chain j pk w, (know tr).sign = some S ∧
      env.derive (pathOf (S.start.data.drop 1)) = some (secret, chain) ∧
      env.mulG secret = some pk ∧ env.mulG (S.start.rnd.keys j) = some w ∧
      ((∀ o ∈ (describe S.log).outputs, o.box.complete) → ∃ t : WalletTx,
        (describe S.log).Says env t ∧ (∀ s ∈ t.inputs, ∃ A, Attested tr A ∧ A.Of s.coin) ∧
        t.Within env ∧
          out.take 24 = (env.blake (commitBytes pk w ++ t.bytes env)).take 24) := by
  obtain ⟨S, secret, chain, j, pk, w, D, h1, rfl, h3, h4, h5, h6⟩ := C01_partial hwf hv hn h e out hr hl
  obtain ⟨S2, s2, c2, j2, pk2, w2, g1, g2, g3, g4, g5⟩ := C77_within hwf hv hn h e out hr hl
  refine ⟨S2, s2, c2, j2, pk2, w2, g1, g2, g3, g4, fun hall => ?_⟩
  obtain rfl : S2 = S := by rw [h1] at g1; exact (Option.some.inj g1).symm
  obtain ⟨hc, _⟩ := h6 hall
  obtain ⟨t, ht, hco⟩ := says_exists (env := env) hc (P := fun c => ∃ A, Attested tr A ∧ A.Of c) (by
    intro i hi
    obtain ⟨A, hA, e1, e2, e3⟩ := C09_whole hwf h hun h1 hone i hi (hc.inputsDone i hi)
    obtain ⟨c, _, hof, hid⟩ := coin_of_attested h hA
    refine ⟨c, ⟨A, hA, hof⟩, e1.trans hid.symm, ?_, ?_⟩
    · rw [e2, hof.box]
    · rw [e3, hof.box])
  obtain ⟨w1, w2⟩ := g5 hall t ht hco
  exact ⟨t, ht, hco, w1, w2⟩

/-! ## An example -/

/-- Attest a box with two tokens, then spend it: a payment with both tokens, where one of them has a
second entry after an entry with amount zero, and a fee. -/
def demoSpend : List Event :=
  demoAttestTok ++ [cmd 0x20 0x05 7 [0]] ++ demoOpen ++
    [cmd 0x21 0x10 7 [0, 1, 0, 0, 2, 0, 2], cmd 0x21 0x11 7 (List.replicate 32 6 ++ List.replicate 32 7),
     cmd 0x21 0x12 7 (demoFrameOut ++ [0, 0, 0, 0]),
     cmd 0x21 0x15 7 [0, 0, 0, 0, 0, 0, 0, 255, 0, 0, 0, 36, 0, 0, 0, 1, 3, 0, 0, 0, 0],
     cmd 0x21 0x16 7 demoTree,
     cmd 0x21 0x19 7 [0, 0, 0, 0, 0, 0, 0, 0, 0, 0, 0, 0, 0, 0, 0, 1, 0, 0, 0, 0, 0, 0, 1, 0,
       0, 0, 0, 0, 0, 0, 0, 0, 0, 0, 0, 5], .left, .left, .both,
     cmd 0x21 0x15 7 [0, 0, 0, 0, 0, 0, 0, 10, 0, 0, 0, 105, 0, 0, 0, 1, 0, 0, 0, 0, 0],
     cmd 0x21 0x17 7 [], cmd 0x21 0x20 7 [], .left, .left]

/-- The attestation sessions of a history. -/
def attestations (tr : List Obs) : List AttestSess := tr.tails.filterMap (fun t => (know t).attest)

theorem attestations_mem {tr : List Obs} {A : AttestSess} (h : Attested tr A) : A ∈ attestations tr := by
  obtain ⟨⟨tr2, tr1, rfl, h1⟩, _⟩ := h
  exact List.mem_filterMap.2 ⟨tr1, (List.mem_tails _ _).2 (List.suffix_append _ _), h1⟩

set_option maxRecDepth 100000 in
/-- The hypotheses hold for it, and the conclusion is about a transaction with tokens. -/
example : Runs toyEnv false [1] (seen demoSpend) (after demoSpend) ∧ Unforged toyEnv [1] (seen demoSpend) ∧
    (∀ A B, Attested (seen demoSpend) A → Attested (seen demoSpend) B →
      A.boxId toyEnv = B.boxId toyEnv → A.box.tokens = B.box.tokens) ∧
    isSig ((after demoSpend).step toyEnv false .both).2 = true ∧
    (know (seen demoSpend)).sign.map (fun S => (describe S.log).inputs.map (fun i =>
      (i.value, i.tokens.map (·.2)))) = some [(265, [5, 256])] ∧
    (know (seen demoSpend)).sign.map (fun S => (describe S.log).outputs.map (fun o =>
      (o.box.complete, o.box.value, o.box.tokens))) =
      some [(true, 10, []), (true, 255, [(0, 0), (1, 256), (0, 5)])] := by
  refine ⟨runs_boot _ (by decide +kernel), unforgedB_sound (by decide +kernel), ?_, by decide +kernel,
    by decide +kernel, by decide +kernel⟩
  intro A B hA hB _
  have key : ∀ A ∈ attestations (seen demoSpend), A.box.complete = true →
      A.box.tokens.length = A.box.nTokens →
      A.box.tokens = [(List.replicate 32 6, 5), (List.replicate 32 7, 256)] := by decide +kernel
  rw [key A (attestations_mem hA) hA.2.1 hA.2.2, key B (attestations_mem hB) hB.2.1 hB.2.2]

end Ergo
