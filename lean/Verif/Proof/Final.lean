import Verif.Proof.Entries
import Verif.Props.Sign
/-!
# What is known when a signature is released
-/
namespace Ergo
open Spec

/-- At the end the numbers are as declared, and what was hashed since the start of the session is the
transaction described so far. -/
theorem PRel.final {env : Env} {h0 : Bytes} {p : P2pk} {D : TxDesc} (h : PRel env h0 p D)
    (hf : p.state = .finalized) :
    p.hash = h0 ++ txBytesSoFar env.keyOf D ∧ D.inputs.length = D.nIn ∧
      (∀ i ∈ D.inputs, i.complete) ∧ D.dataInputs.length = D.nData ∧ D.table.length = D.nTok ∧
      D.outputs.countP (·.box.complete) = D.nOut ∧
      (∃ o os, D.outputs = o :: os ∧ o.box.complete) ∧ ∃ t, TxSim env h0 .txFinished p.hash p.amounts t D
      := by
  unfold PRel at h
  rw [hf] at h
  obtain ⟨t, hT⟩ := h
  obtain ⟨_, hst⟩ := hT.state
  have hph := hT.full.phase
  unfold FullPhase at hph
  rw [hst] at hph
  obtain ⟨h1, ⟨g1, g2, g3, g4, g5, g6⟩, o, os, ho, hc⟩ := hph
  rw [ho] at g6
  obtain ⟨b, _, hB⟩ := g6
  refine ⟨?_, g3, g2, g4, g1, by rw [h1] at g5; simpa using g5, ⟨o, os, ho, hc⟩, t, hT⟩
  have := hB.hash
  simp only at this
  rw [this, preBytes, txBytesSoFar, ho]
  simp [List.flatMap_append, List.append_assoc]

/-- The state of the session when a signature is released. -/
structure Released (env : Env) (tr : List Obs) (d : Device) (out : Bytes) (x : SignCtx) (S : SignSess)
    (network : UInt8) (path : List UInt32) (secret k pk w : Bytes) : Prop where
  ctx : d.ctx = .sign x
  sign : (know tr).sign = some S
  approved : x.approved = true
  path_eq : path = pathOf (S.start.data.drop 1)
  net : S.start.data.headD 0 = network
  xpath : x.p.path = path
  xnet : x.p.network = network
  priv : env.genPrivate path = some secret
  draw : ∃ j, k = S.start.rnd.keys j
  pub : env.mulG secret = some pk
  com : env.mulG k = some w
  init : ∃ t, schnorrInit env secret S.start.rnd.keys = some (t, k) ∧ t = commitBytes pk w
  hash : x.p.hash = commitBytes pk w ++ txBytesSoFar env.keyOf (describe S.log)
  fin : schnorrFinish env x.p.hash secret k = some out
  state : x.p.state = .finalized
  rel : PRel env (commitBytes pk w) x.p (describe S.log)
  shown : AllShown path (describe S.log).outputs

theorem released {env : Env} (hwf : env.WF) (hv : env.appVersion.length ≠ 56)
    (hn : env.appName.length ≠ 56) {nanoS : Bool} {key : Bytes} {tr : List Obs} {d : Device}
    (h : Runs env nanoS key tr d) {e : Event} {out : Bytes}
    (hr : (d.step env nanoS e).2 = .sw 0x9000 out) (hl : out.length = 56) :
    ∃ x S network path secret k pk w, Released env tr d out x S network path secret k pk w := by
  obtain ⟨he, h7, h8, x, S, hx, hS, hB, hf, hsend, _⟩ := signature_of hwf hv hn h hr hl
  have hrel := sign_rel h hx hB.approved hS
  obtain ⟨network, path, token, p0, i1, i2, i3, i4, i5, i6, i7, _⟩ := hrel
  have hw : ¬ AsksOutput d := by
    rintro ⟨s, hs, hc⟩
    have hA := h.inv.asks hs
    rw [hc, h8] at hA
    simp [AsksFor] at hA
  obtain ⟨g1, _, secret, h0, k, j1, j2, rfl⟩ := p2pkInit_ok i2
  simp only at i5 i6
  obtain ⟨j0, j3, j4⟩ := parseSignInit_some i1
  obtain ⟨j, pk, w, e1, e2, e3, e4, _, _⟩ := schnorrInitLoop_some env secret _ _ _ _ _ j2
  have e4' : h0 = commitBytes pk w := by
    rw [e4]; rfl
  subst e4'
  refine ⟨x, S, network, path, secret, k, pk, w, hx, hS, hB.approved, j3.symm, ?_, i3, i4, j1, ⟨j, e1⟩, e2, e3,
    ⟨_, j2, rfl⟩, (i6.final hf).1, ?_, hf, i6, i7 hw⟩
  · exact j0
  · unfold P2pk.sendResponse at hsend
    rw [if_neg (by simp [hf]), i3, j1] at hsend
    simp only at hsend
    split at hsend
    · rename_i sig hsig
      simp only [Except.ok.injEq] at hsend
      subst hsend
      rw [i5] at hsig
      exact hsig
    · cases hsend

end Ergo
