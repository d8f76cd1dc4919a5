import Verif.Proof.P2pkSim
import Verif.Proof.Session
/-!
# Signing sessions: no undefined behaviour, approvals, induction over the session
-/
namespace Ergo
open Spec

variable {env : Env} {h0 : Bytes} {p p' : P2pk} {D : TxDesc} {data : Bytes}

/-! ## No undefined behaviour in the commands -/

theorem fullInit_noub (ni nd no : UInt16) (nt : UInt8) (table : List Bytes) (h : Bytes) :
    (fullInit ni nd no nt table h).2.2 ≠ .ub := by
  unfold fullInit
  split
  · simp
  split
  · simp
  simp only
  split
  · simp
  · split <;> simp

theorem opStart_noub (p : P2pk) (data : Bytes) : opStart p data ≠ .ub := by
  unfold opStart
  split
  · simp
  rename_i ni nd nt no _
  unfold P2pk.startTx
  split
  · simp
  have := fullInit_noub ni nd no nt p.amounts.table p.hash
  split
  · simp
  · rename_i he; rw [he] at this; simp at this
  · simp

theorem withTx_noub' (hR : PRel env h0 p D) (h1 : p.state ≠ .initialized)
    (h2 : p.state ≠ .finalized) {f : FullSt → FullSt × Res FullErr}
    (hf : ∀ x, FullRel env.keyOf h0 x D → (f x).2 ≠ .ub) : p.withTx f ≠ .ub := by
  obtain ⟨t, hu, hT⟩ := hR.tx h1 h2
  exact withTx_noub hu (hf _ hT.full)

theorem addInputTokens_noub' (hR : PRel env h0 p D) (b : Bytes) (i : UInt8) (ts : Bytes) :
    p.addInputTokens b i ts ≠ .ub := by
  unfold P2pk.addInputTokens
  split
  · simp
  rename_i hst
  simp only [ne_eq, Decidable.not_not] at hst
  exact withTx_noub' hR (by rw [hst]; simp) (by rw [hst]; simp)
    (fun x hx => addInputTokens_noub hx _ _ _)

theorem addInput_noub' (hR : PRel env h0 p D) (b : Bytes) (v : UInt64) (n : UInt8) (e : UInt32) :
    p.addInput b v n e ≠ .ub := by
  unfold P2pk.addInput
  split
  · simp
  rename_i hst
  have := withTx_noub' hR (f := fun x => x.addInput b n e)
    (by intro he; rw [he] at hst; simp at hst) (by intro he; rw [he] at hst; simp at hst)
    (fun x hx => addInput_noub hx _ _ _)
  split
  · split <;> simp
  · exact this

theorem opFrame_noub (hR : PRel env h0 p D) (key data : Bytes) : opFrame env key p data ≠ .ub := by
  unfold opFrame
  simp only
  split
  · simp
  split
  · simp
  split
  · simp
  rename_i f hf
  split
  · exact addInputTokens_noub' hR _ _ _
  · have := addInput_noub' hR f.boxId f.value f.count
    split
    · rename_i q hq
      exact addInputTokens_noub' (addInput_rel hR hq) _ _ _
    · apply this

theorem opOutput_noub (hR : PRel env h0 p D) (data : Bytes) : opOutput p data ≠ .ub := by
  unfold opOutput
  split
  · simp
  rename_i v ts ht nt rg hpar
  unfold P2pk.addOutput
  split
  · simp
  rename_i hst
  have h1 : p.state ≠ .initialized := by intro he; rw [he] at hst; simp at hst
  have h2 : p.state ≠ .finalized := by intro he; rw [he] at hst; simp at hst
  have := withTx_noub' hR (f := fun x => x.addBox v ts ht nt rg) h1 h2
    (fun x hx => addBox_noub x _ _ _ _ _)
  split
  · rename_i q hq
    obtain ⟨t, hu, hT⟩ := hR.tx h1 h2
    obtain ⟨x, r, hf, hp, rfl⟩ := withTx_ok hu hq
    simp
  · exact this

theorem withOut_noub (hR : PRel env h0 p D) {f : FullSt → FullSt × Res FullErr}
    {g : OutInfo → Bool → OutRes}
    (hfg : ∀ (x : FullSt) (o : OutDesc) (os : List OutDesc), FullRel env.keyOf h0 x D →
      D.outputs = o :: os → OutRel env x.s.a.table D.table x.s.o o.box →
      (f x).2 ≠ .ub ∧ ∀ x' r, f x = (x', r) → r.passes → g x'.s.o (r = .ok) ≠ .ub) :
    p.withOut f g ≠ .ub := by
  unfold P2pk.withOut
  split
  · simp
  rename_i hst
  simp only [ne_eq, Decidable.not_not] at hst
  obtain ⟨t, hu, hT⟩ := hR.tx (by rw [hst]; simp) (by rw [hst]; simp)
  rw [hst] at hT
  rw [hu]
  simp only
  have hout := hT.out
  unfold NewestRel at hout
  cases hD : D.outputs with
  | nil => exact absurd hD hT.state.1
  | cons o os =>
    rw [hD] at hout
    obtain ⟨oi, hoi, hO⟩ := hout
    rw [hoi]
    simp only
    have hF := hT.full
    rw [hoi] at hF
    obtain ⟨h1, h2⟩ := hfg ⟨t.tx, p.hash, ⟨p.amounts, oi⟩⟩ o os hF hD hO
    split
    · simp
    · rename_i he; rw [he] at h1; simp at h1
    · rename_i x r hn1 hn2 he
      have hrp : r.passes := by
        cases r with
        | ok => rfl
        | more => rfl
        | err e => exact absurd rfl (hn1 e)
        | ub => exact absurd rfl hn2
      have := h2 x r he hrp
      split
      · simp
      · rename_i hg; exact absurd hg this
      · simp

theorem addOutputTree_noub (hR : PRel env h0 p D) (data : Bytes) :
    p.addOutputTree env data ≠ .ub := by
  refine withOut_noub hR ?_
  intro x o os hF hD hO
  refine ⟨addBoxTree_noub hF hD hO _, ?_⟩
  intro x' r hf hrp
  obtain ⟨hsd, hF', htab, hs, hr, hlen⟩ := addBoxTree_full hF hD hO hf hrp
  obtain ⟨q', hq', hO'⟩ := addTreeChunk_rel hO hsd hlen
  have hb : decide (r = .ok) = (o.box.addTree data).scriptDone := by
    rw [Bool.eq_iff_iff, decide_eq_true_iff]; exact hr
  rw [hs, hb, hq']
  simp

theorem opFee_noub (hR : PRel env h0 p D) (data : Bytes) : opFee env p data ≠ .ub := by
  unfold opFee
  split
  · simp
  refine withOut_noub hR ?_
  intro x o os hF hD hO
  refine ⟨setScript_noub (ty := .fee) (bytes := minersFeeTree) (fun b => rfl) hF hD hO, ?_⟩
  intro x' r hf hrp
  obtain ⟨hsd, ⟨fin, hfin⟩, hnone⟩ := setScript_full (s := .fee) (bytes := minersFeeTree)
    (fun b => rfl) (by simp) feeTree_eq hF hD hO hf hrp
  rcases setFee_rel hO hsd fin (by
    intro hn
    have := (hnone hn).2.2
    rw [hfin] at this
    exact congrArg OutInfo.boxFinished this) with ⟨q', hq', hn, hO'⟩ | hbad
  · rw [hfin]; simp only; rw [hq']; simp
  · rw [hfin]; simp only; rw [hbad]; simp

theorem opChange_noub (hR : PRel env h0 p D) (data : Bytes) : opChange env p data ≠ .ub := by
  unfold opChange
  split
  · simp
  rename_i path rest hpath
  split
  · simp
  split
  · simp
  rename_i pub cc hpub
  refine withOut_noub hR ?_
  intro x o os hF hD hO
  refine ⟨setScript_noub (ty := .change) (bytes := treeGenerateP2pk pub) (fun b => rfl) hF hD hO, ?_⟩
  intro x' r hf hrp
  obtain ⟨hsd, ⟨fin, hfin⟩, hnone⟩ := setScript_full (s := .change path)
    (bytes := treeGenerateP2pk pub)
    (fun b => rfl) (by simp) (by
      simp only [scriptBytes, Env.keyOf, hpub, treeGenerateP2pk]
      rfl) hF hD hO hf hrp
  rcases setBip32_rel hO hsd fin path (by
    intro hn
    have := (hnone hn).2.2
    rw [hfin] at this
    exact congrArg OutInfo.boxFinished this) with ⟨q', hq', hn, hO'⟩ | hbad
  · rw [hfin]; simp only; rw [hq']; simp
  · rw [hfin]; simp only; rw [hbad]; simp

/-- No command of a signing session runs into undefined behaviour. -/
theorem signOp_noub (hR : PRel env h0 p D) (key : Bytes) (sub : UInt8) (data : Bytes) :
    signOp env key p sub data ≠ .ub := by
  unfold signOp
  split
  · exact opStart_noub p data
  split
  · unfold P2pk.addTokens
    split
    · simp
    rename_i hst
    simp only [ne_eq, Decidable.not_not] at hst
    exact withTx_noub' hR (by rw [hst]; simp) (by rw [hst]; simp) (fun x hx => addTokens_noub x _)
  split
  · exact opFrame_noub hR key data
  split
  · unfold P2pk.addExtension
    split
    · simp
    rename_i hst
    simp only [ne_eq, Decidable.not_not] at hst
    exact withTx_noub' hR (by rw [hst]; simp) (by rw [hst]; simp)
      (fun x hx => addInputExtension_noub hx _)
  split
  · unfold P2pk.addDataInputs
    split
    · simp
    rename_i hst
    simp only [ne_eq, Decidable.not_not] at hst
    exact withTx_noub' hR (by rw [hst]; simp) (by rw [hst]; simp)
      (fun x hx => addDataInputs_noub x _)
  split
  · exact opOutput_noub hR data
  split
  · exact addOutputTree_noub hR data
  split
  · exact opFee_noub hR data
  split
  · exact opChange_noub hR data
  split
  · refine withOut_noub hR ?_
    intro x o os hF hD hO
    exact ⟨addBoxTokens_noub hF hD hO _, fun _ _ _ _ => by simp⟩
  · refine withOut_noub hR ?_
    intro x o os hF hD hO
    exact ⟨addBoxRegisters_noub hF hD hO _, fun _ _ _ _ => by simp⟩

/-! ## The newest output -/

theorem OutRel.ofBip32 {table base : List Bytes} {oi : OutInfo} {o : BoxDesc Nat}
    (h : OutRel env table base oi o) (hb : oi.type = .bip32) :
    ∃ q, o.script = some (.change q) ∧ oi.data = .path q := by
  have hs := h.script
  cases hsc : o.script with
  | none => rw [hsc] at hs; rw [hs.1] at hb; simp at hb
  | some s =>
    rw [hsc] at hs
    cases s with
    | fee => rw [hs.1] at hb; simp at hb
    | change q => exact ⟨q, rfl, hs.2.2⟩
    | raw bs =>
      simp only [ScriptRel] at hs
      split at hs
      · rw [hs.2.1] at hb
        unfold rawInfo at hb
        split at hb
        · simp at hb
        · split at hb <;> simp at hb
      · rw [hs.1] at hb; simp at hb

theorem OutRel.ofFee {table base : List Bytes} {oi : OutInfo} {o : BoxDesc Nat}
    (h : OutRel env table base oi o) (hb : oi.type = .minersFee) : o.script = some .fee := by
  have hs := h.script
  cases hsc : o.script with
  | none => rw [hsc] at hs; rw [hs.1] at hb; simp at hb
  | some s =>
    rw [hsc] at hs
    cases s with
    | fee => rfl
    | change q => rw [hs.1] at hb; simp at hb
    | raw bs =>
      simp only [ScriptRel] at hs
      split at hs
      · rw [hs.2.1] at hb
        unfold rawInfo at hb
        split at hb
        · simp at hb
        · split at hb <;> simp at hb
      · rw [hs.1] at hb; simp at hb

/-- The newest output of a running operation. -/
theorem PRel.newest (hR : PRel env h0 p D)
    (hst : p.state = .outputsStarted ∨ p.state = .txFinished) :
    ∃ t oi o os, p.u = .transaction t ∧ t.out = some oi ∧ D.outputs = o :: os ∧
      OutRel env p.amounts.table D.table oi o.box ∧ TxSim env h0 p.state p.hash p.amounts t D := by
  obtain ⟨t, hu, hT⟩ := hR.tx (by rcases hst with h | h <;> simp [h])
    (by rcases hst with h | h <;> simp [h])
  have hne : D.outputs ≠ [] := by
    have hs := hT.state
    rcases hst with h | h <;> rw [h] at hs <;> exact hs.1
  have hout := hT.out
  unfold NewestRel at hout
  cases hD : D.outputs with
  | nil => exact absurd hD hne
  | cons o os =>
    rw [hD] at hout
    obtain ⟨oi, hoi, hO⟩ := hout
    exact ⟨t, oi, o, os, hu, hoi, rfl, hO, hT⟩

/-- The question whether to show the newest output always has an answer. -/
theorem shouldShow_some (hR : PRel env h0 p D) : p.shouldShow ≠ none := by
  unfold P2pk.shouldShow
  split
  · simp
  rename_i hst
  have hst' : p.state = .outputsStarted ∨ p.state = .txFinished := by tauto
  obtain ⟨t, oi, o, os, hu, hoi, hD, hO, hT⟩ := hR.newest hst'
  rw [hu]
  simp only
  rw [hoi]
  simp only
  unfold Ergo.shouldShow
  split
  · simp
  split
  · simp
  · rename_i hb
    obtain ⟨q, _, hq⟩ := hO.ofBip32 hb
    rw [hq]
    simp only
    split
    · simp
    split
    · simp
    split <;> simp
  · simp

/-- It is shown only when complete. -/
theorem shouldShow_true (hR : PRel env h0 p D) (h : p.shouldShow = some true) :
    ∃ t oi o os, p.u = .transaction t ∧ t.out = some oi ∧ D.outputs = o :: os ∧
      OutRel env p.amounts.table D.table oi o.box ∧
      TxSim env h0 p.state p.hash p.amounts t D ∧ o.box.complete = true ∧
      (p.state = .outputsStarted ∨ p.state = .txFinished) := by
  unfold P2pk.shouldShow at h
  split at h
  · simp at h
  rename_i hst
  have hst' : p.state = .outputsStarted ∨ p.state = .txFinished := by tauto
  obtain ⟨t, oi, o, os, hu, hoi, hD, hO, hT⟩ := hR.newest hst'
  refine ⟨t, oi, o, os, hu, hoi, hD, hO, hT, ?_, hst'⟩
  rw [hu] at h
  simp only at h
  rw [hoi] at h
  simp only at h
  unfold Ergo.shouldShow at h
  split at h
  · simp at h
  rename_i hf
  rw [← hO.finished]
  simpa using hf

/-! ## Approval -/

theorem FullRel.approve {keyOf : List UInt32 → Bytes} {x : FullSt} {o : OutDesc} {os : List OutDesc}
    (hR : FullRel keyOf h0 x D) (hD : D.outputs = o :: os) :
    FullRel keyOf h0 x { D with outputs := { o with approved := true } :: os } := by
  have hs : ∀ q : Script → Bool,
      TxDesc.sumOut q { D with outputs := { o with approved := true } :: os } = D.sumOut q := by
    intro q; simp only [TxDesc.sumOut, hD, List.map_cons]
  have ht : TxDesc.tokOut { D with outputs := { o with approved := true } :: os } = D.tokOut := by
    funext id; simp only [TxDesc.tokOut, hD, List.map_cons]
  have hOut : OutPhase keyOf h0 x.c x.h D →
      OutPhase keyOf h0 x.c x.h { D with outputs := { o with approved := true } :: os } := by
    intro h
    unfold OutPhase at h ⊢
    rw [hD] at h
    simp only [List.countP_cons] at h ⊢
    exact h
  refine ⟨hR.nIn, hR.nOut, hR.nTok, hR.distinct, ?_, ?_⟩
  · rw [hs, hs, ht]; exact hR.amt
  · have hph := hR.phase
    unfold FullPhase at hph ⊢
    split at hph
    · rw [hD] at hph; simp at hph
    · rw [hD] at hph; simp at hph
    · rw [hD] at hph; simp at hph
    · exact ⟨hph.1, hOut hph.2⟩
    · obtain ⟨h1, h2, o', os', h3, h4⟩ := hph
      rw [hD] at h3
      simp only [List.cons.injEq] at h3
      obtain ⟨rfl, rfl⟩ := h3
      exact ⟨h1, hOut h2, _, _, rfl, h4⟩
    · exact hph

/-- The last approved change path is forgotten. -/
theorem TxSim.forget {st : P2pkState} {hash : Bytes} {a : Amounts} {t : TxData}
    (h : TxSim env h0 st hash a t D) : TxSim env h0 st hash a { t with lastChange := [] } D :=
  ⟨h.full, h.out, h.state, h.refs, h.paths, h.appr, .inl rfl, h.tab, h.sum⟩

theorem TxSim.approve {st : P2pkState} {hash : Bytes} {a : Amounts} {t : TxData}
    {last : List UInt32} {o : OutDesc} {os : List OutDesc} (h : TxSim env h0 st hash a t D)
    (hD : D.outputs = o :: os) (hc : o.box.complete = true)
    (hl : last = [] ∨ o.box.script = some (.change last)) :
    TxSim env h0 st hash a { t with lastChange := last }
      { D with outputs := { o with approved := true } :: os } := by
  refine ⟨FullRel.approve h.full hD, ?_, ?_, ?_, ?_, ?_, ?_, h.tab, h.sum⟩
  · have := h.out
    unfold NewestRel at this ⊢
    rw [hD] at this
    exact this
  · have := h.state
    unfold StateRel at this ⊢
    rw [hD] at this
    cases st <;> simp_all
  · intro o' ho'
    rcases List.mem_cons.1 ho' with rfl | ho'
    · exact h.refs o (by rw [hD]; simp)
    · exact h.refs o' (by rw [hD]; simp [ho'])
  · intro o' ho'
    rcases List.mem_cons.1 ho' with rfl | ho'
    · exact h.paths o (by rw [hD]; simp)
    · exact h.paths o' (by rw [hD]; simp [ho'])
  · intro o' ho'
    rcases List.mem_cons.1 ho' with rfl | ho'
    · exact fun _ => hc
    · exact h.appr o' (by rw [hD]; simp [ho'])
  · rcases hl with rfl | h2
    · exact .inl rfl
    · exact .inr ⟨_, rfl, h2⟩

/-! ## Induction over a session -/

/-- The device is waiting for the decision on an output. -/
def AsksOutput (d : Device) : Prop := ∃ s, d.screen = some s ∧ s.cb = .signOutput

/-- Induction over a signing session in an execution.  The flag of the invariant says whether the
device is waiting for the decision on an output. -/
theorem sign_induct {env : Env} {nanoS : Bool} {key : Bytes} (P : Prop → SignSess → SignCtx → Prop)
    (init : ∀ (a : Request) (network : UInt8) (path : List UInt32) (token : UInt32) (p0 : P2pk)
      (s : UInt8), parseSignInit a.data (a.p2 = 2) = .ok (network, path, token) →
      p2pkInit env path network a.rnd.keys = .ok p0 →
      P False ⟨a, s, []⟩ ⟨true, s, { p0 with u := .uiApprove token }⟩)
    (step : ∀ (S : SignSess) (x : SignCtx) (sub : UInt8) (data : Bytes) (p : P2pk), P False S x →
      0x10 ≤ sub → sub ≤ 0x1A → signOp env key x.p sub data = .ok p →
      (sub < 0x16 ∨ p.shouldShow = some false) →
      P False { S with log := S.log ++ [.cmd sub data] } { x with p := p })
    (show_ : ∀ (S : SignSess) (x : SignCtx) (sub : UInt8) (data : Bytes) (p : P2pk) (t : TxData)
      (o : OutInfo), P False S x → 0x16 ≤ sub → sub ≤ 0x1A →
      signOp env key x.p sub data = .ok p → p.shouldShow = some true → p.u = .transaction t →
      t.out = some o →
      P True { S with log := S.log ++ [.cmd sub data] }
        { x with p := { p with u := .transaction { t with lastChange := [] } } })
    (approve : ∀ (S : SignSess) (x : SignCtx) (t : TxData) (o : OutInfo) (last : List UInt32),
      P True S x → x.p.u = .transaction t → t.out = some o →
      (o.type = .bip32 ∧ o.data = .path last ∨ o.type ≠ .bip32 ∧ last = []) →
      P False { S with log := S.log ++ [.approve] }
        { x with p := { x.p with u := .transaction { t with lastChange := last } } })
    (confirm : ∀ (S : SignSess) (x : SignCtx), P False S x → x.p.state = .txFinished →
      P False S { x with p := { x.p with state := .finalized, u := .uiConfirm } })
    {tr : List Obs} {d : Device} (h : Runs env nanoS key tr d) :
    ∀ x S, d.ctx = .sign x → x.approved = true → (know tr).sign = some S →
      P (AsksOutput d) S x := by
  induction h with
  | boot => intro x S h2 _ _; simp [Device.boot] at h2
  | @step tr d e h hh hu ih =>
    have hI := h.inv
    obtain ⟨d', r, hst, hT⟩ := step_cases env nanoS d e
    rw [show know (d.observe env nanoS e :: tr) = (know tr).next (d.observe env nanoS e) from rfl,
      observe_eq hst]
    rw [hst] at hh hu ⊢
    simp only at hh hu ⊢
    generalize know tr = g at hI ih
    intro x S hx hap hS
    have quiet : d.busy = false → ¬ AsksOutput d := by
      intro hb ⟨s, hs, _⟩
      have := hI.busy
      rw [hb, hs] at this
      simp at this
    have no : ∀ {d : Device}, d.screen = none → AsksOutput d = False := by
      intro d hs
      simp [AsksOutput, hs]
    have nb : d.busy = false → AsksOutput d = False := fun hb => eq_false (quiet hb)
    have same : ∀ {s : Screen} {f : Flow}, d.screen = some s →
        AsksOutput { d with screen := some { s with flow := f } } = AsksOutput d := by
      intro s f hs
      simp [AsksOutput, hs]
    cases hT with
    | neutral h =>
      obtain ⟨h1, h2⟩ := neutral_ghost h
      simp only [Ghost.next, status, if_neg h1, h2, if_true] at hS
      exact ih x S hx hap hS
    | version hl =>
      exact ih x S hx hap (by simpa [Ghost.next, Ghost.onOk, Sw.ok] using hS)
    | name hl =>
      exact ih x S hx hap (by simpa [Ghost.next, Ghost.onOk, Sw.ok] using hS)
    | abort hb hsw hi => simp [Device.setCommand] at hx
    | deriveFail hb => simp [Device.setCommand] at hx
    | epkSend hb h1 hp hv hg hk => simp [Device.setCommand] at hx
    | epkAsk hb h1 hp hv hg hk hf => simp [Device.display] at hx
    | daSend hb h1 h2 hd hp hv hg ha hk => simp [Device.setCommand] at hx
    | daAskSend hb h1 h2 hd hp hv hg ha hk hf => simp [Device.display] at hx
    | daAskShow hb h1 h2 hd hp hv hg ha hf hs hl => simp [Device.display] at hx
    | attestHang hb => exact absurd rfl hh
    | attestKnown hb h2 hi hs hk => simp at hx
    | attestAsk hb h2 hi hs hk => simp [Device.display] at hx
    | attestOk hb hl hsub hc hy hs ho => simp at hx
    | attestUb => exact absurd rfl hu
    | signHang => exact absurd rfl hh
    | signInitUb => exact absurd rfl hu
    | signAsk hb h2 hp hi hs hf =>
      simp only [Device.display, Ctx.sign.injEq] at hx
      subst hx
      simp at hap
    | @signOk sub p2 data rnd y p hb hl hsub hc hy hs ha ho hn =>
      have e1 : g.next ⟨d.asks, d.here, .apdu 0xE0 0x21 sub p2 data rnd, status Sw.ok⟩ =
          g.log (.cmd sub data) := rfl
      rw [e1] at hS
      simp only [Ctx.sign.injEq] at hx
      subst hx
      simp only [Ghost.log, Option.map_eq_some_iff] at hS
      obtain ⟨S0, hS0, rfl⟩ := hS
      rw [hI.key] at ho
      have h0 := ih y S0 hy ha hS0
      rw [nb hb] at h0
      have e2 : AsksOutput { d with ctx := .sign { y with p := p } } = False := by
        have := nb hb
        simpa [AsksOutput] using this
      rw [e2]
      exact step S0 y sub data p h0 hsub.1 hsub.2 ho hn
    | @signShow sub p2 data rnd y p t o hb hl hsub hc hy hs ha ho hn hu' hout =>
      have hne : ¬ sub = 0x01 := by
        rintro rfl; exact absurd hsub.1 (by decide)
      have hne' : ¬ sub = 0x20 := by
        rintro rfl; exact absurd hsub.2 (by decide)
      have e1 : g.next ⟨d.asks, d.here, .apdu 0xE0 0x21 sub p2 data rnd, .wait⟩ =
          { g.log (.cmd sub data) with pending := some ⟨0x21, sub, p2, data, rnd⟩ } := by
        simp [Ghost.next, Ghost.onWait, hne, hne']
      rw [e1] at hS
      simp only [Device.display, Ctx.sign.injEq] at hx
      subst hx
      simp only [Ghost.log, Option.map_eq_some_iff] at hS
      obtain ⟨S0, hS0, rfl⟩ := hS
      rw [hI.key] at ho
      have h0 := ih y S0 hy ha hS0
      rw [nb hb] at h0
      have e2 : ∀ (c : Ctx) (f : Flow), AsksOutput (({ d with ctx := c }).display f .signOutput) =
          True := by
        intro c f
        simp [AsksOutput, Device.display]
      rw [e2]
      exact show_ S0 y sub data p t o h0 hsub.1 hsub.2 ho hn hu' hout
    | signUb => exact absurd rfl hu
    | @signConfirm p2 data rnd y hb hl hc hy hs ha hp =>
      have e1 : g.next ⟨d.asks, d.here, .apdu 0xE0 0x21 0x20 p2 data rnd, .wait⟩ =
          { g with pending := some ⟨0x21, 0x20, p2, data, rnd⟩ } := rfl
      rw [e1] at hS
      simp only [Device.display, Ctx.sign.injEq] at hx
      subst hx
      have h0 := ih y S hy ha hS
      rw [nb hb] at h0
      have e2 : ∀ (c : Ctx) (f : Flow), AsksOutput (({ d with ctx := c }).display f .signTx) =
          False := by
        intro c f
        simp [AsksOutput, Device.display]
      rw [e2]
      exact confirm S y h0 hp
    | idle he hs =>
      rcases he with rfl | rfl | rfl <;> exact ih x S hx hap hS
    | move he hs hm =>
      rw [same hs]
      rcases he with ⟨rfl, _⟩ | ⟨rfl, _⟩ <;> exact ih x S hx hap hS
    | moveErr he hs hm hk => simp [Device.menu, Device.setCommand] at hx
    | moveUb => exact absurd rfl hu
    | click hs h1 h2 h3 => exact ih x S hx hap hS
    | reject hs h1 => simp [Device.menu, Device.setCommand] at hx
    | okEpk hs h1 hcb hx' => simp [Device.menu, Device.setCommand] at hx
    | okDa hs h1 hcb hx' => simp [Device.menu, Device.setCommand] at hx
    | okAttest hs h1 hcb hx' => simp [Device.menu] at hx
    | @okSignInit s y token hs h1 hcb hy hu' =>
      obtain ⟨a, f0, p1, p2, p3⟩ := hI.asking _ hs
      have hq := hI.asks hs
      rw [hcb] at p3 hq
      simp only [AsksFor] at hq
      rw [hq] at hS
      have e1 : g.next ⟨some .p2pkSigning, d.here, .both, .sw Sw.ok [y.session]⟩ =
          { g with
            app := (g.pending.map Request.token).getD 0
            sign := g.pending.map (fun a => ⟨a, y.session, []⟩) } := rfl
      rw [e1] at hS
      simp only [p1, Option.map_some, Option.some.injEq] at hS
      subst hS
      obtain ⟨_, _, _, _, network, path, token', p, s', t, q1, q2, _, _, _, _, q7⟩ := p3
      rw [hy] at q7
      cases q7
      simp only [Device.menu, Ctx.sign.injEq] at hx
      subst hx
      rw [no rfl]
      exact init a network path token' p s' q1 q2
    | @okSignOutput s y t o last hs h1 hcb hy hu' hout hl =>
      have hq := hI.asks hs
      rw [hcb] at hq
      simp only [AsksFor] at hq
      rw [hq] at hS
      have e1 : g.next ⟨some .confirmOutput, d.here, .both, status Sw.ok⟩ = g.log .approve := rfl
      rw [e1] at hS
      simp only [Device.menu, Ctx.sign.injEq] at hx
      subst hx
      simp only [Ghost.log, Option.map_eq_some_iff] at hS
      obtain ⟨S0, hS0, rfl⟩ := hS
      have h0 := ih y S0 hy hap hS0
      rw [show AsksOutput d = True from eq_true ⟨s, hs, hcb⟩] at h0
      rw [no rfl]
      exact approve S0 y t o last h0 hu' hout hl
    | okSignTx hs h1 hcb hx' hsig => simp [Device.menu, Device.setCommand] at hx
    | failSignTx hs h1 hcb hx' hsig => simp [Device.menu, Device.setCommand] at hx
    | actUb => exact absurd rfl hu

end Ergo
