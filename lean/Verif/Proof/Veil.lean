import Verif.Proof.MaskEnv
import Verif.Spec.Blind
import Verif.Props.Sign
import Verif.Props.Base58
/-!
# Steps of two devices with different wallets
-/
namespace Ergo
open Spec

/-- Erase the text of an address page. -/
def FlowStep.veil : FlowStep → FlowStep
  | .info ⟨.address, .text _⟩ => .info ⟨.address, .text []⟩
  | s => s

/-- The same for a flow. -/
def Flow.veil (f : Flow) : Flow := { f with steps := f.steps.map FlowStep.veil }

/-- Two steps of the same kind. -/
theorem FlowStep.veil_eq {s s' : FlowStep} (h : s.veil = s'.veil) :
    s = s' ∨ ∃ t t', s = .info ⟨.address, .text t⟩ ∧ s' = .info ⟨.address, .text t'⟩ := by
  unfold FlowStep.veil at h
  split at h <;> split at h
  · exact .inr ⟨_, _, rfl, rfl⟩
  · subst h; exact .inr ⟨_, _, rfl, rfl⟩
  · subst h; exact .inr ⟨_, _, rfl, rfl⟩
  · exact .inl h

theorem Flow.here_veil {f g : Flow} (h : f.veil = g.veil) : f.here.veil = g.here.veil := by
  obtain ⟨l, i, n, c⟩ := f
  obtain ⟨l', i', n', c'⟩ := g
  simp only [Flow.veil, Flow.mk.injEq] at h
  obtain ⟨h, rfl, rfl, rfl⟩ := h
  have e : ∀ l : List FlowStep, (l.getD i .reject).veil = (l.map FlowStep.veil).getD i .reject := by
    intro l
    rw [List.getD_eq_getElem?_getD, List.getD_eq_getElem?_getD, List.getElem?_map]
    cases l[i]? <;> rfl
  simp only [Flow.here, e, h]

theorem Flow.arrive_veil {f g : Flow} (h : f.veil = g.veil) :
    f.arrive.flow.veil = g.arrive.flow.veil ∧ f.arrive.draw = g.arrive.draw := by
  have hh := Flow.here_veil h
  obtain ⟨l, i, n, c⟩ := f
  obtain ⟨l', i', n', c'⟩ := g
  have h' := h
  simp only [Flow.veil, Flow.mk.injEq] at h
  obtain ⟨h, rfl, rfl, rfl⟩ := h
  unfold Flow.arrive
  rcases FlowStep.veil_eq hh with hh | ⟨t, t', e1, e2⟩
  · rw [hh]
    split
    · unfold Flow.stepLeft
      cases c with
      | none => exact ⟨by simp only [Flow.veil, h], rfl⟩
      | some k => cases k <;> exact ⟨by simp only [Flow.veil, h], rfl⟩
    · unfold Flow.stepRight
      cases c with
      | none => exact ⟨by simp only [Flow.veil, h], rfl⟩
      | some k =>
        simp only
        split_ifs <;> exact ⟨by simp only [Flow.veil, h], rfl⟩
    · exact ⟨h', rfl⟩
  · rw [e1, e2]
    exact ⟨h', rfl⟩

theorem Flow.steps_veil {f g : Flow} (h : f.veil = g.veil) : f.steps.length = g.steps.length := by
  have := congrArg (fun z : Flow => z.steps.length) h
  simpa [Flow.veil] using this

theorem Flow.move_veil {f g : Flow} (h : f.veil = g.veil) (i : Nat) :
    ({ f with idx := i } : Flow).veil = ({ g with idx := i } : Flow).veil := by
  obtain ⟨l, j, n, c⟩ := f
  obtain ⟨l', j', n', c'⟩ := g
  simp only [Flow.veil, Flow.mk.injEq] at h ⊢
  exact ⟨h.1, trivial, h.2.2⟩

theorem Flow.idx_veil {f g : Flow} (h : f.veil = g.veil) : f.idx = g.idx :=
  (congrArg (fun z : Flow => z.idx) h :)

theorem Flow.left_veil {f g : Flow} (h : f.veil = g.veil) :
    f.left.flow.veil = g.left.flow.veil ∧ f.left.draw = g.left.draw := by
  unfold Flow.left
  rw [Flow.steps_veil h, Flow.idx_veil h]
  exact Flow.arrive_veil (Flow.move_veil h _)

theorem Flow.right_veil {f g : Flow} (h : f.veil = g.veil) :
    f.right.flow.veil = g.right.flow.veil ∧ f.right.draw = g.right.draw := by
  unfold Flow.right
  rw [Flow.steps_veil h, Flow.idx_veil h]
  exact Flow.arrive_veil (Flow.move_veil h _)

/-- Two devices that differ in keys and addresses only. -/
inductive Veiled : Device → Device → Prop
  | same {d d' : Device} (h : d.mask = d'.mask) : Veiled d d'
  | export {ca key cmd s} (x x' : EpkCtx) (hc : s.cb = .extPubKey) (ht : x.token = x'.token)
      (hl : (epkResponse x.pub x.chain).length = (epkResponse x'.pub x'.chain).length) :
      Veiled ⟨ca, key, cmd, true, .extPub x, some s⟩ ⟨ca, key, cmd, true, .extPub x', some s⟩
  | address {ca key cmd f f'} (x x' : DaCtx) (hf : f.veil = f'.veil) (ht : x.token = x'.token)
      (hs : x.send = x'.send) (hl : x.raw.length = x'.raw.length) :
      Veiled ⟨ca, key, cmd, true, .derive x, some ⟨f, .deriveAddress⟩⟩
        ⟨ca, key, cmd, true, .derive x', some ⟨f', .deriveAddress⟩⟩

/-- Two results that differ in keys and addresses only. -/
def VeiledR (r r' : Device × Reply) : Prop := Veiled r.1 r'.1 ∧ r'.2 = r.2

theorem VeiledR.of {r r' : Device × Reply} (h : maskR r' = maskR r) : VeiledR r r' :=
  ⟨.same (congrArg Prod.fst h :).symm, (congrArg Prod.snd h :)⟩

theorem VeiledR.ite {c : Prop} [Decidable c] {a a' b b' : Device × Reply} (h1 : VeiledR a a')
    (h2 : VeiledR b b') : VeiledR (if c then a else b) (if c then a' else b') := by
  by_cases hc : c
  · rw [if_pos hc, if_pos hc]; exact h1
  · rw [if_neg hc, if_neg hc]; exact h2

/-- Both results are success with as many bytes. -/
def Gives (r r' : Device × Reply) : Prop :=
  r.1 = r'.1 ∧ ∃ out out', r.2 = .sw 0x9000 out ∧ r'.2 = .sw 0x9000 out' ∧ out.length = out'.length

/-- Commands while a key or an address is on display. -/
theorem busy_apdu_veil (env : Env) (nanoS : Bool) {d d' : Device} (hb : d.busy = true) (hb' : d'.busy = true)
    (hv : Veiled d d') {env' : Env} (hn : env'.appName = env.appName)
    (hver : env'.appVersion = env.appVersion) (cla ins p1 p2 : UInt8) (data : Bytes) (r r' : Rnd) :
    VeiledR (d.step env nanoS (.apdu cla ins p1 p2 data r))
      (d'.step env' nanoS (.apdu cla ins p1 p2 data r')) := by
  have e1 : ∀ (env : Env) (d : Device) (t : Bool), d.busy = true →
      d.extPubKey env data t = (d, status Sw.busy) := fun _ _ _ h => by
    unfold Device.extPubKey; rw [if_pos h]
  have e2 : ∀ (env : Env) (d : Device) (a t : Bool), d.busy = true →
      d.deriveAddress env data a t = (d, status Sw.busy) := fun _ _ _ _ h => by
    unfold Device.deriveAddress; rw [if_pos h]
  have e3 : ∀ (env : Env) (d : Device) (r : Rnd), d.busy = true →
      d.attestInput env p1 p2 data r = (d, status Sw.busy) := fun _ _ _ h => by
    unfold Device.attestInput; rw [if_pos h]
  have e4 : ∀ (env : Env) (d : Device) (r : Rnd), d.busy = true →
      d.signTransaction env p1 p2 data r = (d, status Sw.busy) := fun _ _ _ h => by
    unfold Device.signTransaction; rw [if_pos h]
  unfold Device.step Device.dispatch
  dsimp only
  rw [e1 _ _ _ hb, e2 _ _ _ _ hb, e3 _ _ _ hb, e4 _ _ _ hb, e1 _ _ _ hb', e2 _ _ _ _ hb', e3 _ _ _ hb',
    e4 _ _ _ hb', hn, hver]
  have h0 : ∀ r, VeiledR (d, r) (d', r) := fun _ => ⟨hv, rfl⟩
  exact VeiledR.ite (h0 _) <| VeiledR.ite (h0 _) <| VeiledR.ite (VeiledR.ite (h0 _) (h0 _)) <|
    VeiledR.ite (VeiledR.ite (h0 _) (h0 _)) <| VeiledR.ite (VeiledR.ite (h0 _) (h0 _)) <|
    VeiledR.ite (VeiledR.ite (h0 _) (h0 _)) <| VeiledR.ite (VeiledR.ite (h0 _) (h0 _)) <|
    VeiledR.ite (VeiledR.ite (h0 _) (h0 _)) (h0 _)

/-! ## Commands -/

theorem otherWallet_eq {env env' : Env} (h : OtherWallet env env') :
    env' = env.other env'.derive env'.pubOf env'.mulG := by
  obtain ⟨b, hm, d, p, m, n, v⟩ := env
  obtain ⟨b', hm', d', p', m', n', v'⟩ := env'
  obtain ⟨e1, e2, e3, e4, _⟩ := h
  simp only at e1 e2 e3 e4
  subst e1 e2 e3 e4
  rfl

/-- The keys of a path in both wallets. -/
theorem Spec.OtherWallet.keys {env env' : Env} (he : OtherWallet env env') (hwf : env.WF) (hwf' : env'.WF)
    (path : List UInt32) :
    env.genPublic path = none ∧ env'.genPublic path = none ∨
      ∃ pub chain pub' chain', env.genPublic path = some (pub, chain) ∧
        env'.genPublic path = some (pub', chain') ∧ pub.length = 65 ∧ pub'.length = 65 ∧
        chain.length = 32 ∧ chain'.length = 32 := by
  have h := he.exist path
  cases h1 : env.genPublic path with
  | none =>
    cases h2 : env'.genPublic path with
    | none => exact .inl ⟨rfl, rfl⟩
    | some y => rw [h1, h2] at h; simp at h
  | some x =>
    cases h2 : env'.genPublic path with
    | none => rw [h1, h2] at h; simp at h
    | some y =>
      obtain ⟨pub, chain⟩ := x
      obtain ⟨pub', chain'⟩ := y
      obtain ⟨a1, a2⟩ := genPublic_len hwf h1
      obtain ⟨b1, b2⟩ := genPublic_len hwf' h2
      exact .inr ⟨_, _, _, _, rfl, rfl, a1, b1, a2, b2⟩

/-- The outcome of a command in both worlds. -/
def VeilOutcome (d : Device) (r r' : Device × Reply) : Prop :=
  VeiledR r r' ∨ Gives r r' ∧ d.connectedApp ≠ 0

theorem extPubKey_veil {env env' : Env} (he : OtherWallet env env') (hwf : env.WF) (hwf' : env'.WF)
    {d d' : Device} (h : d.mask = d'.mask) (data : Bytes) (t : Bool) :
    VeilOutcome d (d.extPubKey env data t) (d'.extPubKey env' data t) := by
  unfold Device.extPubKey
  rw [← busy_mask h]
  by_cases hb : d.busy = true
  · rw [if_pos hb, if_pos hb]; exact .inl ⟨.same h, rfl⟩
  rw [if_neg hb, if_neg hb, ← setCommand_mask h]
  simp only
  cases parsePathToken data t with
  | error e => exact .inl ⟨.same rfl, rfl⟩
  | ok x =>
    obtain ⟨path, token⟩ := x
    simp only
    by_cases hv : ¬ pathValidate path .accountGe3 = true
    · rw [if_pos hv, if_pos hv]; exact .inl ⟨.same rfl, rfl⟩
    rw [if_neg hv, if_neg hv]
    rcases he.keys hwf hwf' path with ⟨h1, h2⟩ | ⟨pub, chain, pub', chain', h1, h2, l1, l2, l3, l4⟩
    · rw [h1, h2]; exact .inl ⟨.same rfl, rfl⟩
    rw [h1, h2]
    have hl : (epkResponse pub chain).length = (epkResponse pub' chain').length := by
      simp only [epkResponse, List.length_append, compress_length l1, compress_length l2, l3, l4]
    simp only
    by_cases hk : isKnown token (d.setCommand .extPubKey).connectedApp = true
    · rw [if_pos hk, if_pos hk]
      refine .inr ⟨⟨rfl, _, _, rfl, rfl, hl⟩, ?_⟩
      exact (of_decide_eq_true hk).2.1
    rw [if_neg hk, if_neg hk]
    cases pathFormat path bip32StrLen with
    | none => exact .inl ⟨.same rfl, rfl⟩
    | some t => exact .inl ⟨.export ⟨pub, chain, token⟩ ⟨pub', chain', token⟩ rfl rfl hl, rfl⟩

theorem showAddress_veil (d : Device) (send : Bool) (token : UInt32) (path : List UInt32)
    {raw raw' : Bytes} (h1 : raw.length = 38) (h2 : raw'.length = 38) :
    VeiledR (d.showAddress send token path raw) (d.showAddress send token path raw') := by
  unfold Device.showAddress
  refine VeiledR.ite ⟨.same rfl, rfl⟩ ?_
  cases pathFormat path bip32StrLen with
  | none => exact ⟨.same rfl, rfl⟩
  | some t =>
    simp only
    refine VeiledR.ite ⟨.address ⟨raw, token, send⟩ ⟨raw', token, send⟩ rfl rfl rfl (h1.trans h2.symm), rfl⟩ ?_
    obtain ⟨a, e1, _, e2⟩ := C37_address_fits raw addressStrLen (by omega) (by decide)
    obtain ⟨a', e1', _, e2'⟩ := C37_address_fits raw' addressStrLen (by omega) (by decide)
    rw [e1, e1']
    simp only
    have n1 : ¬ a.length ≥ addressStrLen := by unfold addressStrLen; omega
    have n2 : ¬ a'.length ≥ addressStrLen := by unfold addressStrLen; omega
    rw [if_neg n1, if_neg n2]
    exact ⟨.address ⟨raw, token, send⟩ ⟨raw', token, send⟩ rfl rfl rfl (h1.trans h2.symm), rfl⟩

theorem deriveAddress_veil {env env' : Env} (he : OtherWallet env env') (hwf : env.WF) (hwf' : env'.WF)
    {d d' : Device} (h : d.mask = d'.mask) (data : Bytes) (a t : Bool) :
    VeilOutcome d (d.deriveAddress env data a t) (d'.deriveAddress env' data a t) := by
  unfold Device.deriveAddress
  rw [← busy_mask h]
  by_cases hb : d.busy = true
  · rw [if_pos hb, if_pos hb]; exact .inl ⟨.same h, rfl⟩
  rw [if_neg hb, if_neg hb, ← setCommand_mask h]
  simp only
  cases bufU8 data with
  | none => exact .inl ⟨.same rfl, rfl⟩
  | some x =>
  obtain ⟨network, data⟩ := x
  simp only
  cases parsePathToken data t with
  | error e => exact .inl ⟨.same rfl, rfl⟩
  | ok x =>
    obtain ⟨path, token⟩ := x
    simp only
    by_cases hv : ¬ pathValidate path .addressGe5 = true
    · rw [if_pos hv, if_pos hv]; exact .inl ⟨.same rfl, rfl⟩
    rw [if_neg hv, if_neg hv]
    rcases he.keys hwf hwf' path with ⟨h1, h2⟩ | ⟨pub, chain, pub', chain', h1, h2, l1, l2, l3, l4⟩
    · rw [h1, h2]; exact .inl ⟨.same rfl, rfl⟩
    rw [h1, h2]
    simp only [addressFromPubkey]
    by_cases hn : networkValid network = true
    swap
    · rw [if_neg hn, if_neg hn]; exact .inl ⟨.same rfl, rfl⟩
    rw [if_pos hn, if_pos hn]
    have hl : (withChecksum env ((1 + network) :: compress pub)).length = 38 := by
      simp [withChecksum, compress_length l1, hwf.blake_len]
    have hl' : (withChecksum env' ((1 + network) :: compress pub')).length = 38 := by
      simp [withChecksum, compress_length l2, hwf'.blake_len]
    simp only
    by_cases hk : ¬ a = true ∧ isKnown token (d.setCommand .deriveAddress).connectedApp = true
    · rw [if_pos hk, if_pos hk]
      refine .inr ⟨⟨rfl, _, _, rfl, rfl, hl.trans hl'.symm⟩, ?_⟩
      exact (of_decide_eq_true hk.2).2.1
    rw [if_neg hk, if_neg hk]
    exact .inl (showAddress_veil _ _ _ _ hl hl')

theorem BoxSt.addChangeTree_hides (cbs : BoxCbs σ) {x y : BoxSt σ} (h : x.hide = y.hide) (pk pk' : Bytes) :
    BoxSt.hideR (BoxSt.addChangeTree cbs x pk) = BoxSt.hideR (BoxSt.addChangeTree cbs y pk') := by
  obtain ⟨c, hx, s⟩ := x; obtain ⟨c', hy, s'⟩ := y
  simp only [BoxSt.hide, BoxSt.mk.injEq, true_and] at h
  obtain ⟨rfl, rfl⟩ := h
  unfold BoxSt.addChangeTree
  simp only
  split_ifs
  · rfl
  · exact BoxSt.treeAdded_hide cbs rfl

theorem boxPart_hides {f f' : BoxSt Acc → BoxSt Acc × Res BoxErr}
    (hf : ∀ x : BoxSt Acc, BoxSt.hideR (f x) = BoxSt.hideR (f' x)) (x : FullSt) :
    FullSt.hideR (x.boxPart f) = FullSt.hideR (x.boxPart f') := by
  obtain ⟨c, h, s⟩ := x
  simp only [FullSt.boxPart]
  by_cases hc : c.state ≠ .outputsStarted
  · rw [if_pos hc, if_pos hc]
  rw [if_neg hc, if_neg hc]
  cases c.sub with
  | zeroed => rfl
  | input b => rfl
  | box b =>
    have hl := hf ⟨b, h, s⟩
    simp only
    generalize f ⟨b, h, s⟩ = r at hl
    generalize f' ⟨b, h, s⟩ = r' at hl
    obtain ⟨⟨c1, h1, s⟩, r⟩ := r
    obtain ⟨⟨c2, h2, s'⟩, r'⟩ := r'
    simp only [BoxSt.hideR, BoxSt.hide, Prod.mk.injEq, BoxSt.mk.injEq, true_and] at hl
    obtain ⟨⟨rfl, rfl⟩, rfl⟩ := hl
    cases r with
    | ok =>
      simp only
      split_ifs
      · exact outputFinished_hide _ _ rfl
      · rfl
    | more => rfl
    | err e => rfl
    | ub => rfl

theorem withOut_masks {f f' : FullSt → FullSt × Res FullErr} (g : OutInfo → Bool → OutRes)
    (hf : ∀ x : FullSt, FullSt.hideR (f x) = FullSt.hideR (f' x)) (p : P2pk) :
    (p.withOut f g).mask = (p.withOut f' g).mask := by
  obtain ⟨st, k, path, h, nw, a, u⟩ := p
  simp only [P2pk.withOut]
  by_cases hs : st ≠ .outputsStarted
  · rw [if_pos hs, if_pos hs]
  rw [if_neg hs, if_neg hs]
  cases u with
  | zero => rfl
  | uiApprove t => rfl
  | uiConfirm => rfl
  | transaction t =>
    simp only
    cases t.out with
    | none => rfl
    | some o =>
      have hl := hf ⟨t.tx, h, ⟨a, o⟩⟩
      simp only
      generalize f ⟨t.tx, h, _⟩ = r at hl
      generalize f' ⟨t.tx, h, _⟩ = r' at hl
      obtain ⟨⟨c1, h1, s⟩, r⟩ := r
      obtain ⟨⟨c2, h2, s'⟩, r'⟩ := r'
      simp only [FullSt.hideR, FullSt.hide, Prod.mk.injEq, FullSt.mk.injEq, true_and] at hl
      obtain ⟨⟨rfl, rfl⟩, rfl⟩ := hl
      cases r with
      | err e => rfl
      | ub => rfl
      | ok => simp only; split <;> rfl
      | more => simp only; split <;> rfl

theorem opChange_veil {env env' : Env} (he : OtherWallet env env') (hwf : env.WF) (hwf' : env'.WF)
    (p : P2pk) (data : Bytes) : (opChange env' p data).mask = (opChange env p data).mask := by
  unfold opChange
  cases readPath data with
  | none => rfl
  | some r =>
    obtain ⟨path, rest⟩ := r
    simp only
    by_cases hv : pathValidate path .addressGe5 = true
    case neg => rw [if_pos hv, if_pos hv]
    · rw [if_neg (fun h => h hv), if_neg (fun h => h hv)]
      rcases he.keys hwf hwf' path with ⟨h1, h2⟩ | ⟨pub, chain, pub', chain', h1, h2, _⟩
      · rw [h1, h2]
      · rw [h1, h2, otherWallet_eq he]
        exact withOut_masks _ (fun x => boxPart_hides (fun y => BoxSt.addChangeTree_hides _ rfl _ _) x) p

theorem signSub_veil {env env' : Env} (he : OtherWallet env env') (hwf : env.WF) (hwf' : env'.WF)
    (d : Device) (sub session : UInt8) (data : Bytes) :
    maskR (d.signSub env' sub session data) = maskR (d.signSub env sub session data) := by
  have hee := otherWallet_eq he
  unfold Device.signSub
  refine maskR_ite rfl ?_
  cases hc : d.ctx with
  | sign x =>
    simp only
    have e : maskR (d.signShow x (opChange env' x.p data)) = maskR (d.signShow x (opChange env x.p data)) := by
      obtain ⟨ca, key, cmd, busy, ctx, screen⟩ := d
      simp only at hc
      subst hc
      exact signShow_mask rfl (opChange_veil he hwf hwf' x.p data)
    refine maskR_ite rfl (maskR_ite rfl ?_)
    refine maskR_ite rfl ?_
    refine maskR_ite rfl ?_
    refine maskR_ite (by rw [hee]; rfl) ?_
    refine maskR_ite rfl ?_
    refine maskR_ite rfl ?_
    refine maskR_ite rfl ?_
    refine maskR_ite (by rw [hee]; rfl) ?_
    refine maskR_ite (by rw [hee]; rfl) ?_
    refine maskR_ite e ?_
    refine maskR_ite (by rw [hee]; rfl) ?_
    exact maskR_ite (by rw [hee]; rfl) rfl
  | _ => rfl

theorem signTransaction_veil {env env' : Env} (he : OtherWallet env env') (hwf : env.WF) (hwf' : env'.WF)
    {r r' : Rnd} (hn : ∀ path : List UInt32, path.length ≤ 10 → nonceFound env r path = nonceFound env' r' path)
    (hr : r.u8s = r'.u8s) {d d' : Device} (h : d.mask = d'.mask) (sub p2 : UInt8) (data : Bytes) :
    maskR (d'.signTransaction env' sub p2 data r') = maskR (d.signTransaction env sub p2 data r) := by
  rw [← signTransaction_mask env' h]
  unfold Device.signTransaction
  exact maskR_ite rfl (maskR_ite (maskR_ite rfl (signStart_secrets hn hr d data _))
    (maskR_ite (signSub_veil he hwf hwf' d sub p2 data) rfl))

theorem VeilOutcome.ite {d : Device} {c : Prop} [Decidable c] {a a' b b' : Device × Reply} (h1 : VeilOutcome d a a')
    (h2 : VeilOutcome d b b') : VeilOutcome d (if c then a else b) (if c then a' else b') := by
  by_cases hc : c
  · rw [if_pos hc, if_pos hc]; exact h1
  · rw [if_neg hc, if_neg hc]; exact h2

/-- A command to two devices with nothing secret on display. -/
theorem apdu_veil {env env' : Env} (he : OtherWallet env env') (hwf : env.WF) (hwf' : env'.WF) (nanoS : Bool)
    {r r' : Rnd} (hn : ∀ path : List UInt32, path.length ≤ 10 → nonceFound env r path = nonceFound env' r' path)
    (hr : r.u8s = r'.u8s) {d d' : Device} (h : d.mask = d'.mask) (cla ins p1 p2 : UInt8) (data : Bytes) :
    VeiledR (d.step env nanoS (.apdu cla ins p1 p2 data r)) (d'.step env' nanoS (.apdu cla ins p1 p2 data r')) ∨
      cla = 0xE0 ∧ (ins = 0x10 ∨ ins = 0x11) ∧ d.connectedApp ≠ 0 ∧
        Gives (d.step env nanoS (.apdu cla ins p1 p2 data r)) (d'.step env' nanoS (.apdu cla ins p1 p2 data r')) := by
  have h0 : ∀ x, VeiledR (d, x) (d', x) := fun x => ⟨.same h, rfl⟩
  have hat : VeiledR (d.attestInput env p1 p2 data r) (d'.attestInput env' p1 p2 data r') := by
    apply VeiledR.of
    rw [← attestInput_mask env' h, otherWallet_eq he, attestInput_secrets d p1 p2 data r r' hr]
  have hsi : VeiledR (d.signTransaction env p1 p2 data r) (d'.signTransaction env' p1 p2 data r') :=
    VeiledR.of (signTransaction_veil he hwf hwf' hn hr h p1 p2 data)
  unfold Device.step Device.dispatch
  dsimp only
  rw [he.name, he.version]
  by_cases c0 : data.length > 255
  · rw [if_pos c0, if_pos c0]; exact .inl (h0 _)
  rw [if_neg c0, if_neg c0]
  by_cases c1 : cla ≠ 0xE0
  · rw [if_pos c1, if_pos c1]; exact .inl (h0 _)
  rw [if_neg c1, if_neg c1]
  have hcla : cla = 0xE0 := by simpa using c1
  by_cases c2 : ins = 0x01
  · rw [if_pos c2, if_pos c2]; exact .inl (.ite (h0 _) (h0 _))
  rw [if_neg c2, if_neg c2]
  by_cases c3 : ins = 0x02
  · rw [if_pos c3, if_pos c3]; exact .inl (.ite (h0 _) (h0 _))
  rw [if_neg c3, if_neg c3]
  by_cases c4 : ins = 0x10
  · rw [if_pos c4, if_pos c4]
    have := VeilOutcome.ite (d := d) (c := p1 = 0 ∨ p1 > 2 ∨ p2 > 0) (.inl (h0 (status Sw.wrongP1P2)))
      (extPubKey_veil he hwf hwf' h data (p1 = 2))
    exact this.imp id (fun x => ⟨hcla, .inl c4, x.2, x.1⟩)
  rw [if_neg c4, if_neg c4]
  by_cases c5 : ins = 0x11
  · rw [if_pos c5, if_pos c5]
    have := VeilOutcome.ite (d := d) (c := p1 = 0 ∨ p1 > 2 ∨ p2 = 0 ∨ p2 > 2) (.inl (h0 (status Sw.wrongP1P2)))
      (deriveAddress_veil he hwf hwf' h data (p1 = 2) (p2 = 2))
    exact this.imp id (fun x => ⟨hcla, .inr c5, x.2, x.1⟩)
  rw [if_neg c5, if_neg c5]
  exact .inl (.ite (.ite (h0 _) hat) (.ite (.ite (h0 _) hsi) (h0 _)))

/-! ## Buttons -/

/-- Pressing both buttons, by the step on display. -/
theorem both_eq (env : Env) (d : Device) (s : Screen) : d.both env s = (match s.flow.here with
    | .approve => d.act env s.cb true
    | .reject => d.act env s.cb false
    | .pathApprove _ => d.act env s.cb true
    | _ => (d, .wait)) := rfl

/-- One step of two devices with different wallets. -/
theorem step_veil {env env' : Env} (he : OtherWallet env env') (hwf : env.WF) (hwf' : env'.WF)
    (nanoS : Bool) {d d' : Device} (h : Veiled d d') {e e' : Event} (hev : SameEvent env env' e e') :
    VeiledR (d.step env nanoS e) (d'.step env' nanoS e') ∨
      (∃ ins p1 p2 data rnd, e = .apdu 0xE0 ins p1 p2 data rnd ∧ (ins = 0x10 ∨ ins = 0x11) ∧
        d.connectedApp ≠ 0 ∧ Gives (d.step env nanoS e) (d'.step env' nanoS e')) ∨
      (e = .both ∧ (d.here = some .approve ∨ ∃ p, d.here = some (.pathApprove p)) ∧
        (∃ s, d.screen = some s ∧
          (s.cb = .extPubKey ∨ s.cb = .deriveAddress ∧ ∃ x, d.ctx = .derive x ∧ x.send = true)) ∧
        Gives (d.step env nanoS e) (d'.step env' nanoS e')) ∨
      e = .both ∧ (d.here = some .approve ∨ ∃ p, d.here = some (.pathApprove p)) ∧
        (∃ s, d.screen = some s ∧ s.cb = .signTx) ∧
        (d'.step env' nanoS e').1.mask = (d.step env nanoS e).1.mask ∧
        (∃ sw out, (d.step env nanoS e).2 = .sw sw out) ∧ ∃ sw out, (d'.step env' nanoS e').2 = .sw sw out := by
  cases h with
  | same h =>
    cases hev with
    | @apdu cla ins p1 p2 data u8s keys keys' hn =>
      rcases apdu_veil he hwf hwf' nanoS hn rfl h cla ins p1 p2 data with h1 | ⟨rfl, h1, h2, h3⟩
      · exact .inl h1
      · exact .inr (.inl ⟨_, _, _, _, _, rfl, h1, h2, h3⟩)
    | left =>
      rcases step_secrets_of (otherWallet_eq he) nanoS h (.left) (by intros; contradiction) with h1 | ⟨h1, _⟩
      · exact .inl (.of h1)
      · contradiction
    | right =>
      rcases step_secrets_of (otherWallet_eq he) nanoS h (.right) (by intros; contradiction) with h1 | ⟨h1, _⟩
      · exact .inl (.of h1)
      · contradiction
    | both =>
      rcases step_secrets_of (otherWallet_eq he) nanoS h (.both) (by intros; contradiction) with h1 | h1
      · exact .inl (.of h1)
      · exact .inr (.inr (.inr h1))
  | @«export» ca key cmd s x x' hc ht hl =>
    have hv : Veiled ⟨ca, key, cmd, true, .extPub x, some s⟩ ⟨ca, key, cmd, true, .extPub x', some s⟩ :=
      .export x x' hc ht hl
    have hmove : ∀ m : Move, VeiledR (Device.move env nanoS ⟨ca, key, cmd, true, .extPub x, some s⟩ s m)
        (Device.move env' nanoS ⟨ca, key, cmd, true, .extPub x', some s⟩ s m) := by
      intro m
      unfold Device.move
      cases m.draw with
      | none => exact ⟨.export x x' hc ht hl, rfl⟩
      | some k => simp only [Device.show, hc]; exact ⟨hv, rfl⟩
    cases hev with
    | apdu hn => exact .inl (busy_apdu_veil env nanoS rfl rfl hv he.name he.version _ _ _ _ _ _ _)
    | left => exact .inl (hmove _)
    | right => exact .inl (hmove _)
    | both =>
      have hact : Gives (Device.act env ⟨ca, key, cmd, true, .extPub x, some s⟩ s.cb true)
          (Device.act env' ⟨ca, key, cmd, true, .extPub x', some s⟩ s.cb true) := by
        simp only [Device.act, hc, Device.actExtPubKey, if_true, ht]
        exact ⟨rfl, _, _, rfl, rfl, hl⟩
      simp only [Device.step, both_eq, Device.here, Option.map_some]
      cases hh : s.flow.here with
      | approve => exact .inr (.inr (.inl ⟨trivial, .inl rfl, ⟨s, rfl, .inl hc⟩, hact⟩))
      | pathApprove p => exact .inr (.inr (.inl ⟨trivial, .inr ⟨p, rfl⟩, ⟨s, rfl, .inl hc⟩, hact⟩))
      | reject => left; simp only [Device.act, hc]; exact ⟨.same rfl, rfl⟩
      | _ => exact .inl ⟨hv, rfl⟩
  | @address ca key cmd f f' x x' hf ht hs hl =>
    have hv : Veiled ⟨ca, key, cmd, true, .derive x, some ⟨f, .deriveAddress⟩⟩
        ⟨ca, key, cmd, true, .derive x', some ⟨f', .deriveAddress⟩⟩ := .address x x' hf ht hs hl
    have hmove : ∀ m m' : Move, m.flow.veil = m'.flow.veil ∧ m.draw = m'.draw →
        VeiledR (Device.move env nanoS ⟨ca, key, cmd, true, .derive x, some ⟨f, .deriveAddress⟩⟩
          ⟨f, .deriveAddress⟩ m)
        (Device.move env' nanoS ⟨ca, key, cmd, true, .derive x', some ⟨f', .deriveAddress⟩⟩
          ⟨f', .deriveAddress⟩ m') := by
      rintro m m' ⟨h1, h2⟩
      unfold Device.move
      rw [h2]
      cases m'.draw with
      | none => exact ⟨.address x x' h1 ht hs hl, rfl⟩
      | some k => exact ⟨hv, rfl⟩
    cases hev with
    | apdu hn => exact .inl (busy_apdu_veil env nanoS rfl rfl hv he.name he.version _ _ _ _ _ _ _)
    | left => exact .inl (hmove _ _ (Flow.left_veil hf))
    | right => exact .inl (hmove _ _ (Flow.right_veil hf))
    | both =>
      have hact : x.send = true ∧
          Gives (Device.act env ⟨ca, key, cmd, true, .derive x, some ⟨f, .deriveAddress⟩⟩ .deriveAddress true)
          (Device.act env' ⟨ca, key, cmd, true, .derive x', some ⟨f', .deriveAddress⟩⟩ .deriveAddress true) ∨
          VeiledR (Device.act env ⟨ca, key, cmd, true, .derive x, some ⟨f, .deriveAddress⟩⟩ .deriveAddress true)
          (Device.act env' ⟨ca, key, cmd, true, .derive x', some ⟨f', .deriveAddress⟩⟩ .deriveAddress true) := by
        simp only [Device.act, Device.actDerive, if_true, ht]
        by_cases hx : x.send = true
        · rw [← hs, if_pos hx, if_pos hx]
          exact .inl ⟨hx, rfl, _, _, rfl, rfl, hl⟩
        · rw [← hs, if_neg hx, if_neg hx]
          exact .inr ⟨.same rfl, rfl⟩
      simp only [Device.step, both_eq, Device.here, Option.map_some]
      rcases FlowStep.veil_eq (Flow.here_veil hf) with hh | ⟨t, t', h1, h2⟩
      · rw [← hh]
        cases hh : f.here with
        | approve =>
          rcases hact with ⟨h1, h2⟩ | h1
          · exact .inr (.inr (.inl ⟨trivial, .inl rfl, ⟨_, rfl, .inr ⟨rfl, x, rfl, h1⟩⟩, h2⟩))
          · exact .inl h1
        | pathApprove p =>
          rcases hact with ⟨h1, h2⟩ | h1
          · exact .inr (.inr (.inl ⟨trivial, .inr ⟨p, rfl⟩, ⟨_, rfl, .inr ⟨rfl, x, rfl, h1⟩⟩, h2⟩))
          · exact .inl h1
        | reject => exact .inl ⟨.same rfl, rfl⟩
        | _ => exact .inl ⟨hv, rfl⟩
      · rw [h1, h2]; exact .inl ⟨hv, rfl⟩

end Ergo
