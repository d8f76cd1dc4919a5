import Verif.Proof.MaskDevice
import Verif.Proof.Inv
/-!
# The same step with different secrets
-/
namespace Ergo
open Spec

/-- An environment that differs in private keys and curve operations only. -/
abbrev Env.other (env : Env) (D : List UInt32 → Option (Bytes × Bytes)) (P M : Bytes → Option Bytes) : Env :=
  { env with derive := D, pubOf := P, mulG := M }

theorem samePublic_eq {env env' : Env} (h : SamePublic env env') :
    env' = env.other env'.derive env'.pubOf env'.mulG := by
  obtain ⟨b, hm, d, p, m, n, v⟩ := env
  obtain ⟨b', hm', d', p', m', n', v'⟩ := env'
  obtain ⟨e1, e2, e3, e4, _⟩ := h
  simp only at e1 e2 e3 e4
  subst e1 e2 e3 e4
  rfl

variable {env : Env} {D : List UInt32 → Option (Bytes × Bytes)} {P M : Bytes → Option Bytes}

theorem extPubKey_secrets (hp : ∀ path, (env.other D P M).genPublic path = env.genPublic path) (d : Device)
    (data : Bytes) (t : Bool) : d.extPubKey (env.other D P M) data t = d.extPubKey env data t := by
  unfold Device.extPubKey
  simp only [hp]

theorem deriveAddress_secrets (hp : ∀ path, (env.other D P M).genPublic path = env.genPublic path) (d : Device)
    (data : Bytes) (a t : Bool) :
    d.deriveAddress (env.other D P M) data a t = d.deriveAddress env data a t := by
  unfold Device.deriveAddress
  simp only [hp]
  rfl

theorem attestInput_secrets (d : Device) (sub p2 : UInt8) (data : Bytes) (r r' : Rnd) (hr : r.u8s = r'.u8s) :
    d.attestInput (env.other D P M) sub p2 data r' = d.attestInput env sub p2 data r := by
  have e : d.attestStart data (p2 = 0x02) r' = d.attestStart data (p2 = 0x02) r := by
    unfold Device.attestStart; rw [hr]
  unfold Device.attestInput
  rw [e]
  rfl

theorem opChange_secrets (hp : ∀ path, (env.other D P M).genPublic path = env.genPublic path) (p : P2pk)
    (data : Bytes) : opChange (env.other D P M) p data = opChange env p data := by
  unfold opChange
  simp only [hp]
  rfl

theorem signSub_secrets (hp : ∀ path, (env.other D P M).genPublic path = env.genPublic path) (d : Device)
    (sub session : UInt8) (data : Bytes) :
    d.signSub (env.other D P M) sub session data = d.signSub env sub session data := by
  unfold Device.signSub
  simp only [opChange_secrets hp]
  rfl

theorem p2pkInit_secrets {env env' : Env} {path : List UInt32} {r r' : Rnd}
    (hn : nonceFound env r path = nonceFound env' r' path)
    (network : UInt8) :
    (p2pkInit env' path network r'.keys).mask = (p2pkInit env path network r.keys).mask := by
  unfold p2pkInit
  by_cases h1 : ¬ pathValidate path .addressGe5 = true
  · rw [if_pos h1, if_pos h1]
  rw [if_neg h1, if_neg h1]
  by_cases h2 : ¬ networkSupported network = true
  · rw [if_pos h2, if_pos h2]
  rw [if_neg h2, if_neg h2]
  unfold nonceFound at hn
  cases he : env.genPrivate path with
  | none =>
    cases he' : env'.genPrivate path with
    | none => rfl
    | some s' =>
      rw [he, he'] at hn
      simp only at hn ⊢
      cases hs' : schnorrInit env' s' r'.keys with
      | none => rfl
      | some x => rw [hs'] at hn; simp at hn
  | some s =>
    cases he' : env'.genPrivate path with
    | none =>
      rw [he, he'] at hn
      simp only at hn ⊢
      cases hs : schnorrInit env s r.keys with
      | none => rfl
      | some x => rw [hs] at hn; simp at hn
    | some s' =>
      rw [he, he'] at hn
      simp only at hn ⊢
      cases hs : schnorrInit env s r.keys with
      | none =>
        cases hs' : schnorrInit env' s' r'.keys with
        | none => rfl
        | some x => rw [hs, hs'] at hn; simp at hn
      | some x =>
        cases hs' : schnorrInit env' s' r'.keys with
        | none => rw [hs, hs'] at hn; simp at hn
        | some x => rfl

theorem signInit_path_len {d : Bytes} {b : Bool} {n : UInt8} {path : List UInt32} {token : UInt32}
    (h : parseSignInit d b = .ok (n, path, token)) : path.length ≤ 10 := by
  unfold parseSignInit at h
  split at h
  · simp at h
  split at h
  · simp at h
  rename_i path' d2 h2
  split at h
  · simp at h
  split at h
  · simp at h
  simp only [Except.ok.injEq, Prod.mk.injEq] at h
  obtain ⟨rfl, rfl, rfl⟩ := h
  exact (readPath_some h2).2

theorem signStart_secrets {env env' : Env} {r r' : Rnd}
    (hn : ∀ path : List UInt32, path.length ≤ 10 → nonceFound env r path = nonceFound env' r' path) (hr : r.u8s = r'.u8s) (d : Device)
    (data : Bytes) (t : Bool) :
    maskR (d.signStart env' data t r') = maskR (d.signStart env data t r) := by
  unfold Device.signStart
  cases hps : parseSignInit data t with
  | error e => rfl
  | ok x =>
    obtain ⟨network, path, token⟩ := x
    have h := p2pkInit_secrets (hn path (signInit_path_len hps)) network
    simp only
    rcases opRes_cases h with ⟨p, q, h1, h2, hm⟩ | ⟨e, h1, h2⟩ | ⟨h1, h2⟩ <;> rw [h1, h2]
    simp only [hr]
    cases newSession 0 r'.u8s with
    | none => rfl
    | some s =>
      simp only
      cases pathFormat path bip32StrLen with
      | none => rfl
      | some t =>
        obtain ⟨e1, e2, e3, e4, e5⟩ := mask_fields hm
        simp only [maskR, Device.mask, Ctx.mask, Device.display, P2pk.mask, e1, e2, e3, e4]

theorem signTransaction_secrets (hp : ∀ path, (env.other D P M).genPublic path = env.genPublic path)
    {r r' : Rnd} (hn : ∀ path : List UInt32, path.length ≤ 10 → nonceFound env r path = nonceFound (env.other D P M) r' path)
    (hr : r.u8s = r'.u8s) (d : Device) (sub p2 : UInt8) (data : Bytes) :
    maskR (d.signTransaction (env.other D P M) sub p2 data r') =
      maskR (d.signTransaction env sub p2 data r) := by
  unfold Device.signTransaction
  refine maskR_ite rfl (maskR_ite (maskR_ite rfl (signStart_secrets hn hr d data _)) (maskR_ite ?_ rfl))
  rw [signSub_secrets hp]

theorem apdu_secrets (nanoS : Bool) (hp : ∀ path, (env.other D P M).genPublic path = env.genPublic path)
    {r r' : Rnd} (hn : ∀ path : List UInt32, path.length ≤ 10 → nonceFound env r path = nonceFound (env.other D P M) r' path)
    (hr : r.u8s = r'.u8s) (d : Device) (cla ins p1 p2 : UInt8) (data : Bytes) :
    maskR (d.step (env.other D P M) nanoS (.apdu cla ins p1 p2 data r')) =
      maskR (d.step env nanoS (.apdu cla ins p1 p2 data r)) := by
  unfold Device.step Device.dispatch
  refine maskR_ite rfl <| maskR_ite rfl <| maskR_ite rfl <| maskR_ite rfl <|
    maskR_ite (maskR_ite rfl ?_) <| maskR_ite (maskR_ite rfl ?_) <|
    maskR_ite (maskR_ite rfl ?_) <| maskR_ite (maskR_ite rfl ?_) rfl
  · rw [extPubKey_secrets hp]
  · rw [deriveAddress_secrets hp]
  · rw [attestInput_secrets d p1 p2 data r r' hr]
  · exact signTransaction_secrets hp hn hr d p1 p2 data

/-- Approving or rejecting, except approving the signature. -/
theorem act_mask (env env' : Env) {d d' : Device} (h : d.mask = d'.mask) (cb : Callback) (ok : Bool)
    (hcb : cb ≠ .signTx ∨ ok = false) : maskR (d'.act env' cb ok) = maskR (d.act env cb ok) := by
  refine device_cases h (P := fun d d' => maskR (d'.act env' cb ok) = maskR (d.act env cb ok)) ?_ ?_
  · intro d hd
    unfold Device.act
    cases hc : d.ctx with
    | sign x => exact absurd hc (hd x)
    | _ => cases cb <;> rfl
  · intro ca key cmd busy app ses p q screen hm
    obtain ⟨e1, e2, e3, e4, e5⟩ := mask_fields hm
    unfold Device.act
    cases cb with
    | signInit =>
      simp only [Device.actSignInit, ← e5]
      cases p.u with
      | uiApprove t =>
        simp only
        exact maskR_ite (by simp only [maskR, Device.mask, Ctx.mask, Device.menu, hm]) rfl
      | _ => simp only [maskR, Device.mask, Ctx.mask, hm]
    | signOutput =>
      simp only [Device.actSignOutput, ← e5]
      cases p.u with
      | transaction t =>
        simp only
        cases t.out with
        | none => simp only [maskR, Device.mask, Ctx.mask, hm]
        | some o =>
          refine maskR_ite ?_ rfl
          split
          · simp only [maskR, Device.mask, Ctx.mask, hm]
          · simp only [maskR, Device.mask, Ctx.mask, Device.menu, P2pk.mask, e1, e2, e3, e4]
      | _ => simp only [maskR, Device.mask, Ctx.mask, hm]
    | signTx =>
      rcases hcb with hcb | rfl
      · exact absurd rfl hcb
      · rfl
    | _ => simp only [maskR, Device.mask, Ctx.mask, hm]

theorem show_secrets (nanoS : Bool) (d : Device) (cb : Callback) (k : Nat) :
    d.show (env.other D P M) nanoS cb k = d.show env nanoS cb k := rfl

/-- One step of two devices that differ in secrets: the same visible result, except for the reply when
the signature is approved; the commands are given by `ha`. -/
theorem step_secrets_of {env env' : Env} (hee : env' = env.other env'.derive env'.pubOf env'.mulG)
    (nanoS : Bool) {d d' : Device} (h : d.mask = d'.mask) {e e' : Event} (hev : SameEvent env env' e e')
    (ha : ∀ cla ins p1 p2 data rnd, e = .apdu cla ins p1 p2 data rnd →
      maskR (d'.step env' nanoS e') = maskR (d.step env nanoS e)) :
    maskR (d'.step env' nanoS e') = maskR (d.step env nanoS e) ∨
      e = .both ∧ (d.here = some .approve ∨ ∃ p, d.here = some (.pathApprove p)) ∧ (∃ s, d.screen = some s ∧ s.cb = .signTx) ∧
        (d'.step env' nanoS e').1.mask = (d.step env nanoS e).1.mask ∧
        (∃ sw out, (d.step env nanoS e).2 = .sw sw out) ∧ ∃ sw out, (d'.step env' nanoS e').2 = .sw sw out := by
  have hsc := screen_mask h
  cases hev with
  | apdu hn => exact .inl (ha _ _ _ _ _ _ rfl)
  | left =>
    left
    simp only [Device.step, hsc]
    cases hs : d'.screen with
    | none => exact (maskR_same h _).symm
    | some s => rw [hee]; exact (move_mask env nanoS h s _).symm
  | right =>
    left
    simp only [Device.step, hsc]
    cases hs : d'.screen with
    | none => exact (maskR_same h _).symm
    | some s => rw [hee]; exact (move_mask env nanoS h s _).symm
  | both =>
    simp only [Device.step, hsc, Device.here]
    cases hs : d'.screen with
    | none => exact .inl (maskR_same h _).symm
    | some s =>
      have key : ∀ ok : Bool, (ok = true → s.flow.here = .approve ∨ ∃ p, s.flow.here = .pathApprove p) →
          maskR (d'.act env' s.cb ok) = maskR (d.act env s.cb ok) ∨
          (s.flow.here = .approve ∨ ∃ p, s.flow.here = .pathApprove p) ∧ s.cb = .signTx ∧
            (d'.act env' s.cb ok).1.mask = (d.act env s.cb ok).1.mask ∧
            (∃ sw out, (d.act env s.cb ok).2 = .sw sw out) ∧
            ∃ sw out, (d'.act env' s.cb ok).2 = .sw sw out := by
        intro ok hok
        cases ok with
        | false => exact .inl (act_mask env env' h s.cb false (.inr rfl))
        | true =>
          by_cases hcb : s.cb = .signTx
          · rw [hcb]
            refine device_cases h (P := fun d d' => maskR (d'.act env' .signTx true) =
              maskR (d.act env .signTx true) ∨
              (s.flow.here = .approve ∨ ∃ p, s.flow.here = .pathApprove p) ∧ Callback.signTx = .signTx ∧
                (d'.act env' .signTx true).1.mask = (d.act env .signTx true).1.mask ∧
                (∃ sw out, (d.act env .signTx true).2 = .sw sw out) ∧
                ∃ sw out, (d'.act env' .signTx true).2 = .sw sw out) ?_ ?_
            · intro d hd
              left
              unfold Device.act
              cases hc : d.ctx with
              | sign x => exact absurd hc (hd x)
              | _ => rfl
            · intro ca ky cmd busy app ses p q screen hm
              right
              refine ⟨hok rfl, rfl, ?_⟩
              have e : ∀ (env : Env) (p : P2pk), ∃ sw out, Device.act env
                  ⟨ca, ky, cmd, busy, .sign ⟨app, ses, p⟩, screen⟩ .signTx true =
                  (⟨ca, ky, .none, false, .zeroed, none⟩, .sw sw out) := by
                intro env p
                simp only [Device.act, Device.actSignTx, if_true]
                cases p.sendResponse env with
                | ok sig => exact ⟨_, _, rfl⟩
                | error e => exact ⟨_, _, rfl⟩
              obtain ⟨sw, out, e1⟩ := e env p
              obtain ⟨sw', out', e2⟩ := e env' q
              rw [e1, e2]
              exact ⟨rfl, ⟨_, _, rfl⟩, _, _, rfl⟩
          · exact .inl (act_mask env env' h s.cb true (.inl hcb))
      have fin : ∀ ok : Bool, (ok = true → s.flow.here = .approve ∨ ∃ p, s.flow.here = .pathApprove p) →
          (∀ env d, Device.both env d s = d.act env s.cb ok) →
          maskR (d'.both env' s) = maskR (d.both env s) ∨
          True ∧ (some s.flow.here = some .approve ∨ ∃ p, some s.flow.here = some (.pathApprove p)) ∧
            (∃ s', some s = some s' ∧ s'.cb = .signTx) ∧
            (d'.both env' s).1.mask = (d.both env s).1.mask ∧
            (∃ sw out, (d.both env s).2 = .sw sw out) ∧ ∃ sw out, (d'.both env' s).2 = .sw sw out := by
        intro ok hok hb
        rw [hb, hb]
        rcases key ok hok with h1 | ⟨h1, h2, h3⟩
        · exact .inl h1
        · exact .inr ⟨trivial, h1.imp (congrArg some) (fun ⟨p, e⟩ => ⟨p, congrArg some e⟩),
            ⟨s, rfl, h2⟩, h3⟩
      simp only [Option.map_some, true_and]
      simp only [true_and] at fin
      have hbt : ∀ env d, Device.both env d s = (match s.flow.here with
        | .approve => d.act env s.cb true
        | .reject => d.act env s.cb false
        | .pathApprove _ => d.act env s.cb true
        | _ => (d, .wait)) := fun _ _ => rfl
      cases hh : s.flow.here with
      | approve => rw [hh] at fin hbt; exact fin true (fun _ => .inl rfl) hbt
      | reject => rw [hh] at fin hbt; exact fin false (by simp) hbt
      | pathApprove p => rw [hh] at fin hbt; exact fin true (fun _ => .inr ⟨p, rfl⟩) hbt
      | _ => rw [hh] at hbt; left; rw [hbt, hbt]; exact (maskR_same h _).symm

/-- One step of two devices that differ in secrets: the same visible result, except for the reply when
the signature is approved. -/
theorem step_secrets {env env' : Env} (he : SamePublic env env') (nanoS : Bool) {d d' : Device}
    (h : d.mask = d'.mask) {e e' : Event} (hev : SameEvent env env' e e') :
    maskR (d'.step env' nanoS e') = maskR (d.step env nanoS e) ∨
      e = .both ∧ (d.here = some .approve ∨ ∃ p, d.here = some (.pathApprove p)) ∧ (∃ s, d.screen = some s ∧ s.cb = .signTx) ∧
        (d'.step env' nanoS e').1.mask = (d.step env nanoS e).1.mask ∧
        (∃ sw out, (d.step env nanoS e).2 = .sw sw out) ∧ ∃ sw out, (d'.step env' nanoS e').2 = .sw sw out := by
  have hp := he.pub
  have hee := samePublic_eq he
  refine step_secrets_of hee nanoS h hev ?_
  rintro cla ins p1 p2 data rnd rfl
  cases hev with
  | apdu hn =>
    rw [← apdu_mask env' nanoS h]
    rw [hee] at hp hn ⊢
    exact apdu_secrets nanoS hp hn rfl d _ _ _ _ _

end Ergo
