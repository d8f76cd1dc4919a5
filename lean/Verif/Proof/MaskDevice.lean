import Verif.Proof.Mask
import Verif.Spec.Secrets
/-!
# Steps of two devices that differ in secrets only
-/
namespace Ergo
open Spec

/-- Erase the ephemeral key and the hashed bytes of a signing session. -/
def Ctx.mask : Ctx → Ctx
  | .sign x => .sign { x with p := x.p.mask }
  | c => c
/-- The same for the device. -/
def Device.mask (d : Device) : Device := { d with ctx := d.ctx.mask }
/-- The same for the result of a step. -/
def maskR (r : Device × Reply) : Device × Reply := (r.1.mask, r.2)

/-- Two masked-equal devices: equal except for a signing context. -/
theorem device_cases {d d' : Device} (h : d.mask = d'.mask) {P : Device → Device → Prop}
    (h1 : ∀ d, (∀ x, d.ctx ≠ .sign x) → P d d)
    (h2 : ∀ ca key cmd busy app ses p q screen, p.mask = q.mask →
      P ⟨ca, key, cmd, busy, .sign ⟨app, ses, p⟩, screen⟩ ⟨ca, key, cmd, busy, .sign ⟨app, ses, q⟩, screen⟩) :
    P d d' := by
  obtain ⟨ca, key, cmd, busy, ctx, screen⟩ := d
  obtain ⟨ca', key', cmd', busy', ctx', screen'⟩ := d'
  simp only [Device.mask, Device.mk.injEq] at h
  obtain ⟨rfl, rfl, rfl, rfl, hc, rfl⟩ := h
  cases ctx with
  | sign x =>
    cases ctx' with
    | sign y =>
      obtain ⟨a, s, p⟩ := x
      obtain ⟨a', s', q⟩ := y
      simp only [Ctx.mask, Ctx.sign.injEq, SignCtx.mk.injEq] at hc
      obtain ⟨rfl, rfl, hp⟩ := hc
      exact h2 _ _ _ _ _ _ _ _ _ hp
    | _ => simp [Ctx.mask] at hc
  | _ =>
    cases ctx' with
    | sign y => simp [Ctx.mask] at hc
    | _ =>
      simp only [Ctx.mask, reduceCtorEq, Ctx.attest.injEq, Ctx.derive.injEq, Ctx.extPub.injEq] at hc
      try subst hc
      try exact h1 _ (by simp)

theorem maskR_ite {c : Prop} [Decidable c] {a a' b b' : Device × Reply} (h1 : maskR a = maskR a')
    (h2 : maskR b = maskR b') : maskR (if c then a else b) = maskR (if c then a' else b') := by
  by_cases hc : c
  · rw [if_pos hc, if_pos hc]; exact h1
  · rw [if_neg hc, if_neg hc]; exact h2

theorem signResult_mask {ca key cmd busy app ses screen} {p q : P2pk} (hm : p.mask = q.mask)
    {r r' : OpRes} (h : r.mask = r'.mask) :
    maskR (Device.signResult ⟨ca, key, cmd, busy, .sign ⟨app, ses, p⟩, screen⟩ ⟨app, ses, p⟩ r) =
    maskR (Device.signResult ⟨ca, key, cmd, busy, .sign ⟨app, ses, q⟩, screen⟩ ⟨app, ses, q⟩ r') := by
  rcases opRes_cases h with ⟨p', q', rfl, rfl, hm'⟩ | ⟨e, rfl, rfl⟩ | ⟨rfl, rfl⟩
  · simp only [Device.signResult, maskR, Device.mask, Ctx.mask, hm']
  · rfl
  · simp only [Device.signResult, maskR, Device.mask, Ctx.mask, hm]

theorem mask_fields {p q : P2pk} (h : p.mask = q.mask) :
    p.state = q.state ∧ p.path = q.path ∧ p.network = q.network ∧ p.amounts = q.amounts ∧ p.u = q.u := by
  obtain ⟨st, k, path, hh, nw, a, u⟩ := p
  obtain ⟨st', k', path', hh', nw', a', u'⟩ := q
  simp only [P2pk.mask, P2pk.mk.injEq, true_and] at h
  exact h

theorem signShow_mask {ca key cmd busy app ses screen} {p q : P2pk} (hm : p.mask = q.mask)
    {r r' : OpRes} (h : r.mask = r'.mask) :
    maskR (Device.signShow ⟨ca, key, cmd, busy, .sign ⟨app, ses, p⟩, screen⟩ ⟨app, ses, p⟩ r) =
    maskR (Device.signShow ⟨ca, key, cmd, busy, .sign ⟨app, ses, q⟩, screen⟩ ⟨app, ses, q⟩ r') := by
  rcases opRes_cases h with ⟨p', q', rfl, rfl, hm'⟩ | ⟨e, rfl, rfl⟩ | ⟨rfl, rfl⟩
  · obtain ⟨e1, e2, e3, e4, e5⟩ := mask_fields hm'
    have hs : p'.shouldShow = q'.shouldShow := by simp only [P2pk.shouldShow, e1, e2, e5]
    obtain ⟨st, k, path, hh, nw, a, u⟩ := p'
    obtain ⟨st', k', path', hh', nw', a', u'⟩ := q'
    simp only at e1 e2 e3 e4 e5
    subst e1 e2 e3 e4 e5
    simp only [Device.signShow, hs]
    split
    · simp only [maskR, Device.mask, Ctx.mask, hm]
    · rfl
    · cases u with
      | transaction t =>
        simp only
        cases t.out with
        | none => simp only [maskR, Device.mask, Ctx.mask, hm]
        | some o => rfl
      | _ => simp only [maskR, Device.mask, Ctx.mask, hm]
  · rfl
  · simp only [Device.signShow, maskR, Device.mask, Ctx.mask, hm]

theorem abort_mask {d d' : Device} (h : d.mask = d'.mask) (sw : UInt16) : d.abort sw = d'.abort sw :=
  device_cases h (P := fun d d' => d.abort sw = d'.abort sw) (fun _ _ => rfl)
    (fun _ _ _ _ _ _ _ _ _ _ => rfl)

theorem setCommand_mask {d d' : Device} (h : d.mask = d'.mask) (c : Command) :
    d.setCommand c = d'.setCommand c :=
  device_cases h (P := fun d d' => d.setCommand c = d'.setCommand c) (fun _ _ => rfl)
    (fun _ _ _ _ _ _ _ _ _ _ => rfl)

theorem signSub_mask (env : Env) {d d' : Device} (h : d.mask = d'.mask) (sub session : UInt8) (data : Bytes) :
    maskR (d.signSub env sub session data) = maskR (d'.signSub env sub session data) := by
  refine device_cases h (P := fun d d' => maskR (d.signSub env sub session data) =
    maskR (d'.signSub env sub session data)) (fun _ _ => rfl) ?_
  intro ca key cmd busy app ses p q screen hm
  unfold Device.signSub
  refine maskR_ite rfl ?_
  simp only
  refine maskR_ite rfl (maskR_ite rfl ?_)
  refine maskR_ite (signResult_mask hm (opStart_mask data p q hm)) ?_
  refine maskR_ite (signResult_mask hm (opAddTokens_mask data p q hm)) ?_
  refine maskR_ite (signResult_mask hm (opFrame_mask env key data p q hm)) ?_
  refine maskR_ite (signResult_mask hm (opAddExtension_mask data p q hm)) ?_
  refine maskR_ite (signResult_mask hm (opAddDataInputs_mask data p q hm)) ?_
  refine maskR_ite (signResult_mask hm (opOutput_mask data p q hm)) ?_
  refine maskR_ite (signShow_mask hm (opTree_mask env data p q hm)) ?_
  refine maskR_ite (signShow_mask hm (opFee_mask env data p q hm)) ?_
  refine maskR_ite (signShow_mask hm (opChange_mask env data p q hm)) ?_
  refine maskR_ite (signShow_mask hm (opTokens_mask env data p q hm)) ?_
  refine maskR_ite (signShow_mask hm (opRegisters_mask env data p q hm)) ?_
  · obtain ⟨e1, e2, e3, e4, e5⟩ := mask_fields hm
    simp only [Device.signConfirm, e1, e4]
    split_ifs
    · rfl
    · simp only [maskR, Device.mask, Ctx.mask, Device.display, P2pk.mask, e2, e3, e4]

theorem show_mask (env : Env) (nanoS : Bool) {d d' : Device} (h : d.mask = d'.mask) (cb : Callback)
    (k : Nat) : d.show env nanoS cb k = d'.show env nanoS cb k := by
  refine device_cases h (P := fun d d' => d.show env nanoS cb k = d'.show env nanoS cb k)
    (fun _ _ => rfl) ?_
  intro ca key cmd busy app ses p q screen hm
  obtain ⟨e1, e2, e3, e4, e5⟩ := mask_fields hm
  unfold Device.show
  cases cb <;> simp only [e2, e3, e4, e5]

theorem screen_mask {d d' : Device} (h : d.mask = d'.mask) : d.screen = d'.screen :=
  (congrArg (fun z : Device => z.screen) h :)
theorem busy_mask {d d' : Device} (h : d.mask = d'.mask) : d.busy = d'.busy :=
  (congrArg (fun z : Device => z.busy) h :)

theorem maskR_same {d d' : Device} (h : d.mask = d'.mask) (r : Reply) : maskR (d, r) = maskR (d', r) := by
  simp only [maskR, h]

theorem move_mask (env : Env) (nanoS : Bool) {d d' : Device} (h : d.mask = d'.mask) (s : Screen) (m : Move) :
    maskR (d.move env nanoS s m) = maskR (d'.move env nanoS s m) := by
  have e : ∀ sc : Option Screen, ({ d with screen := sc } : Device).mask =
      ({ d' with screen := sc } : Device).mask := by
    intro sc
    exact device_cases h (P := fun d d' => ({ d with screen := sc } : Device).mask =
      ({ d' with screen := sc } : Device).mask) (fun _ _ => rfl)
      (fun _ _ _ _ _ _ _ _ _ hm => by simp only [Device.mask, Ctx.mask, hm])
  unfold Device.move
  simp only [show_mask env nanoS h]
  cases m.draw with
  | none => exact maskR_same (e _) _
  | some k =>
    simp only
    cases d'.show env nanoS s.cb k with
    | page p => exact maskR_same (e _) _
    | err sw => simp only [setCommand_mask h]
    | ub => exact maskR_same h _

theorem extPubKey_mask (env : Env) {d d' : Device} (h : d.mask = d'.mask) (data : Bytes) (t : Bool) :
    maskR (d.extPubKey env data t) = maskR (d'.extPubKey env data t) := by
  unfold Device.extPubKey
  rw [busy_mask h]
  split_ifs
  · exact maskR_same h _
  · rw [setCommand_mask h]

theorem deriveAddress_mask (env : Env) {d d' : Device} (h : d.mask = d'.mask) (data : Bytes) (a t : Bool) :
    maskR (d.deriveAddress env data a t) = maskR (d'.deriveAddress env data a t) := by
  unfold Device.deriveAddress
  rw [busy_mask h]
  split_ifs
  · exact maskR_same h _
  · rw [setCommand_mask h]

theorem attestInput_mask (env : Env) {d d' : Device} (h : d.mask = d'.mask) (sub p2 : UInt8)
    (data : Bytes) (rnd : Rnd) :
    maskR (d.attestInput env sub p2 data rnd) = maskR (d'.attestInput env sub p2 data rnd) := by
  unfold Device.attestInput
  rw [busy_mask h, abort_mask h, abort_mask h]
  split_ifs
  · exact maskR_same h _
  · rfl
  · unfold Device.attestStart; rw [setCommand_mask h]
  · refine device_cases h (P := fun d d' => maskR (d.attestSub env sub p2 data) =
      maskR (d'.attestSub env sub p2 data)) (fun _ _ => rfl) ?_
    intro ca key cmd busy app ses p q screen hm
    unfold Device.attestSub
    simp only
    split_ifs
    · rfl
    · simp only [maskR, Device.mask, Ctx.mask, hm]
  · rfl

theorem signTransaction_mask (env : Env) {d d' : Device} (h : d.mask = d'.mask) (sub p2 : UInt8)
    (data : Bytes) (rnd : Rnd) :
    maskR (d.signTransaction env sub p2 data rnd) = maskR (d'.signTransaction env sub p2 data rnd) := by
  unfold Device.signTransaction
  rw [busy_mask h, abort_mask h]
  split_ifs
  · exact maskR_same h _
  · exact maskR_same h _
  · unfold Device.signStart; rw [setCommand_mask h]
  · exact signSub_mask env h sub p2 data
  · rfl

/-- Commands do not depend on the erased parts. -/
theorem apdu_mask (env : Env) (nanoS : Bool) {d d' : Device} (h : d.mask = d'.mask)
    (cla ins p1 p2 : UInt8) (data : Bytes) (rnd : Rnd) :
    maskR (d.step env nanoS (.apdu cla ins p1 p2 data rnd)) =
      maskR (d'.step env nanoS (.apdu cla ins p1 p2 data rnd)) := by
  unfold Device.step Device.dispatch
  have h0 := fun r => maskR_same h r
  exact maskR_ite (h0 _) <| maskR_ite (h0 _) <| maskR_ite (maskR_ite (h0 _) (h0 _)) <|
    maskR_ite (maskR_ite (h0 _) (h0 _)) <|
    maskR_ite (maskR_ite (h0 _) (extPubKey_mask env h _ _)) <|
    maskR_ite (maskR_ite (h0 _) (deriveAddress_mask env h _ _ _)) <|
    maskR_ite (maskR_ite (h0 _) (attestInput_mask env h _ _ _ _)) <|
    maskR_ite (maskR_ite (h0 _) (signTransaction_mask env h _ _ _ _)) (h0 _)

end Ergo
