import Verif.Proof.AcceptDev
import Verif.Proof.AttestFits
/-!
# A session on the device is one that goes on
-/
namespace Ergo
open Spec

/-- The refusal that ends a session leaves the device without a command. -/
theorem bad_closes {env : Env} {nanoS : Bool} {d : Device} {cla p2 : UInt8} {data : Bytes} {rnd : Rnd}
    {out : Bytes} (h2 : p2 ≠ 0)
    (hr : (d.step env nanoS (.apdu cla 0x20 0x01 p2 data rnd)).2 = .sw 0x6A86 out) :
    (d.step env nanoS (.apdu cla 0x20 0x01 p2 data rnd)).1.command = .none := by
  unfold Device.step Device.dispatch at hr ⊢
  simp only at hr ⊢
  by_cases h1 : data.length > 255
  · rw [if_pos h1] at hr; simp [status, Sw.wrongDataLength] at hr
  rw [if_neg h1] at hr ⊢
  by_cases h3 : cla ≠ 0xE0
  · rw [if_pos h3] at hr; simp [status, Sw.claNotSupported] at hr
  rw [if_neg h3] at hr ⊢
  simp only [show ¬ (0x20 : UInt8) = 0x01 by decide, show ¬ (0x20 : UInt8) = 0x02 by decide,
    show ¬ (0x20 : UInt8) = 0x10 by decide, show ¬ (0x20 : UInt8) = 0x11 by decide, if_false, if_true,
    show ¬ (1 : UInt8) = 0 by decide, h2, or_self] at hr ⊢
  unfold Device.attestInput at hr ⊢
  by_cases hb : d.busy = true
  · rw [if_pos hb] at hr; simp [status, Sw.busy] at hr
  rw [if_neg hb] at hr ⊢
  rw [if_pos rfl] at hr ⊢
  by_cases h4 : p2 ≠ 0x01 ∧ p2 ≠ 0x02
  · rw [if_pos h4]; rfl
  rw [if_neg h4] at hr ⊢
  unfold Device.attestStart at hr ⊢
  cases hx : attestInit data (decide (p2 = 2)) 0 with
  | error e => rfl
  | ok x =>
    simp only [hx] at hr
    cases hs : newSession 0 rnd.u8s with
    | none => simp [hs] at hr
    | some s =>
      simp only [hs] at hr
      split at hr
      · simp [Sw.ok] at hr
      · simp at hr

theorem open_live {env : Env} {nanoS : Bool} {key : Bytes} {tr : List Obs} {d : Device}
    (h : Runs env nanoS key tr d) : ∀ x, d.command = .signTransaction → d.ctx = .sign x →
      x.approved = true → Live tr := by
  induction h with
  | boot => intro _ _ _ _; trivial
  | @step tr d e h hh hu ih =>
    have hI := h.inv
    intro x hc hx ha
    have nb : ¬ ∃ cla p2 data rnd out, (d.observe env nanoS e).event = .apdu cla 0x20 0x01 p2 data rnd ∧
        p2 ≠ 0 ∧ (d.observe env nanoS e).reply = .sw 0x6A86 out := by
      rintro ⟨cla, p2, data, rnd, out, h1, h2, h3⟩
      simp only [Device.observe] at h1 h3
      subst h1
      rw [bad_closes h2 h3] at hc
      cases hc
    suffices hs : OpensSign (d.observe env nanoS e) ∨ Live tr from hs.imp id (fun h => ⟨h, nb⟩)
    obtain ⟨d', r, hst, hT⟩ := step_cases env nanoS d e
    rw [hst] at hh hu hc hx
    simp only at hh hu hc hx
    cases hT with
    | neutral h => exact .inr (ih x hc hx ha)
    | version hl => exact .inr (ih x hc hx ha)
    | name hl => exact .inr (ih x hc hx ha)
    | abort => cases hc
    | deriveFail => cases hc
    | epkSend => cases hc
    | epkAsk => cases hc
    | daSend => cases hc
    | daAskSend => cases hc
    | daAskShow => cases hc
    | attestHang => cases hc
    | attestKnown => cases hc
    | attestAsk => cases hc
    | attestOk hb hl hsub hc' => cases hx
    | attestUb => exact absurd rfl hu
    | signHang => exact absurd rfl hh
    | signInitUb => exact absurd rfl hu
    | signAsk =>
      cases hx; cases ha
    | signOk hb hl hsub hc' hx' hs ha' => exact .inr (ih _ hc' hx' ha')
    | signShow hb hl hsub hc' hx' hs ha' => exact .inr (ih _ hc' hx' ha')
    | signUb => exact absurd rfl hu
    | signConfirm hb hl hc' hx' hs ha' => exact .inr (ih _ hc' hx' ha')
    | idle => exact .inr (ih x hc hx ha)
    | move => exact .inr (ih x hc hx ha)
    | moveErr => cases hc
    | moveUb => exact absurd rfl hu
    | click => exact .inr (ih x hc hx ha)
    | reject => cases hc
    | okEpk => cases hc
    | okDa => cases hc
    | okAttest => cases hx
    | okSignInit hs h1 hcb hy hu' =>
      have hq := hI.asks hs
      rw [hcb] at hq
      simp only [AsksFor] at hq
      exact .inl ⟨rfl, hq, _, congrArg Prod.snd hst⟩
    | okSignOutput hs h1 hcb hy hu' hout hl =>
      cases hx
      exact .inr (ih _ hc hy ha)
    | okSignTx => cases hc
    | failSignTx => cases hc
    | actUb => exact absurd rfl hu

theorem open_liveAttest {env : Env} {nanoS : Bool} {key : Bytes} {tr : List Obs} {d : Device}
    (h : Runs env nanoS key tr d) : ∀ x, d.command = .attestInput → d.ctx = .attest x →
      x.state ≠ .initialized → LiveAttest tr := by
  induction h with
  | boot => intro _ _ _ _; trivial
  | @step tr d e h hh hu ih =>
    have hI := h.inv
    intro x hc hx ha
    have nb : ¬ ∃ cla p2 data rnd out, (d.observe env nanoS e).event = .apdu cla 0x20 0x01 p2 data rnd ∧
        p2 ≠ 0 ∧ (d.observe env nanoS e).reply = .sw 0x6A86 out := by
      rintro ⟨cla, p2, data, rnd, out, h1, h2, h3⟩
      simp only [Device.observe] at h1 h3
      subst h1
      rw [bad_closes h2 h3] at hc
      cases hc
    suffices hs : OpensAttest (d.observe env nanoS e) ∨ LiveAttest tr from hs.imp id (fun h => ⟨h, nb⟩)
    obtain ⟨d', r, hst, hT⟩ := step_cases env nanoS d e
    rw [hst] at hh hu hc hx
    simp only at hh hu hc hx
    cases hT with
    | neutral h => exact .inr (ih x hc hx ha)
    | version hl => exact .inr (ih x hc hx ha)
    | name hl => exact .inr (ih x hc hx ha)
    | abort => cases hc
    | deriveFail => cases hc
    | epkSend => cases hc
    | epkAsk => cases hc
    | daSend => cases hc
    | daAskSend => cases hc
    | daAskShow => cases hc
    | attestHang => exact absurd rfl hh
    | attestKnown =>
      exact .inl ⟨⟨_, congrArg Prod.snd hst⟩, .inr ⟨_, _, _, _, rfl⟩⟩
    | attestAsk hb h2 hi =>
      cases hx
      obtain ⟨i, _, _, _, _, h3, _⟩ := attestInit_ok hi
      exact absurd h3 ha
    | attestOk hb hl hsub hc' hx' hs ho =>
      have hsc := idle_of hI hb
      have hid := hI.idle hsc
      simp only [Idle, hc'] at hid
      obtain ⟨y, S', hy, hS', hB⟩ := hid
      rw [hx'] at hy
      cases hy
      exact .inr (ih _ hc' hx' hB.state)
    | attestUb => exact absurd rfl hu
    | signHang => cases hc
    | signInitUb => cases hc
    | signAsk => cases hc
    | signOk hb hl hsub hc' hx' hs ha' => cases hx
    | signShow hb hl hsub hc' hx' hs ha' => cases hx
    | signUb => exact absurd rfl hu
    | signConfirm hb hl hc' hx' hs ha' => cases hx
    | idle => exact .inr (ih x hc hx ha)
    | move => exact .inr (ih x hc hx ha)
    | moveErr => cases hc
    | moveUb => exact absurd rfl hu
    | click => exact .inr (ih x hc hx ha)
    | reject => cases hc
    | okEpk => cases hc
    | okDa => cases hc
    | okAttest hs h1 hcb hy =>
      have hq := hI.asks hs
      rw [hcb] at hq
      simp only [AsksFor] at hq
      exact .inl ⟨⟨_, congrArg Prod.snd hst⟩, .inl ⟨rfl, hq⟩⟩
    | okSignInit => cases hx
    | okSignOutput => cases hx
    | okSignTx => cases hc
    | failSignTx => cases hc
    | actUb => exact absurd rfl hu

/-- When nothing is asked, the device is in a signing session if and only if one was opened and goes
on. -/
theorem command_sign {env : Env} {nanoS : Bool} {key : Bytes} {tr : List Obs} {d : Device}
    (h : Runs env nanoS key tr d) (ha : d.asks = none) :
    d.command = .signTransaction ↔ ∃ S, (know tr).sign = some S ∧ Live tr := by
  have hI := h.inv
  constructor
  · intro hc
    have hid := hI.idle (asks_none hI ha)
    simp only [Idle, hc] at hid
    obtain ⟨x, S, hx, hS, hB⟩ := hid
    exact ⟨S, hS, open_live h x hc hx hB.approved⟩
  · rintro ⟨S, hS, hL⟩
    exact (live_inSign h S hS hL).1

/-- The same for an attestation. -/
theorem command_attest {env : Env} {nanoS : Bool} {key : Bytes} {tr : List Obs} {d : Device}
    (h : Runs env nanoS key tr d) (ha : d.asks = none) :
    d.command = .attestInput ↔ ∃ S, (know tr).attest = some S ∧ LiveAttest tr := by
  have hI := h.inv
  constructor
  · intro hc
    have hid := hI.idle (asks_none hI ha)
    simp only [Idle, hc] at hid
    obtain ⟨x, S, hx, hS, hB⟩ := hid
    exact ⟨S, hS, open_liveAttest h x hc hx hB.state⟩
  · rintro ⟨S, hS, hL⟩
    exact (live_inAttest h S hS hL).1

end Ergo
