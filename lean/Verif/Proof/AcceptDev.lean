import Verif.Proof.AcceptOp
import Verif.Spec.Accept

/-! # Acceptance of signing commands by the device -/

namespace Ergo
open Spec

/-- The device in a session that goes on. -/
def InSign (d : Device) : Prop :=
  d.command = .signTransaction ∧ ∃ x, d.ctx = .sign x ∧ x.approved = true ∧
    (x.p.state = .finalized → ∃ s, d.screen = some s ∧ s.cb = .signTx)

theorem ends_closes {sw : UInt16} (h : Ends sw) : harmless sw = false := by
  obtain ⟨_, h1, h2, h3, h4, h5⟩ := h
  simp only [harmless, decide_eq_false_iff_not]
  rintro (e | e | e | e | e)
  exacts [h1 e, h2 e, h3 e, h4 e, h5 e]

theorem live_inSign {env : Env} {nanoS : Bool} {key : Bytes} {tr : List Obs} {d : Device}
    (h : Runs env nanoS key tr d) :
    ∀ S, (know tr).sign = some S → Live tr → InSign d := by
  induction h with
  | boot => intro S h2 _; simp [know, Ghost.start] at h2
  | @step tr d e h hh hu ih =>
    have hI := h.inv
    have hrel := fun x S => sign_rel h (x := x) (S := S)
    obtain ⟨d', r, hst, hT⟩ := step_cases env nanoS d e
    rw [show know (d.observe env nanoS e :: tr) = (know tr).next (d.observe env nanoS e) from rfl,
      observe_eq hst]
    rw [hst] at hh hu ⊢
    simp only at hh hu ⊢
    generalize know tr = g at hI ih hrel
    intro S hS hL
    have old : (¬ e = .both) → Live tr := by
      intro he
      rcases hL with hL | hL
      · exact absurd hL.1 he
      · exact hL.1
    have fin : d.busy = false → ∀ {x}, d.ctx = .sign x → InSign d → x.p.state ≠ .finalized := by
      intro hb x hx hin he
      obtain ⟨_, y, hy, _, hf⟩ := hin
      rw [hx] at hy; cases hy
      obtain ⟨s, hs, _⟩ := hf he
      have := hI.busy
      rw [hb, hs] at this
      simp at this
    cases hT with
    | neutral h =>
      obtain ⟨h1, h2⟩ := neutral_ghost h
      simp only [Ghost.next, status, if_neg h1, h2, if_true] at hS
      exact ih S hS (old (by simp))
    | version hl =>
      exact ih S (by simpa [Ghost.next, Ghost.onOk, Sw.ok] using hS) (old (by simp))
    | name hl =>
      exact ih S (by simpa [Ghost.next, Ghost.onOk, Sw.ok] using hS) (old (by simp))
    | @abort ins p1 p2 data rnd sw hb hsw hi he =>
      rcases he with he | ⟨rfl, rfl, rfl, h2⟩
      · have hc := ends_closes he
        have hsw' : ¬ sw = 0x9000 := hsw
        simp [Ghost.next, status, hc, hsw', Ghost.close] at hS
      · rcases hL with hL | hL
        · exact absurd hL.1 (by simp)
        · refine absurd ⟨0xE0, p2, data, rnd, [], rfl, h2, ?_⟩ hL.2
          simp [Device.observe, hst, status, Sw.wrongP1P2]
    | deriveFail hb =>
      simp [Ghost.next, status, Ghost.close, harmless, Sw.addressGenerationFailed] at hS
    | epkSend hb h1 hp hv hg hk =>
      simp [Ghost.next, Ghost.onOk, Sw.ok, Ghost.close] at hS
    | epkAsk hb h1 hp hv hg hk hf => simp [Ghost.next, Ghost.onWait, Ghost.close] at hS
    | daSend hb h1 h2 hd hp hv hg ha hk =>
      simp [Ghost.next, Ghost.onOk, Sw.ok, Ghost.close] at hS
    | daAskSend hb h1 h2 hd hp hv hg ha hk hf => simp [Ghost.next, Ghost.onWait, Ghost.close] at hS
    | daAskShow hb h1 h2 hd hp hv hg ha hf hs hl =>
      simp [Ghost.next, Ghost.onWait, Ghost.close] at hS
    | attestHang hb => exact absurd rfl hh
    | attestKnown hb h2 hi hs hk => simp [Ghost.next, Ghost.onOk, Sw.ok, Ghost.close] at hS
    | attestAsk hb h2 hi hs hk => simp [Ghost.next, Ghost.onWait, Ghost.close] at hS
    | @attestOk sub p2 data rnd x x' out hb hl hsub hc hy hs ho =>
      have hne : ¬ sub = 0x01 := by rcases hsub with rfl | rfl | rfl | rfl <;> decide
      have := ih S (by simpa [Ghost.next, Ghost.onOk, Sw.ok, hne] using hS) (old (by simp))
      have := this.1
      rw [hc] at this; cases this
    | attestUb => exact absurd rfl hu
    | signHang => exact absurd rfl hh
    | signInitUb => exact absurd rfl hu
    | signAsk hb h2 hp hi hs hf => simp [Ghost.next, Ghost.onWait, Ghost.close] at hS
    | @signOk sub p2 data rnd y p hb hl hsub hc hy hs ha ho hn =>
      have e1 : g.next ⟨d.asks, d.here, .apdu 0xE0 0x21 sub p2 data rnd, status Sw.ok⟩ =
          g.log (.cmd sub data) := rfl
      rw [e1] at hS
      simp only [Ghost.log, Option.map_eq_some_iff] at hS
      obtain ⟨S0, hS0, rfl⟩ := hS
      obtain ⟨_, _, _, _, _, _, _, _, _, hR, _⟩ := hrel y S0 hy ha hS0
      have := signOp_state hR ho hsub.1 hsub.2
      exact ⟨hc, _, rfl, ha, fun he => absurd he this.2⟩
    | @signShow sub p2 data rnd y p t o hb hl hsub hc hy hs ha ho hn hu' hout =>
      have hne : ¬ sub = 0x01 := by
        rintro rfl; exact absurd hsub.1 (by decide)
      have hne' : ¬ sub = 0x20 := by
        rintro rfl; exact absurd hsub.2 (by decide)
      have e1 : g.next ⟨d.asks, d.here, .apdu 0xE0 0x21 sub p2 data rnd, .wait⟩ =
          { g.log (.cmd sub data) with pending := some ⟨0x21, sub, p2, data, rnd⟩ } := by
        simp [Ghost.next, Ghost.onWait, hne, hne']
      rw [e1] at hS
      simp only [Ghost.log, Option.map_eq_some_iff] at hS
      obtain ⟨S0, hS0, rfl⟩ := hS
      obtain ⟨_, _, _, _, _, _, _, _, _, hR, _⟩ := hrel y S0 hy ha hS0
      have := signOp_state hR ho (UInt8.le_trans (by decide) hsub.1) hsub.2
      exact ⟨hc, _, rfl, ha, fun he => absurd he this.2⟩
    | signUb => exact absurd rfl hu
    | @signConfirm p2 data rnd y hb hl hc hy hs ha hp =>
      exact ⟨hc, _, rfl, ha, fun _ => ⟨_, rfl, rfl⟩⟩
    | idle he hs =>
      rcases hL with hL | hL
      · obtain ⟨_, _, _, hL⟩ := hL
        simp [Device.observe, hst] at hL
      · rcases he with rfl | rfl | rfl <;> exact ih S hS hL.1
    | move he hs hm =>
      have := ih S (by rcases he with ⟨rfl, _⟩ | ⟨rfl, _⟩ <;> exact hS)
        (old (by rcases he with ⟨rfl, _⟩ | ⟨rfl, _⟩ <;> simp))
      obtain ⟨hc, x, hx, ha, hf⟩ := this
      refine ⟨hc, x, hx, ha, fun he => ?_⟩
      obtain ⟨s', hs', hcb⟩ := hf he
      rw [hs] at hs'; cases hs'
      exact ⟨_, rfl, hcb⟩
    | moveErr he hs hm hk =>
      rcases he with ⟨rfl, _⟩ | ⟨rfl, _⟩ <;> simp [Ghost.next, status, Ghost.close] at hS
    | moveUb => exact absurd rfl hu
    | click hs h1 h2 h3 =>
      rcases hL with hL | hL
      · obtain ⟨_, _, _, hL⟩ := hL
        simp [Device.observe, hst] at hL
      · exact ih S hS hL.1
    | reject hs h1 => simp [Ghost.next, status, Ghost.close, Sw.deny] at hS
    | @okEpk s x hs h1 hcb hx' =>
      obtain ⟨a, f0, p1, p2, p3⟩ := hI.asking _ hs
      have hq := hI.asks hs
      rw [hcb] at p3 hq
      simp only [AsksFor] at hq
      rcases hL with hL | hL
      · have := hL.2.1
        simp [Device.observe, hq] at this
      · have := ih S (by rw [hq] at hS; exact hS) hL.1
        have h2 := p3.2.1
        rw [this.1] at h2; cases h2
    | @okDa s x hs h1 hcb hx' =>
      obtain ⟨a, f0, p1, p2, p3⟩ := hI.asking _ hs
      rw [hcb] at p3
      have hx2 : d.command = .deriveAddress := p3.2.1
      have hq := hI.asks hs
      rw [hcb] at hq
      rcases hL with hL | hL
      · have := hL.2.1
        rcases hq with hq | hq <;> simp [Device.observe, hq] at this
      · have := ih S (by rcases hq with hq | hq <;> rw [hq] at hS <;> exact hS) hL.1
        rw [this.1] at hx2; cases hx2
    | okAttest hs h1 hcb hx' =>
      obtain ⟨a, f0, p1, p2, p3⟩ := hI.asking _ hs
      have hq := hI.asks hs
      rw [hcb] at p3 hq
      simp only [AsksFor] at hq
      rcases hL with hL | hL
      · have := hL.2.1
        simp [Device.observe, hq] at this
      · have := ih S (by rw [hq] at hS; exact hS) hL.1
        have h2 := p3.2.2.2.1
        rw [this.1] at h2; cases h2
    | @okSignInit s y token hs h1 hcb hy hu' =>
      obtain ⟨a, f0, p1, p2, p3⟩ := hI.asking _ hs
      rw [hcb] at p3
      obtain ⟨_, _, _, hc, network, path, token', p, s', t, q1, q2, _, _, _, _, q7⟩ := p3
      rw [hy] at q7
      cases q7
      obtain ⟨_, _, _, _, _, _, _, rfl⟩ := p2pkInit_ok q2
      exact ⟨hc, _, rfl, rfl, fun he => by simp at he⟩
    | @okSignOutput s y t o last hs h1 hcb hy hu' hout hl =>
      have hq := hI.asks hs
      rw [hcb] at hq
      simp only [AsksFor] at hq
      rw [hq] at hS
      have e1 : g.next ⟨some .confirmOutput, d.here, .both, status Sw.ok⟩ = g.log .approve := rfl
      rw [e1] at hS
      simp only [Ghost.log, Option.map_eq_some_iff] at hS
      obtain ⟨S0, hS0, rfl⟩ := hS
      rcases hL with hL | hL
      · have := hL.2.1
        simp [Device.observe, hq] at this
      · obtain ⟨hc, x, hx, ha, hf⟩ := ih S0 hS0 hL.1
        rw [hy] at hx; cases hx
        refine ⟨hc, _, rfl, ha, fun he => ?_⟩
        obtain ⟨s', hs', hcb'⟩ := hf he
        rw [hs] at hs'; cases hs'
        rw [hcb] at hcb'; cases hcb'
    | @okSignTx s x sig hs h1 hcb hx' hsig =>
      have hq := hI.asks hs
      rw [hcb] at hq
      simp only [AsksFor] at hq
      rw [hq] at hS
      simp [Ghost.next, Ghost.onApprove, Ghost.close, Sw.ok] at hS
    | @failSignTx s x sw hs h1 hcb hx' hsig =>
      have hq := hI.asks hs
      rw [hcb] at hq
      simp only [AsksFor] at hq
      rw [hq] at hS
      by_cases he : sw = 0x9000 <;>
        simp [Ghost.next, Ghost.onApprove, Ghost.close, status, he] at hS
    | actUb => exact absurd rfl hu

theorem asks_none {env : Env} {key : Bytes} {g : Ghost} {d : Device} (h : Inv env key g d)
    (ha : d.asks = none) : d.screen = none := by
  cases hs : d.screen with
  | none => rfl
  | some s =>
    have := h.asks hs
    rw [ha] at this
    cases hc : s.cb <;> simp [hc, AsksFor] at this

/-- When the session goes on and nothing is asked. -/
theorem ready_sign {env : Env} {nanoS : Bool} {key : Bytes} {tr : List Obs} {d : Device}
    (h : Runs env nanoS key tr d) {S : SignSess} (hS : (know tr).sign = some S) (hL : Live tr)
    (ha : d.asks = none) :
    d.busy = false ∧ d.command = .signTransaction ∧ d.sessionKey = key ∧ ∃ x, d.ctx = .sign x ∧
      x.approved = true ∧ x.session = S.id ∧ x.session ≠ 0 ∧ x.p.state ≠ .finalized ∧
      ∃ h0, PRel env h0 x.p (describe S.log) := by
  have hI := h.inv
  obtain ⟨hc, x, hx, hap, hf⟩ := live_inSign h S hS hL
  have hs := asks_none hI ha
  have hb := hI.busy
  rw [hs] at hb
  have hid := hI.idle hs
  simp only [Idle, hc] at hid
  obtain ⟨y, S', hy, hS', hB⟩ := hid
  rw [hx] at hy; cases hy
  rw [hS] at hS'; cases hS'
  obtain ⟨_, _, _, p0, _, _, _, _, _, hR, _⟩ := sign_rel h hx hap hS
  refine ⟨hb, hc, hI.key, x, hx, hap, hB.id.symm, hB.id0, fun he => ?_, p0.hash, hR⟩
  obtain ⟨s, hs', _⟩ := hf he
  rw [hs] at hs'; cases hs'

theorem got_pos {env : Env} {nanoS : Bool} {key : Bytes} {tr : List Obs} {d : Device}
    (h : Runs env nanoS key tr d) {S : SignSess} (hS : (know tr).sign = some S) :
    ∀ i ∈ (describe S.log).inputs, 0 < i.got := by
  rcases session_limits h hS S.log [] (by simp) with h0 | h0
  · rw [h0]; simp [describe, TxDesc.empty]
  · intro i hi; exact (h0.inLimits i hi).got.1

/-- The part of the dispatcher for signing commands. -/
theorem signSub_eq {env : Env} {d : Device} {x : SignCtx} {sub : UInt8} {data : Bytes}
    (hc : d.command = .signTransaction) (hx : d.ctx = .sign x)
    (ha : x.approved = true) (h1 : 0x10 ≤ sub) (h2 : sub ≤ 0x1A) :
    d.signSub env sub x.session data =
      if sub < 0x16 then d.signResult x (signOp env d.sessionKey x.p sub data)
      else d.signShow x (signOp env d.sessionKey x.p sub data) := by
  unfold Device.signSub
  rw [if_neg (by simp [hc]), hx]
  dsimp only
  rw [if_neg (by simp), if_neg (by simp [ha])]
  unfold signOp
  by_cases e : sub = 0x10
  · subst e; rfl
  by_cases e : sub = 0x11
  · subst e; rfl
  by_cases e : sub = 0x12
  · subst e; rfl
  by_cases e : sub = 0x13
  · subst e; rfl
  by_cases e : sub = 0x14
  · subst e; rfl
  by_cases e : sub = 0x15
  · subst e; rfl
  by_cases e : sub = 0x16
  · subst e; rfl
  by_cases e : sub = 0x17
  · subst e; rfl
  by_cases e : sub = 0x18
  · subst e; rfl
  by_cases e : sub = 0x19
  · subst e; rfl
  by_cases e : sub = 0x1A
  · subst e; rfl
  exfalso
  exact sub_range ⟨h1, h2⟩ (by assumption) (by assumption) (by assumption) (by assumption)
    (by assumption) (by assumption) (by assumption) (by assumption) (by assumption)
    (by assumption) (by assumption)

theorem isError_of {e : UInt16} (h : Ends e) : IsError (status e) := ⟨e, h.1, rfl⟩

/-- Reply to a signing command. -/
theorem signSub_reply {env : Env} {d : Device} {x : SignCtx} {sub : UInt8} {data : Bytes}
    {h0 : Bytes} {D : TxDesc} (hc : d.command = .signTransaction) (hx : d.ctx = .sign x)
    (ha : x.approved = true) (hR : PRel env h0 x.p D) (h1 : 0x10 ≤ sub) (h2 : sub ≤ 0x1A) :
    (∃ p, signOp env d.sessionKey x.p sub data = .ok p) ∧
        ((d.signSub env sub x.session data).2 = .sw 0x9000 [] ∨
          0x16 ≤ sub ∧ (d.signSub env sub x.session data).2 = .wait) ∨
      (¬ ∃ p, signOp env d.sessionKey x.p sub data = .ok p) ∧
        IsError (d.signSub env sub x.session data).2 := by
  have hub := signOp_noub hR d.sessionKey sub data
  rw [signSub_eq hc hx ha h1 h2]
  cases ho : signOp env d.sessionKey x.p sub data with
  | ub => exact absurd ho hub
  | err e =>
    right
    refine ⟨by simp, ?_⟩
    split <;> exact isError_of (signOp_err ho)
  | ok p =>
    left
    refine ⟨⟨p, rfl⟩, ?_⟩
    split
    · left; rfl
    rename_i hge
    have hge : 0x16 ≤ sub := by
      rw [UInt8.lt_iff_toNat_lt] at hge
      rw [UInt8.le_iff_toNat_le]; omega
    have hR' := signOp_rel hR ho h1 h2
    simp only [Device.signShow]
    cases hsh : p.shouldShow with
    | none => exact absurd hsh (shouldShow_some hR')
    | some b =>
      cases b with
      | false => left; rfl
      | true =>
        right
        refine ⟨hge, ?_⟩
        obtain ⟨t, oi, _, _, hu, hout, _⟩ := shouldShow_true hR' hsh
        simp only [hu, hout]

/-- A transaction is finished when as many outputs as announced are complete. -/
theorem finished_iff {env : Env} {h0 : Bytes} {p : P2pk} {D : TxDesc} (hR : PRel env h0 p D)
    (hf : p.state ≠ .finalized) :
    p.state = .txFinished ↔ 0 < D.nIn ∧ D.outputs.countP (·.box.complete) = D.nOut := by
  constructor
  · intro h
    obtain ⟨t, _, hT⟩ := hR.tx (by simp [h]) hf
    have hs := hT.state
    rw [h] at hs
    have hph := hT.full.phase
    unfold FullPhase at hph
    simp only [hs.2] at hph
    obtain ⟨hz, ⟨_, _, _, _, hc, _⟩, _⟩ := hph
    exact ⟨hT.full.nIn, by omega⟩
  · rintro ⟨hn, hc⟩
    obtain ⟨t, _, hT⟩ := hR.started hf hn
    have hs := hT.state
    have hout := hT.full.nOut
    have hne : D.outputs ≠ [] := by
      intro he
      rw [he] at hc
      simp at hc
      omega
    have hph := hT.full.phase
    unfold FullPhase at hph
    unfold StateRel at hs
    split at hs
    · exact hs.elim
    · exact absurd hs.2 hne
    · exact absurd hs.2 hne
    · simp only [hs.2] at hph
      obtain ⟨hz, _, _, _, _, hc', _⟩ := hph
      omega
    · assumption
    · exact hs.elim

/-- A signing command reaches its handler. -/
theorem sign_step {env : Env} {nanoS : Bool} {d : Device} {x : SignCtx} {s : UInt8}
    (hb : d.busy = false) (hc : d.command = .signTransaction) (hx : d.ctx = .sign x)
    (hap : x.approved = true) (hid : x.session = s) (hid0 : x.session ≠ 0) {sub : UInt8}
    {data : Bytes} (hl : data.length ≤ 255) (hsub : 0x10 ≤ sub ∧ sub ≤ 0x1A ∨ sub = 0x20)
    {rnd : Rnd} : d.step env nanoS (.apdu 0xE0 0x21 sub s data rnd) =
      d.signSub env sub x.session data := by
  have e1 : d.step env nanoS (.apdu 0xE0 0x21 sub s data rnd) =
      d.signTransaction env sub s data rnd := by
    unfold Device.step
    simp only
    rw [if_neg (by omega)]
    unfold Device.dispatch
    rw [if_neg (by decide), if_neg (by decide), if_neg (by decide), if_neg (by decide),
      if_neg (by decide), if_neg (by decide), if_pos rfl]
    have : sub ≠ 0 := by
      rintro rfl
      rcases hsub with h | h
      · exact absurd h.1 (by decide)
      · cases h
    rw [if_neg (by rw [← hid]; exact not_or.2 ⟨this, hid0⟩)]
  rw [e1]
  unfold Device.signTransaction
  rw [if_neg (by simp [hb]), if_neg, if_pos hsub, hid]
  rintro rfl
  rcases hsub with h | h
  · exact absurd h.1 (by decide)
  · cases h

/-- The reply to a signing command in a session that goes on, when nothing is asked. -/
theorem sign_reply {env : Env} {nanoS : Bool} {key : Bytes} {tr : List Obs} {d : Device}
    (h : Runs env nanoS key tr d) {S : SignSess} (hS : (know tr).sign = some S) (hL : Live tr)
    (ha : d.asks = none) {sub : UInt8} {data : Bytes} (hl : data.length ≤ 255)
    (hsub : 0x10 ≤ sub ∧ sub ≤ 0x1A ∨ sub = 0x20) (rnd : Rnd) {r : Reply}
    (hr : (d.step env nanoS (.apdu 0xE0 0x21 sub S.id data rnd)).2 = r) :
    Fits env key (describe S.log) sub data ∧
        (sub < 0x20 ∧ r = .sw 0x9000 [] ∨ 0x16 ≤ sub ∧ r = .wait) ∨
      ¬ Fits env key (describe S.log) sub data ∧ IsError r := by
  obtain ⟨hb, hc, hk, x, hx, hap, hid, hid0, hnf, h0, hR⟩ := ready_sign h hS hL ha
  rw [sign_step hb hc hx hap hid hid0 hl hsub] at hr
  rcases hsub with ⟨h1, h2⟩ | rfl
  · have hf := signOp_fits hR hnf (got_pos h hS) hl key h1 h2
    rw [← hf, ← hk]
    have := signSub_reply (data := data) hc hx hap hR h1 h2
    rw [hr] at this
    have hlt : sub < 0x20 := by
      rw [UInt8.le_iff_toNat_le] at h2
      rw [UInt8.lt_iff_toNat_lt]
      exact Nat.lt_of_le_of_lt h2 (by decide)
    rcases this with ⟨h3, h4⟩ | ⟨h3, h4⟩
    · left
      refine ⟨h3, ?_⟩
      rcases h4 with h4 | h4
      · exact .inl ⟨hlt, h4⟩
      · exact .inr h4
    · exact .inr ⟨h3, h4⟩
  · have hf : Fits env key (describe S.log) 0x20 data ↔ x.p.state = .txFinished :=
      (finished_iff hR hnf).symm
    rw [hf]
    have e3 : d.signSub env 0x20 x.session data = d.signConfirm x := by
      unfold Device.signSub
      rw [if_neg (by simp [hc]), hx]
      dsimp only
      rw [if_neg (by simp), if_neg (by simp [hap])]
      rfl
    rw [e3] at hr
    unfold Device.signConfirm at hr
    by_cases hst : x.p.state = .txFinished
    · rw [if_neg (by simp [hst])] at hr
      exact .inl ⟨hst, .inr ⟨by decide, hr.symm⟩⟩
    · rw [if_pos hst] at hr
      exact .inr ⟨hst, hr ▸ isError_of (by decide)⟩

end Ergo
