import Verif.Proof.Inv
import Verif.Spec.Commands
import Verif.Proof.Demo
/-!
# C18–C20, C22–C24, C46: the command machine
-/
namespace Ergo
open Spec

/-! ## C22 -/

/-- C22: a wrong class byte. -/
theorem C22_class (env : Env) (nanoS : Bool) (d : Device) (cla ins p1 p2 : UInt8) (data : Bytes)
    (rnd : Rnd) (hl : data.length ≤ 255) (hc : cla ≠ 0xE0) :
    d.step env nanoS (.apdu cla ins p1 p2 data rnd) = (d, .sw 0x6E00 []) := by
  simp only [Device.step, if_neg (Nat.not_lt.2 hl), Device.dispatch, if_pos hc]
  rfl

/-- C22: an unknown instruction. -/
theorem C22_instruction (env : Env) (nanoS : Bool) (d : Device) (ins p1 p2 : UInt8) (data : Bytes)
    (rnd : Rnd) (hl : data.length ≤ 255) (hi : knownIns ins = false) :
    d.step env nanoS (.apdu 0xE0 ins p1 p2 data rnd) = (d, .sw 0x6D00 []) := by
  simp only [knownIns, Bool.or_eq_false_iff, decide_eq_false_iff_not] at hi
  obtain ⟨⟨⟨⟨⟨h1, h2⟩, h3⟩, h4⟩, h5⟩, h6⟩ := hi
  simp only [Device.step, if_neg (Nat.not_lt.2 hl), Device.dispatch, ne_eq, not_true_eq_false,
    if_false, if_neg h1, if_neg h2, if_neg h3, if_neg h4, if_neg h5, if_neg h6]
  rfl

theorem u8_not12 (p : UInt8) : ¬ (p = 1 ∨ p = 2) → (p = 0 ∨ p > 2) := by
  intro h
  simp only [← UInt8.toNat_inj, gt_iff_lt, UInt8.lt_iff_toNat_lt] at h ⊢
  simp only [UInt8.reduceToNat] at h ⊢
  omega

theorem u8_pos_of_ne (p : UInt8) : ¬ p = 0 → p > 0 := by
  intro h
  simp only [← UInt8.toNat_inj, gt_iff_lt, UInt8.lt_iff_toNat_lt] at h ⊢
  simp only [UInt8.reduceToNat] at h ⊢
  omega

/-- C22: P1/P2 outside the documented values. -/
theorem C22_parameters (env : Env) (nanoS : Bool) (d : Device) (ins p1 p2 : UInt8) (data : Bytes)
    (rnd : Rnd) (hl : data.length ≤ 255) (hi : knownIns ins = true)
    (hp : paramsOk ins p1 p2 = false) :
    d.step env nanoS (.apdu 0xE0 ins p1 p2 data rnd) = (d, .sw 0x6A86 []) := by
  simp only [knownIns, Bool.or_eq_true, decide_eq_true_eq] at hi
  simp only [Device.step, if_neg (Nat.not_lt.2 hl), Device.dispatch, ne_eq, not_true_eq_false,
    if_false]
  rcases hi with ((((rfl | rfl) | rfl) | rfl) | rfl) | rfl
  · simp [paramsOk] at hp
    rw [if_pos rfl, if_pos (by tauto)]; rfl
  · simp [paramsOk] at hp
    rw [if_neg (by decide), if_pos rfl, if_pos (by tauto)]; rfl
  · simp [paramsOk] at hp
    rw [if_neg (by decide), if_neg (by decide), if_pos rfl, if_pos ?_]
    · rfl
    · by_cases h : p1 = 1 ∨ p1 = 2
      · exact .inr (.inr (u8_pos_of_ne _ (hp h)))
      · rcases u8_not12 _ h with h | h
        · exact .inl h
        · exact .inr (.inl h)
  · simp [paramsOk] at hp
    rw [if_neg (by decide), if_neg (by decide), if_neg (by decide), if_pos rfl, if_pos ?_]
    · rfl
    · by_cases h : p1 = 1 ∨ p1 = 2
      · have := u8_not12 p2 (by have := hp h; tauto)
        tauto
      · have := u8_not12 _ h
        tauto
  · simp [paramsOk] at hp
    rw [if_neg (by decide), if_neg (by decide), if_neg (by decide), if_neg (by decide), if_pos rfl,
      if_pos (by tauto)]; rfl
  · simp [paramsOk] at hp
    rw [if_neg (by decide), if_neg (by decide), if_neg (by decide), if_neg (by decide),
      if_neg (by decide), if_pos rfl, if_pos (by tauto)]; rfl

/-- C22: more data than a short APDU can carry. -/
theorem C22_length (env : Env) (nanoS : Bool) (d : Device) (cla ins p1 p2 : UInt8) (data : Bytes)
    (rnd : Rnd) (hl : 255 < data.length) :
    d.step env nanoS (.apdu cla ins p1 p2 data rnd) = (d, .sw 0x6A87 []) := by
  simp only [Device.step, if_pos hl]
  rfl

/-- No random values. -/
def noRnd : Rnd := ⟨[], fun _ => []⟩

/-- Not only there: with the class right, the documented values pass the dispatcher. -/
example : ((Device.boot [1]).step toyEnv false (.apdu 0xE0 0x10 3 0 [] noRnd)).2 = .sw 0x6A86 [] ∧
    ((Device.boot [1]).step toyEnv false (.apdu 0xE0 0x10 1 0 [] noRnd)).2 = .sw 0xE014 [] ∧
    ((Device.boot [1]).step toyEnv false (.apdu 0xE0 0x77 1 0 [] noRnd)).2 = .sw 0x6D00 [] ∧
    ((Device.boot [1]).step toyEnv false (.apdu 0x80 0x10 1 0 [] noRnd)).2 = .sw 0x6E00 [] := by
  decide +kernel

/-! ## C18 -/

/-- C18: while the user is asked, no command changes the device; the well-formed ones other than
version and name are answered with "busy", those two normally. -/
theorem C18_busy {env : Env} {nanoS : Bool} {key : Bytes} {tr : List Obs} {d : Device}
    (h : Runs env nanoS key tr d) (hs : d.screen.isSome) (cla ins p1 p2 : UInt8) (data : Bytes)
    (rnd : Rnd) :
    (d.step env nanoS (.apdu cla ins p1 p2 data rnd)).1 = d ∧
    (cla = 0xE0 → knownIns ins = true → paramsOk ins p1 p2 = true → data.length ≤ 255 →
      (d.step env nanoS (.apdu cla ins p1 p2 data rnd)).2 =
        if ins = 0x01 then .sw 0x9000 env.appVersion
        else if ins = 0x02 then .sw 0x9000 env.appName
        else .sw 0xB000 []) := by
  have hb : d.busy = true := by rw [h.inv.busy, hs]
  have e1 : ∀ b, d.extPubKey env data b = (d, status Sw.busy) := by
    intro b; simp [Device.extPubKey, hb]
  have e2 : ∀ b c, d.deriveAddress env data b c = (d, status Sw.busy) := by
    intro b c; simp [Device.deriveAddress, hb]
  have e3 : d.attestInput env p1 p2 data rnd = (d, status Sw.busy) := by
    simp [Device.attestInput, hb]
  have e4 : d.signTransaction env p1 p2 data rnd = (d, status Sw.busy) := by
    simp [Device.signTransaction, hb]
  constructor
  · simp only [Device.step]
    split
    · rfl
    · simp only [Device.dispatch, e1, e2, e3, e4]
      repeat' split
      all_goals rfl
  · rintro rfl hi hp hl
    simp only [knownIns, Bool.or_eq_true, decide_eq_true_eq] at hi
    simp only [Device.step, if_neg (Nat.not_lt.2 hl), Device.dispatch, ne_eq, not_true_eq_false,
      if_false, e1, e2, e3, e4]
    rcases hi with ((((rfl | rfl) | rfl) | rfl) | rfl) | rfl
    · simp [paramsOk] at hp
      simp [hp.1, hp.2, Sw.ok]
    · simp [paramsOk] at hp
      simp [hp.1, hp.2, Sw.ok]
    · simp [paramsOk] at hp
      obtain ⟨hp | hp, rfl⟩ := hp <;> subst hp <;> rfl
    · simp [paramsOk] at hp
      obtain ⟨hp | hp, hq | hq⟩ := hp <;> subst hp <;> subst hq <;> rfl
    · simp [paramsOk] at hp
      simp [hp.1, hp.2]; rfl
    · simp [paramsOk] at hp
      simp [hp.1, hp.2]; rfl

/-- A signing request is on display; a further command gets "busy". -/
example : (after (demoOpen.take 1)).screen.isSome = true ∧
    ((after (demoOpen.take 1)).step toyEnv false (cmd 0x10 1 0 (demoPath 0))).2 = .sw 0xB000 [] ∧
    ((after (demoOpen.take 1)).step toyEnv false (cmd 0x02 0 0 [])).2 = .sw 0x9000 toyEnv.appName := by
  decide +kernel

/-! ## C23 -/

/-- C23: rejecting any flow: "denied" without data, the context is erased, the application token
kept. -/
theorem C23_reject {env : Env} {nanoS : Bool} {key : Bytes} {tr : List Obs} {d : Device}
    (h : Runs env nanoS key tr d) (hh : d.here = some .reject) :
    d.step env nanoS .both = (⟨d.connectedApp, key, .none, false, .zeroed, none⟩, .sw 0x6985 []) := by
  have hI := h.inv
  unfold Device.here at hh
  cases hs : d.screen with
  | none => rw [hs] at hh; simp at hh
  | some s =>
    rw [hs] at hh
    simp only [Option.map_some, Option.some.injEq] at hh
    obtain ⟨a, f0, h1, h2, h3⟩ := hI.asking s hs
    have e1 : d.step env nanoS .both = d.act env s.cb false := by
      simp only [Device.step, hs, Device.both, hh]
    have e2 : (d.setCommand .none).menu = ⟨d.connectedApp, key, .none, false, .zeroed, none⟩ := by
      simp only [Device.setCommand, Device.menu, hI.key]
    rw [e1, ← e2]
    cases hcb : s.cb with
    | extPubKey =>
      rw [hcb] at h3
      obtain ⟨_, _, _, path, token, pub, chain, t, _, _, _, _, _, h4⟩ := h3
      simp [Device.act, h4, Device.actExtPubKey, status, Sw.deny]
    | deriveAddress =>
      rw [hcb] at h3
      obtain ⟨_, _, _, n, rest, path, token, pub, chain, raw, t, _, _, _, _, _, _, h4⟩ := h3
      rcases h4 with ⟨_, _, h4⟩ | ⟨_, s', _, _, _, h4⟩ <;>
        simp [Device.act, h4, Device.actDerive, status, Sw.deny]
    | attest =>
      rw [hcb] at h3
      obtain ⟨_, _, _, _, x, s', _, _, _, _, h4⟩ := h3
      simp [Device.act, h4, Device.actAttest, status, Sw.deny]
    | signInit =>
      rw [hcb] at h3
      obtain ⟨_, _, _, _, n, path, token, p, s', t, _, _, _, _, _, _, h4⟩ := h3
      simp [Device.act, h4, Device.actSignInit, status, Sw.deny]
    | signOutput =>
      rw [hcb] at h3
      obtain ⟨_, _, _, _, x, S, t, o, h4, _, _, h5, h6, _⟩ := h3
      simp [Device.act, h4, Device.actSignOutput, h5, h6, status, Sw.deny]
    | signTx =>
      rw [hcb] at h3
      obtain ⟨_, _, _, x, S, h4, _, _, h5, h6, _⟩ := h3
      simp [Device.act, h4, Device.actSignTx, status, Sw.deny]

/-- To the Reject step of a signing request without application token, then both buttons. -/
example : (after (demoOpen.take 1 ++ [.left])).here = some .reject ∧
    (after (demoOpen.take 1 ++ [.left, .both])) = ⟨0, [1], .none, false, .zeroed, none⟩ := by
  decide +kernel

/-! ## C24 -/

/-- C24: the session key is the one drawn at power-on; the application token is 0 at power-on. -/
theorem C24_key {env : Env} {nanoS : Bool} {key : Bytes} {tr : List Obs} {d : Device}
    (h : Runs env nanoS key tr d) : d.sessionKey = key ∧ (tr = [] → d.connectedApp = 0) := by
  refine ⟨h.inv.key, ?_⟩
  rintro rfl
  exact h.inv.app

/-- The user presses both buttons on the Approve step, or on the path step of the start-signing
flow (which approves as well). -/
def Approves (d : Device) (e : Event) : Prop :=
  e = .both ∧ (d.here = some .approve ∨ ∃ p, d.here = some (.pathApprove p))

/-- C24: a step changes the application token only if the user approves, and then to the token of
the request on display. -/
theorem C24_token {env : Env} {nanoS : Bool} {key : Bytes} {tr : List Obs} {d : Device}
    (h : Runs env nanoS key tr d) (e : Event)
    (hc : (d.step env nanoS e).1.connectedApp ≠ d.connectedApp) :
    Approves d e ∧ ∃ a, (know tr).pending = some a ∧
      (d.step env nanoS e).1.connectedApp = a.token := by
  have hI := h.inv
  obtain ⟨d', r, hst, hT⟩ := step_cases env nanoS d e
  rw [hst] at hc ⊢
  have key : ∀ s, d.screen = some s →
      (s.flow.here = .approve ∨ ∃ p, s.flow.here = .pathApprove p) →
      (d.here = some .approve ∨ ∃ p, d.here = some (.pathApprove p)) := by
    intro s hs hp
    unfold Device.here
    rw [hs]
    rcases hp with hp | ⟨p, hp⟩
    · exact .inl (by rw [Option.map_some, hp])
    · exact .inr ⟨p, by rw [Option.map_some, hp]⟩
  cases hT with
  | @okEpk s x hs h1 hcb hx =>
    refine ⟨⟨rfl, key s hs h1⟩, ?_⟩
    obtain ⟨a, f0, p1, p2, p3⟩ := hI.asking s hs
    rw [hcb] at p3
    obtain ⟨q1, _, _, path, token, pub, chain, t, q2, _, _, _, q3, q4⟩ := p3
    rw [hx] at q4
    simp only [Ctx.extPub.injEq] at q4
    subst q4
    exact ⟨a, p1, (token_of_epk q1 q2).symm⟩
  | @okDa s x hs h1 hcb hx =>
    refine ⟨⟨rfl, key s hs h1⟩, ?_⟩
    obtain ⟨a, f0, p1, p2, p3⟩ := hI.asking s hs
    rw [hcb] at p3
    obtain ⟨q1, _, _, network, rest, path, token, pub, chain, raw, t, q0, q2, _, _, _, _, q3⟩ := p3
    have htok : x.token = token := by
      rcases q3 with ⟨_, q3, q4⟩ | ⟨_, s', _, _, q3, q4⟩ <;>
      · rw [hx] at q4
        simp only [Ctx.derive.injEq] at q4
        subst q4; rfl
    refine ⟨a, p1, ?_⟩
    show x.token = a.token
    rw [htok]
    exact (token_of_da q1 q0 q2).symm
  | @okAttest s x hs h1 hcb hx =>
    refine ⟨⟨rfl, key s hs h1⟩, ?_⟩
    obtain ⟨a, f0, p1, p2, p3⟩ := hI.asking s hs
    rw [hcb] at p3
    obtain ⟨q1, q2, q3, q4, x0, s0, q5, q6, _, q7, q8⟩ := p3
    rw [hx] at q8
    simp only [Ctx.attest.injEq] at q8
    subst q8
    exact ⟨a, p1, (token_of_attest q1 q5).symm⟩
  | @okSignInit s x token hs h1 hcb hx hu' =>
    refine ⟨⟨rfl, key s hs h1⟩, ?_⟩
    obtain ⟨a, f0, p1, p2, p3⟩ := hI.asking s hs
    rw [hcb] at p3
    obtain ⟨q1, q2, q3, q4, network, path, token', p, s0, t, q5, q6, q7, _, q8, q9, q10⟩ := p3
    rw [hx] at q10
    simp only [Ctx.sign.injEq] at q10
    subst q10
    simp only [P2pkU.uiApprove.injEq] at hu'
    subst hu'
    exact ⟨a, p1, (token_of_sign q1 q5).symm⟩
  | _ => exact absurd rfl hc

/-- The token 5 of an attestation request becomes the stored token with the approval. -/
example : (after (demoAttest.take 3)).connectedApp = 0 ∧ (after (demoAttest.take 4)).connectedApp = 5 ∧
    (know (seen (demoAttest.take 3))).pending.map Request.token = some 5 := by decide +kernel

/-! ## C19, C20, C46 -/

/-- C19: an attest or sign command answered with an error other than "busy", "wrong P1/P2" (or an
over-long APDU) erases the context. -/
theorem C19_erased {env : Env} {nanoS : Bool} {key : Bytes} {tr : List Obs} {d : Device}
    (h : Runs env nanoS key tr d) (ins p1 p2 : UInt8) (data : Bytes) (rnd : Rnd) (sw : UInt16)
    (out : Bytes) (hi : ins = 0x20 ∨ ins = 0x21)
    (hr : (d.step env nanoS (.apdu 0xE0 ins p1 p2 data rnd)).2 = .sw sw out)
    (h1 : sw ≠ 0x9000) (h2 : sw ≠ 0xB000) (h3 : sw ≠ 0x6A86) (h4 : sw ≠ 0x6A87) :
    out = [] ∧ (d.step env nanoS (.apdu 0xE0 ins p1 p2 data rnd)).1 =
      ⟨d.connectedApp, key, .none, false, .zeroed, none⟩ := by
  have hI := h.inv
  obtain ⟨d', r, hst, hT⟩ := step_cases env nanoS d (.apdu 0xE0 ins p1 p2 data rnd)
  rw [hst] at hr ⊢
  simp only at hr
  subst hr
  generalize he : Event.apdu 0xE0 ins p1 p2 data rnd = e at hT
  generalize hr : Reply.sw sw out = r at hT
  cases hT with
  | neutral hn =>
    cases he
    simp only [status, Reply.sw.injEq] at hr
    obtain ⟨rfl, rfl⟩ := hr
    rcases hn with ⟨rfl, _⟩ | rfl | ⟨rfl, hn⟩ | ⟨rfl, _, _, h5, h6⟩ | ⟨rfl, _⟩
    · exact absurd rfl h2
    · exact absurd rfl h3
    · exact absurd rfl hn
    · rcases hi with rfl | rfl
      · exact absurd rfl h5
      · exact absurd rfl h6
    · exact absurd rfl h4
  | abort hb hsw hin =>
    simp only [status, Reply.sw.injEq] at hr
    refine ⟨hr.2, ?_⟩
    simp only [Device.setCommand, hI.key, idle_of hI hb]
  | deriveFail hb => cases he; simp at hi
  | moveErr he' => subst he; rcases he' with ⟨he', _⟩ | ⟨he', _⟩ <;> cases he'
  | _ => first
    | (cases he; done)
    | (cases hr; done)
    | (simp only [status, Reply.sw.injEq] at hr; exact absurd hr.1 h1)

theorem signCont_ne {p1 : UInt8} (h : signCont p1 = true) : p1 ≠ 0x01 ∧ p1 ≠ 0 := by
  constructor <;> (rintro rfl; revert h; decide)

theorem attestCont_ne {p1 : UInt8} (h : attestCont p1 = true) : p1 ≠ 0x01 ∧ p1 ≠ 0 := by
  constructor <;> (rintro rfl; revert h; decide)

/-- A sign command that is not refused belongs to the open session. -/
theorem sign_accepted {env : Env} {nanoS : Bool} {key : Bytes} {tr : List Obs} {d : Device}
    (h : Runs env nanoS key tr d) (p1 p2 : UInt8) (data : Bytes) (rnd : Rnd)
    (hc : signCont p1 = true)
    (hr : ¬ IsError (d.step env nanoS (.apdu 0xE0 0x21 p1 p2 data rnd)).2) :
    d.screen = none ∧ d.command = .signTransaction ∧ ∃ x S, d.ctx = .sign x ∧
      (know tr).sign = some S ∧ SignBase env S x ∧ p2 = x.session := by
  have hI := h.inv
  have hl : ¬ data.length > 255 := by
    intro hl
    exact hr ⟨0x6A87, by decide, by rw [C22_length env nanoS d 0xE0 0x21 p1 p2 data rnd hl]⟩
  have hb : d.busy = false := by
    cases hb : d.busy with
    | false => rfl
    | true =>
      refine absurd ?_ hr
      simp only [Device.step, if_neg hl, Device.dispatch, Device.signTransaction, hb, if_true]
      by_cases hp : p1 = 0 ∨ p2 = 0
      · exact ⟨Sw.wrongP1P2, by decide, by simp [hp, status]⟩
      · exact ⟨Sw.busy, by decide, by simp [hp, status]⟩
  have hs := idle_of hI hb
  by_cases hp2 : p2 = 0
  · refine absurd ⟨Sw.wrongP1P2, ?_, ?_⟩ hr
    · decide
    · simp [Device.step, Device.dispatch, hl, hp2, status]
  have e1 : d.step env nanoS (.apdu 0xE0 0x21 p1 p2 data rnd) = d.signSub env p1 p2 data := by
    have hc' : (0x10 ≤ p1 ∧ p1 ≤ 0x1A) ∨ p1 = 0x20 := by
      simpa [signCont] using hc
    simp [Device.step, Device.dispatch, hl, hp2, Device.signTransaction, hb, hc',
      (signCont_ne hc).1, (signCont_ne hc).2]
  rw [e1] at hr
  have hcmd : d.command = .signTransaction := by
    by_contra hcmd
    refine hr ⟨Sw.badState, by decide, ?_⟩
    simp [Device.signSub, hcmd, Device.abort, status]
  have hid := hI.idle hs
  unfold Idle at hid
  rw [hcmd] at hid
  obtain ⟨x, S, hx, hS, hB⟩ := hid
  refine ⟨hs, hcmd, x, S, hx, hS, hB, ?_⟩
  by_contra hp
  refine hr ⟨Sw.badSessionId, by decide, ?_⟩
  simp [Device.signSub, hcmd, hx, hp, Device.abort, status]

/-- An attest command that is not refused belongs to the open session. -/
theorem attest_accepted {env : Env} {nanoS : Bool} {key : Bytes} {tr : List Obs} {d : Device}
    (h : Runs env nanoS key tr d) (p1 p2 : UInt8) (data : Bytes) (rnd : Rnd)
    (hc : attestCont p1 = true)
    (hr : ¬ IsError (d.step env nanoS (.apdu 0xE0 0x20 p1 p2 data rnd)).2) :
    d.screen = none ∧ d.command = .attestInput ∧ ∃ x S, d.ctx = .attest x ∧
      (know tr).attest = some S ∧ AttestBase S x ∧ p2 = x.session := by
  have hI := h.inv
  have hl : ¬ data.length > 255 := by
    intro hl
    exact hr ⟨0x6A87, by decide, by rw [C22_length env nanoS d 0xE0 0x20 p1 p2 data rnd hl]⟩
  have hb : d.busy = false := by
    cases hb : d.busy with
    | false => rfl
    | true =>
      refine absurd ?_ hr
      simp only [Device.step, if_neg hl, Device.dispatch, Device.attestInput, hb, if_true]
      by_cases hp : p1 = 0 ∨ p2 = 0
      · exact ⟨Sw.wrongP1P2, by decide, by simp [hp, status]⟩
      · exact ⟨Sw.busy, by decide, by simp [hp, status]⟩
  have hs := idle_of hI hb
  by_cases hp2 : p2 = 0
  · refine absurd ⟨Sw.wrongP1P2, ?_, ?_⟩ hr
    · decide
    · simp [Device.step, Device.dispatch, hl, hp2, status]
  have e1 : d.step env nanoS (.apdu 0xE0 0x20 p1 p2 data rnd) = d.attestSub env p1 p2 data := by
    have hc' : p1 = 2 ∨ p1 = 3 ∨ p1 = 4 ∨ p1 = 5 := by
      simpa [attestCont, or_assoc] using hc
    simp [Device.step, Device.dispatch, hl, hp2, Device.attestInput, hb, hc',
      (attestCont_ne hc).1, (attestCont_ne hc).2]
  rw [e1] at hr
  have hcmd : d.command = .attestInput := by
    by_contra hcmd
    refine hr ⟨Sw.badState, by decide, ?_⟩
    simp [Device.attestSub, hcmd, Device.abort, status]
  have hid := hI.idle hs
  unfold Idle at hid
  rw [hcmd] at hid
  obtain ⟨x, S, hx, hS, hB⟩ := hid
  refine ⟨hs, hcmd, x, S, hx, hS, hB, ?_⟩
  by_contra hp
  refine hr ⟨Sw.badSessionId, by decide, ?_⟩
  simp [Device.attestSub, hcmd, hx, hp, Device.abort, status]

theorem next_sign_none {g : Ghost} {o : Obs} (hg : g.sign = none) (ho : ¬ OpensSign o) :
    (g.next o).sign = none := by
  obtain ⟨asked, here, event, reply⟩ := o
  have hlog : ∀ x, (g.log x).sign = none := by intro x; simp [Ghost.log, hg]
  cases event with
  | apdu cla ins p1 p2 data rnd =>
    cases reply with
    | wait =>
      simp only [Ghost.next, Ghost.onWait]
      split
      · split
        · exact hg
        · exact hlog _
      · rfl
    | sw c out =>
      simp only [Ghost.next, Ghost.onOk]
      repeat' split
      all_goals first | exact hg | exact hlog _ | rfl
    | hang => exact hg
    | ub => exact hg
  | left => cases reply <;> first | exact hg | rfl
  | right => cases reply <;> first | exact hg | rfl
  | both =>
    cases reply with
    | sw c out =>
      simp only [Ghost.next]
      split
      · rename_i hc
        subst hc
        unfold Ghost.onApprove
        split
        · exact hlog _
        · rfl
        · exact absurd ⟨rfl, rfl, _, rfl⟩ ho
        · exact hg
        · exact hg
      · rfl
    | _ => exact hg

theorem next_attest_none {g : Ghost} {o : Obs} (hg : g.attest = none) (ho : ¬ OpensAttest o) :
    (g.next o).attest = none := by
  obtain ⟨asked, here, event, reply⟩ := o
  cases event with
  | apdu cla ins p1 p2 data rnd =>
    cases reply with
    | wait =>
      simp only [Ghost.next, Ghost.onWait]
      split
      · split
        · exact hg
        · exact hg
      · rfl
    | sw c out =>
      simp only [Ghost.next]
      split
      · rename_i hc
        subst hc
        simp only [Ghost.onOk]
        split
        · exact hg
        split
        · exact hg
        split
        · rename_i hi
          split
          · rename_i hp
            have hi' : ins = 0x20 := hi
            have hp' : p1 = 0x01 := hp
            subst hi' hp'
            exact absurd ⟨⟨_, rfl⟩, .inr ⟨_, _, _, _, rfl⟩⟩ ho
          · simp [hg]
        · rfl
      · split
        · exact hg
        · rfl
    | hang => exact hg
    | ub => exact hg
  | left => cases reply <;> first | exact hg | rfl
  | right => cases reply <;> first | exact hg | rfl
  | both =>
    cases reply with
    | sw c out =>
      simp only [Ghost.next]
      split
      · rename_i hc
        subst hc
        unfold Ghost.onApprove
        split
        · exact hg
        · rfl
        · exact hg
        · exact absurd ⟨⟨_, rfl⟩, .inl ⟨rfl, rfl⟩⟩ ho
        · exact hg
      · rfl
    | _ => exact hg

theorem next_fails {g : Ghost} {o : Obs} (ho : Fails o) :
    (g.next o).sign = none ∧ (g.next o).attest = none := by
  obtain ⟨asked, here, event, reply⟩ := o
  obtain ⟨sw, out, h1, h2, h3⟩ := ho
  simp only at h1
  subst h1
  cases event with
  | apdu cla ins p1 p2 data rnd => simp [Ghost.next, h2, h3, Ghost.close]
  | left => exact ⟨rfl, rfl⟩
  | right => exact ⟨rfl, rfl⟩
  | both => simp [Ghost.next, h2, Ghost.close]

/-- Without an approval of the start of signing since a failure there is no signing session. -/
theorem no_sign_since {tr1 tr2 : List Obs} {o : Obs} (ho : Fails o)
    (hn : ∀ o' ∈ tr2, ¬ OpensSign o') : (know (tr2 ++ o :: tr1)).sign = none := by
  induction tr2 with
  | nil => exact (next_fails ho).1
  | cons p tr2 ih =>
    exact next_sign_none (ih (fun o' h' => hn o' (by simp [h']))) (hn p (by simp))

theorem no_attest_since {tr1 tr2 : List Obs} {o : Obs} (ho : Fails o)
    (hn : ∀ o' ∈ tr2, ¬ OpensAttest o') : (know (tr2 ++ o :: tr1)).attest = none := by
  induction tr2 with
  | nil => exact (next_fails ho).2
  | cons p tr2 ih =>
    exact next_attest_none (ih (fun o' h' => hn o' (by simp [h']))) (hn p (by simp))

/-- C19: after a failure every continuation command is answered with an error, until the next
session of its kind is opened. -/
theorem C19_until {env : Env} {nanoS : Bool} {key : Bytes} {tr1 tr2 : List Obs} {o : Obs}
    {d : Device} (h : Runs env nanoS key (tr2 ++ o :: tr1) d) (ho : Fails o) (p1 p2 : UInt8)
    (data : Bytes) (rnd : Rnd) :
    ((∀ o' ∈ tr2, ¬ OpensSign o') → signCont p1 = true →
      IsError (d.step env nanoS (.apdu 0xE0 0x21 p1 p2 data rnd)).2) ∧
    ((∀ o' ∈ tr2, ¬ OpensAttest o') → attestCont p1 = true →
      IsError (d.step env nanoS (.apdu 0xE0 0x20 p1 p2 data rnd)).2) := by
  constructor
  · intro hn hc
    by_contra hr
    obtain ⟨_, _, _, _, _, hS, _⟩ := sign_accepted h p1 p2 data rnd hc hr
    rw [no_sign_since ho hn] at hS
    simp at hS
  · intro hn hc
    by_contra hr
    obtain ⟨_, _, _, _, _, hS, _⟩ := attest_accepted h p1 p2 data rnd hc hr
    rw [no_attest_since ho hn] at hS
    simp at hS

/-- A second transaction start in the middle of a session: error, and the session is over. -/
example : ((after (demoOpen ++ demoTx.take 2)).step toyEnv false (cmd 0x21 0x10 7 [])).2 ≠ .sw 0x9000 [] ∧
    (after (demoOpen ++ demoTx.take 2 ++ [cmd 0x21 0x10 7 []])) = ⟨0, [1], .none, false, .zeroed, none⟩ ∧
    ((after (demoOpen ++ demoTx.take 2 ++ [cmd 0x21 0x10 7 []])).step toyEnv false
      (demoTx.getD 2 .both)).2 = .sw Sw.badState [] := by decide +kernel

/-- C20: an accepted continuation command carries the id of the open session of its own kind, and
ids are not 0. -/
theorem C20_id {env : Env} {nanoS : Bool} {key : Bytes} {tr : List Obs} {d : Device}
    (h : Runs env nanoS key tr d) (p1 p2 : UInt8) (data : Bytes) (rnd : Rnd) :
    (signCont p1 = true → ¬ IsError (d.step env nanoS (.apdu 0xE0 0x21 p1 p2 data rnd)).2 →
      p2 ≠ 0 ∧ ∃ S, (know tr).sign = some S ∧ p2 = S.id) ∧
    (attestCont p1 = true → ¬ IsError (d.step env nanoS (.apdu 0xE0 0x20 p1 p2 data rnd)).2 →
      p2 ≠ 0 ∧ ∃ S, (know tr).attest = some S ∧ p2 = S.id) := by
  constructor
  · intro hc hr
    obtain ⟨_, _, x, S, _, hS, hB, hp⟩ := sign_accepted h p1 p2 data rnd hc hr
    exact ⟨hp ▸ hB.id0, S, hS, hp.trans hB.id.symm⟩
  · intro hc hr
    obtain ⟨_, _, x, S, _, hS, hB, hp⟩ := attest_accepted h p1 p2 data rnd hc hr
    exact ⟨hp ▸ hB.id0, S, hS, hp.trans hB.id.symm⟩

/-- C20: a continuation command with another id than that of the open session is refused and kills
the session. -/
theorem C20_wrong {env : Env} {nanoS : Bool} {key : Bytes} {tr : List Obs} {d : Device}
    (h : Runs env nanoS key tr d) (hs : d.screen = none) (p1 p2 : UInt8) (data : Bytes) (rnd : Rnd)
    (hl : data.length ≤ 255) (h2 : p2 ≠ 0) :
    (signCont p1 = true → (∀ S, (know tr).sign = some S → S.id ≠ p2) →
      IsError (d.step env nanoS (.apdu 0xE0 0x21 p1 p2 data rnd)).2 ∧
      (d.step env nanoS (.apdu 0xE0 0x21 p1 p2 data rnd)).1 =
        ⟨d.connectedApp, key, .none, false, .zeroed, none⟩) ∧
    (attestCont p1 = true → (∀ S, (know tr).attest = some S → S.id ≠ p2) →
      IsError (d.step env nanoS (.apdu 0xE0 0x20 p1 p2 data rnd)).2 ∧
      (d.step env nanoS (.apdu 0xE0 0x20 p1 p2 data rnd)).1 =
        ⟨d.connectedApp, key, .none, false, .zeroed, none⟩) := by
  have hI := h.inv
  have hb : d.busy = false := by rw [hI.busy, hs]; rfl
  have key : d.setCommand .none = ⟨d.connectedApp, key, .none, false, .zeroed, none⟩ := by
    simp only [Device.setCommand, hI.key, hs]
  constructor
  · intro hc hS
    have e1 : d.step env nanoS (.apdu 0xE0 0x21 p1 p2 data rnd) = d.signSub env p1 p2 data := by
      have hc' : (0x10 ≤ p1 ∧ p1 ≤ 0x1A) ∨ p1 = 0x20 := by
        simpa [signCont] using hc
      simp [Device.step, Device.dispatch, Nat.not_lt.2 hl, h2, Device.signTransaction, hb, hc',
        (signCont_ne hc).1, (signCont_ne hc).2]
    rw [e1, ← key]
    by_cases hcmd : d.command = .signTransaction
    · have hid := hI.idle hs
      unfold Idle at hid
      rw [hcmd] at hid
      obtain ⟨x, S, hx, hS', hB⟩ := hid
      have hne : p2 ≠ x.session := by
        rw [← hB.id]; exact fun e => hS S hS' e.symm
      have : d.signSub env p1 p2 data = d.abort Sw.badSessionId := by
        simp [Device.signSub, hcmd, hx, hne]
      rw [this]
      exact ⟨⟨Sw.badSessionId, by decide, rfl⟩, rfl⟩
    · have : d.signSub env p1 p2 data = d.abort Sw.badState := by
        simp [Device.signSub, hcmd]
      rw [this]
      exact ⟨⟨Sw.badState, by decide, rfl⟩, rfl⟩
  · intro hc hS
    have e1 : d.step env nanoS (.apdu 0xE0 0x20 p1 p2 data rnd) = d.attestSub env p1 p2 data := by
      have hc' : p1 = 2 ∨ p1 = 3 ∨ p1 = 4 ∨ p1 = 5 := by
        simpa [attestCont, or_assoc] using hc
      simp [Device.step, Device.dispatch, Nat.not_lt.2 hl, h2, Device.attestInput, hb, hc',
        (attestCont_ne hc).1, (attestCont_ne hc).2]
    rw [e1, ← key]
    by_cases hcmd : d.command = .attestInput
    · have hid := hI.idle hs
      unfold Idle at hid
      rw [hcmd] at hid
      obtain ⟨x, S, hx, hS', hB⟩ := hid
      have hne : p2 ≠ x.session := by
        rw [← hB.id]; exact fun e => hS S hS' e.symm
      have : d.attestSub env p1 p2 data = d.abort Sw.badSessionId := by
        simp [Device.attestSub, hcmd, hx, hne]
      rw [this]
      exact ⟨⟨Sw.badSessionId, by decide, rfl⟩, rfl⟩
    · have : d.attestSub env p1 p2 data = d.abort Sw.badState := by
        simp [Device.attestSub, hcmd]
      rw [this]
      exact ⟨⟨Sw.badState, by decide, rfl⟩, rfl⟩

/-- C20: opening a session returns exactly its id, one byte different from 0; the session belongs to
the request that was on display, or to the attestation command just sent. -/
theorem C20_returned {env : Env} {nanoS : Bool} {key : Bytes} {tr : List Obs} {d : Device}
    (h : Runs env nanoS key tr d) (e : Event) :
    (OpensSign (d.observe env nanoS e) → ∃ s S, s ≠ 0 ∧ (d.step env nanoS e).2 = .sw 0x9000 [s] ∧
      (know (d.observe env nanoS e :: tr)).sign = some S ∧ S.id = s ∧ S.log = [] ∧
      S.start.ins = 0x21 ∧ S.start.p1 = 0x01 ∧ (know tr).pending = some S.start) ∧
    (OpensAttest (d.observe env nanoS e) → ∃ s S, s ≠ 0 ∧
      (d.step env nanoS e).2 = .sw 0x9000 [s] ∧
      (know (d.observe env nanoS e :: tr)).attest = some S ∧ S.id = s ∧ S.log = [] ∧
      S.start.ins = 0x20 ∧ S.start.p1 = 0x01) := by
  have hI := h.inv
  obtain ⟨d', r, hst, hT⟩ := step_cases env nanoS d e
  have hob : d.observe env nanoS e = ⟨d.asks, d.here, e, r⟩ := by
    simp only [Device.observe, hst]
  rw [hob]
  simp only [hst]
  constructor
  · rintro ⟨rfl, h2, out, h3⟩
    simp only at h2 h3
    subst h3
    generalize hr : Reply.sw 0x9000 out = r at hT
    cases hT with
    | @okSignInit s x token hs h1 hcb hx hu' =>
      obtain ⟨a, f0, p1, p2, p3⟩ := hI.asking s hs
      rw [hcb] at p3
      obtain ⟨q1, q2, q3, q4, network, path, token', p, s0, t, q5, q6, q7, _, q8, q9, q10⟩ := p3
      rw [hx] at q10
      simp only [Ctx.sign.injEq] at q10
      subst q10
      simp only [Reply.sw.injEq] at hr
      obtain ⟨-, rfl⟩ := hr
      refine ⟨s0, ⟨a, s0, []⟩, q7, rfl, ?_, rfl, rfl, q1, q2, p1⟩
      simp [know, Ghost.next, h2, Ghost.onApprove, p1, Sw.ok]
    | @okEpk s x hs h1 hcb hx => have := hI.asks hs; rw [hcb, h2] at this; simp [AsksFor] at this
    | @okDa s x hs h1 hcb hx => have := hI.asks hs; rw [hcb, h2] at this; simp [AsksFor] at this
    | @okAttest s x hs h1 hcb hx => have := hI.asks hs; rw [hcb, h2] at this; simp [AsksFor] at this
    | @okSignOutput s x t o last hs h1 hcb hx hu' hout hl =>
      have := hI.asks hs; rw [hcb, h2] at this; simp [AsksFor] at this
    | @okSignTx s x sig hs h1 hcb hx hsig =>
      have := hI.asks hs; rw [hcb, h2] at this; simp [AsksFor] at this
    | @failSignTx s x sw hs h1 hcb hx hsig =>
      have := hI.asks hs; rw [hcb, h2] at this; simp [AsksFor] at this
    | moveErr he => rcases he with ⟨he, _⟩ | ⟨he, _⟩ <;> cases he
    | reject => simp [status, Sw.deny] at hr
    | _ => cases hr
  · rintro ⟨⟨out, h3⟩, h2⟩
    simp only at h2 h3
    subst h3
    generalize hr : Reply.sw 0x9000 out = r at hT
    rcases h2 with ⟨rfl, h2⟩ | ⟨cla, p2, data, rnd, rfl⟩
    · cases hT with
      | @okAttest s x hs h1 hcb hx =>
        obtain ⟨a, f0, p1, p2, p3⟩ := hI.asking s hs
        rw [hcb] at p3
        obtain ⟨q1, q2, q3, q4, x0, s0, q5, q6, _, q7, q8⟩ := p3
        rw [hx] at q8
        simp only [Ctx.attest.injEq] at q8
        subst q8
        simp only [Reply.sw.injEq] at hr
        obtain ⟨-, rfl⟩ := hr
        refine ⟨s0, ⟨a, s0, true, (know tr).app, []⟩, q6, rfl, ?_, rfl, rfl, q1, q2⟩
        simp [know, Ghost.next, h2, Ghost.onApprove, p1, Sw.ok]
      | @okEpk s x hs h1 hcb hx => have := hI.asks hs; rw [hcb, h2] at this; simp [AsksFor] at this
      | @okDa s x hs h1 hcb hx => have := hI.asks hs; rw [hcb, h2] at this; simp [AsksFor] at this
      | @okSignInit s x token hs h1 hcb hx hu' =>
        have := hI.asks hs; rw [hcb, h2] at this; simp [AsksFor] at this
      | @okSignOutput s x t o last hs h1 hcb hx hu' hout hl =>
        have := hI.asks hs; rw [hcb, h2] at this; simp [AsksFor] at this
      | @okSignTx s x sig hs h1 hcb hx hsig =>
        have := hI.asks hs; rw [hcb, h2] at this; simp [AsksFor] at this
      | @failSignTx s x sw hs h1 hcb hx hsig =>
        have := hI.asks hs; rw [hcb, h2] at this; simp [AsksFor] at this
      | moveErr he => rcases he with ⟨he, _⟩ | ⟨he, _⟩ <;> cases he
      | reject => simp [status, Sw.deny] at hr
      | _ => cases hr
    · cases hT with
      | neutral hn =>
        have := (neutral_ghost hn).1
        simp only [status, Reply.sw.injEq] at hr
        exact absurd hr.1.symm this
      | abort hb hsw =>
        simp only [status, Reply.sw.injEq] at hr
        exact absurd hr.1.symm hsw
      | @attestKnown p2 data rnd x s hb h2 hi hs hk =>
        simp only [Reply.sw.injEq] at hr
        obtain ⟨-, rfl⟩ := hr
        exact ⟨s, ⟨⟨0x20, 0x01, p2, data, rnd⟩, s, false, (know tr).app, []⟩, newSession_ne hs, rfl,
          rfl, rfl, rfl, rfl, rfl⟩
      | attestOk hb hl hsub => simp at hsub
      | moveErr he => rcases he with ⟨he, _⟩ | ⟨he, _⟩ <;> cases he
      | _ => cases hr

/-- Session id 7: accepted with 7, refused with 8. -/
example : ((after demoOpen).step toyEnv false (cmd 0x21 0x10 7 [0, 1, 0, 0, 0, 0, 2])).2 = .sw 0x9000 [] ∧
    IsError ((after demoOpen).step toyEnv false (cmd 0x21 0x10 8 [0, 1, 0, 0, 0, 0, 2])).2 ∧
    (know (seen demoOpen)).sign.map (·.id) = some 7 := by
  refine ⟨by decide +kernel, ⟨Sw.badSessionId, by decide, by decide +kernel⟩, by decide +kernel⟩

/-- C46: when no session is open and nothing is asked, the context is all zero: no ephemeral key, no
transaction data, no key of an earlier operation. -/
theorem C46_idle {env : Env} {nanoS : Bool} {key : Bytes} {tr : List Obs} {d : Device}
    (h : Runs env nanoS key tr d) (hs : d.screen = none) (h1 : (know tr).sign = none)
    (h2 : (know tr).attest = none) : d.ctx = .zeroed := by
  have hid := h.inv.idle hs
  unfold Idle at hid
  split at hid
  · exact hid
  · exact hid
  · exact hid.elim
  · obtain ⟨_, _, _, h3, _⟩ := hid
    rw [h2] at h3; simp at h3
  · obtain ⟨_, _, _, h3, _⟩ := hid
    rw [h1] at h3; simp at h3

/-- During a session the context holds the ephemeral key; after the signature nothing. -/
example : (after (demoOpen ++ demoTx)).ctx ≠ .zeroed ∧
    after (demoOpen ++ demoTx ++ demoConfirm) = ⟨0, [1], .none, false, .zeroed, none⟩ := by
  decide +kernel

/-- C46: a command that starts an operation behaves exactly as on an erased context: nothing of the
previous operation is used or kept. -/
theorem C46_fresh {env : Env} {nanoS : Bool} {d : Device} (hb : d.busy = false)
    (ins p1 p2 : UInt8) (data : Bytes) (rnd : Rnd) (hs : starts ins p1 p2 = true)
    (hl : data.length ≤ 255) :
    d.step env nanoS (.apdu 0xE0 ins p1 p2 data rnd) =
      ({ d with command := .none, ctx := .zeroed }).step env nanoS
        (.apdu 0xE0 ins p1 p2 data rnd) := by
  have hn : ¬ d.busy = true := by rw [hb]; decide
  have k1 : ∀ b, d.extPubKey env data b =
      ({ d with command := .none, ctx := .zeroed } : Device).extPubKey env data b := by
    intro b
    unfold Device.extPubKey
    rw [if_neg hn, if_neg hn]; rfl
  have k2 : ∀ b c, d.deriveAddress env data b c =
      ({ d with command := .none, ctx := .zeroed } : Device).deriveAddress env data b c := by
    intro b c
    unfold Device.deriveAddress
    rw [if_neg hn, if_neg hn]; rfl
  have k3 : ∀ b, d.attestStart data b rnd =
      ({ d with command := .none, ctx := .zeroed } : Device).attestStart data b rnd := fun b => rfl
  have k4 : ∀ b, d.signStart env data b rnd =
      ({ d with command := .none, ctx := .zeroed } : Device).signStart env data b rnd :=
    fun b => rfl
  simp only [starts, Bool.or_eq_true, Bool.and_eq_true, decide_eq_true_eq] at hs
  simp only [Device.step, if_neg (Nat.not_lt.2 hl)]
  rcases hs with ⟨rfl | rfl, hp⟩ | ⟨⟨rfl | rfl, rfl⟩, h2⟩
  · simp [paramsOk] at hp
    have k : ∀ D : Device, D.dispatch env 0xE0 0x10 p1 p2 data rnd =
        D.extPubKey env data (p1 = 2) := by
      intro D
      obtain ⟨rfl | rfl, rfl⟩ := hp <;> simp [Device.dispatch]
    rw [k, k, k1]
  · simp [paramsOk] at hp
    have k : ∀ D : Device, D.dispatch env 0xE0 0x11 p1 p2 data rnd =
        D.deriveAddress env data (p1 = 2) (p2 = 2) := by
      intro D
      obtain ⟨rfl | rfl, rfl | rfl⟩ := hp <;> simp [Device.dispatch]
    rw [k, k, k2]
  · have k : ∀ D : Device, D.busy = false → D.dispatch env 0xE0 0x20 0x01 p2 data rnd =
        D.attestStart data (p2 = 2) rnd := by
      intro D hD
      rcases h2 with rfl | rfl <;> simp [Device.dispatch, Device.attestInput, hD]
    exact (k d hb).trans ((k3 _).trans (k { d with command := .none, ctx := .zeroed } hb).symm)
  · have k : ∀ D : Device, D.busy = false → D.dispatch env 0xE0 0x21 0x01 p2 data rnd =
        D.signStart env data (p2 = 2) rnd := by
      intro D hD
      rcases h2 with rfl | rfl <;> simp [Device.dispatch, Device.signTransaction, hD]
    exact (k d hb).trans ((k4 _).trans (k { d with command := .none, ctx := .zeroed } hb).symm)

/-- A start command in the middle of a transaction. -/
example : (after (demoOpen ++ demoTx)).busy = false ∧ starts 0x21 0x01 1 = true ∧
    (after (demoOpen ++ demoTx)).step toyEnv false (cmd 0x21 0x01 1 (0 :: demoPath 3)) =
      (after []).step toyEnv false (cmd 0x21 0x01 1 (0 :: demoPath 3)) := by
  decide +kernel

end Ergo
