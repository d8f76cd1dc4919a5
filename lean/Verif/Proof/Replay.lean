import Verif.Spec.Replay
import Verif.Proof.Inv
/-!
# Every open session is one that was reached without detours
-/
namespace Ergo
open Spec

variable {env : Env} {nanoS : Bool} {key : Bytes}

theorem run_append (d : Device) (es fs : List Event) :
    d.run env nanoS (es ++ fs) =
      (((d.run env nanoS es).1.run env nanoS fs).1,
        (d.run env nanoS es).2 ++ ((d.run env nanoS es).1.run env nanoS fs).2) := by
  induction es generalizing d with
  | nil => rfl
  | cons e es ih => simp [Device.run, ih]

theorem Spec.Leads.append {d0 d d' : Device} {es fs : List Event} (h : Leads env nanoS d0 es d)
    (h' : Leads env nanoS d fs d') : Leads env nanoS d0 (es ++ fs) d' := by
  obtain ⟨rfl, h2⟩ := h
  obtain ⟨rfl, h4⟩ := h'
  refine ⟨by rw [run_append], ?_⟩
  rw [run_append]
  intro r hr
  rcases List.mem_append.1 hr with hr | hr
  · exact h2 r hr
  · exact h4 r hr

theorem Spec.Leads.one {d d' : Device} {e : Event} {r : Reply} (h : d.step env nanoS e = (d', r))
    (hr : r = .wait ∨ ∃ out, r = .sw 0x9000 out) : Leads env nanoS d [e] d' := by
  constructor
  · simp [Device.run, h]
  · intro r' hr'
    simp [Device.run, h] at hr'
    rw [hr']
    exact hr

/-- Commands after the start of a session do not use random values. -/
theorem cont_rnd (d : Device) {ins sub : UInt8} (hi : ins = 0x20 ∨ ins = 0x21) (hs : sub ≠ 1) (p2 : UInt8)
    (data : Bytes) (rnd rnd' : Rnd) :
    d.step env nanoS (.apdu 0xE0 ins sub p2 data rnd) =
      d.step env nanoS (.apdu 0xE0 ins sub p2 data rnd') := by
  rcases hi with rfl | rfl <;>
    simp [Device.step, Device.dispatch, Device.attestInput, Device.signTransaction, hs]

/-- The command asking for the signature does not use its data. -/
theorem confirm_data (d : Device) (p2 : UInt8) {data data' : Bytes} (hl : data.length ≤ 255)
    (hl' : data'.length ≤ 255) (rnd rnd' : Rnd) :
    d.step env nanoS (.apdu 0xE0 0x21 0x20 p2 data rnd) =
      d.step env nanoS (.apdu 0xE0 0x21 0x20 p2 data' rnd') := by
  have hl : ¬ data.length > 255 := by omega
  have hl' : ¬ data'.length > 255 := by omega
  simp [Device.step, Device.dispatch, Device.signTransaction, Device.signSub, hl, hl']

/-- From the first page of a question, two presses of the left button lead to Approve. -/
theorem toApprove_run {d : Device} {f0 : Flow} {cb : Callback} (hf : IsStatic f0 ∨ IsDyn f0)
    (hs : d.screen = some ⟨f0, cb⟩) : ∃ f : Flow, f.here = .approve ∧
      d.run env nanoS toApprove =
        ((({ d with screen := some ⟨f, cb⟩ }).act env cb true).1,
          [.wait, .wait, (({ d with screen := some ⟨f, cb⟩ }).act env cb true).2]) := by
  rcases hf with ⟨l, rfl, hl⟩ | ⟨p, n, hn, rfl⟩
  · have e1 : (Flow.static l).left = ⟨{ Flow.static l with idx := l.length + 1 }, none⟩ := by
      simp [Flow.left, Flow.static, Flow.arrive, Flow.here]
    have e2 : ({ Flow.static l with idx := l.length + 1 } : Flow).left =
        ⟨{ Flow.static l with idx := l.length }, none⟩ := by
      simp [Flow.left, Flow.static, Flow.arrive, Flow.here]
    refine ⟨{ Flow.static l with idx := l.length }, by simp [Flow.static, Flow.here], ?_⟩
    simp only [toApprove, Device.run, Device.step, hs, Device.move, e1, e2, Device.both]
    simp [Flow.static, Flow.here]
  · refine ⟨{ Flow.dynamic p n with idx := 4 }, rfl, ?_⟩
    simp only [toApprove, Device.run, Device.step, hs, Device.move]
    rfl

/-- What is known about the session in progress. -/
def Canon (env : Env) (nanoS : Bool) (key : Bytes) (g : Ghost) (d : Device) : Prop :=
  match d.screen with
  | none =>
    match d.command with
    | .signTransaction => ∃ S, g.sign = some S ∧ Leads env nanoS (.boot key) (replaySign S) d
    | .attestInput =>
      ∃ S, g.attest = some S ∧ Leads env nanoS (powerOn key S.app) (replayAttest S) d
    | _ => True
  | some s =>
    match s.cb with
    | .signInit => ∀ a, g.pending = some a → a.data.length ≤ 255
    | .attest => (∀ a, g.pending = some a → a.data.length ≤ 255) ∧
      ∀ x, d.ctx = .attest x → isKnown d.connectedApp x.token = false
    | .signOutput => ∃ S n, g.sign = some S ∧ 0 < n ∧
      Leads env nanoS (.boot key) (replaySign S)
        { d with screen := some ⟨.dynamic ⟨.confirmOutput, .nothing⟩ n, .signOutput⟩ }
    | .signTx => ∃ S f0, g.sign = some S ∧ IsDyn f0 ∧
      Leads env nanoS (.boot key) (replayConfirm S) { d with screen := some ⟨f0, .signTx⟩ }
    | _ => True

theorem replaySign_log (S : SignSess) (e : Entry) :
    replaySign { S with log := S.log ++ [e] } = replaySign S ++ entryEvents S.id e := by
  simp [replaySign]

theorem replayAttest_log (S : AttestSess) (c : UInt8 × Bytes) :
    replayAttest { S with log := S.log ++ [c] } =
      replayAttest S ++ [.apdu 0xE0 0x20 c.1 S.id c.2 emptyRnd] := by
  simp [replayAttest]

theorem step_short {d d' : Device} {cla ins p1 p2 : UInt8} {data : Bytes} {rnd : Rnd} {r : Reply}
    (h : d.step env nanoS (.apdu cla ins p1 p2 data rnd) = (d', r)) (hr : r ≠ status Sw.wrongDataLength) :
    data.length ≤ 255 := by
  by_contra hc
  have hc : data.length > 255 := by omega
  simp only [Device.step, hc, if_true, Prod.mk.injEq] at h
  exact hr h.2.symm

/-- The first command of an attestation session, application known. -/
theorem attest_known_step {d : Device} {p2 : UInt8} {data : Bytes} {rnd : Rnd} {x : AttestCtx} {s : UInt8}
    (hb : d.busy = false) (hl : data.length ≤ 255) (h2 : p2 = 1 ∨ p2 = 2)
    (hi : attestInit data (p2 = 2) 0 = .ok x) (hs : newSession 0 rnd.u8s = some s)
    (hk : isKnown d.connectedApp x.token) :
    d.step env nanoS (.apdu 0xE0 0x20 0x01 p2 data rnd) =
      ({ d.setCommand .attestInput with ctx := .attest { x with session := s, state := .approved } },
        .sw Sw.ok [s]) := by
  have hl : ¬ data.length > 255 := by omega
  have hz : p2 ≠ 0 := by rcases h2 with rfl | rfl <;> decide
  have hp : ¬ (p2 ≠ 1 ∧ p2 ≠ 2) := by tauto
  simp only [Device.step, hl, if_false, Device.dispatch, Device.attestInput, hb]
  simp [hp, hz, Device.attestStart, hi, hs, Device.setCommand, hk]

/-- The first command of an attestation session, application not known. -/
theorem attest_ask_step {d : Device} {p2 : UInt8} {data : Bytes} {rnd : Rnd} {x : AttestCtx} {s : UInt8}
    (hb : d.busy = false) (hl : data.length ≤ 255) (h2 : p2 = 1 ∨ p2 = 2)
    (hi : attestInit data (p2 = 2) 0 = .ok x) (hs : newSession 0 rnd.u8s = some s)
    (hk : isKnown d.connectedApp x.token = false) :
    d.step env nanoS (.apdu 0xE0 0x20 0x01 p2 data rnd) =
      (({ d.setCommand .attestInput with ctx := .attest { x with session := s } }).display
        (.static (attestSteps x.token)) .attest, .wait) := by
  have hl : ¬ data.length > 255 := by omega
  have hz : p2 ≠ 0 := by rcases h2 with rfl | rfl <;> decide
  have hp : ¬ (p2 ≠ 1 ∧ p2 ≠ 2) := by tauto
  simp only [Device.step, hl, if_false, Device.dispatch, Device.attestInput, hb]
  simp [hp, hz, Device.attestStart, hi, hs, Device.setCommand, hk, attestSteps]

/-- The first command of a signing session. -/
theorem sign_ask_step {d : Device} {p2 network : UInt8} {data : Bytes} {rnd : Rnd} {path : List UInt32}
    {token : UInt32} {p : P2pk} {s : UInt8} {t : List Char}
    (hb : d.busy = false) (hl : data.length ≤ 255) (h2 : p2 = 1 ∨ p2 = 2)
    (hp : parseSignInit data (p2 = 2) = .ok (network, path, token))
    (hi : p2pkInit env path network rnd.keys = .ok p) (hs : newSession 0 rnd.u8s = some s)
    (hf : pathFormat path bip32StrLen = some t) :
    d.step env nanoS (.apdu 0xE0 0x21 0x01 p2 data rnd) =
      (({ d.setCommand .signTransaction with
          ctx := .sign ⟨false, s, { p with u := .uiApprove token }⟩ }).display
        (.static (signInitSteps d t token)) .signInit, .wait) := by
  have hl : ¬ data.length > 255 := by omega
  have hz : p2 ≠ 0 := by rcases h2 with rfl | rfl <;> decide
  have hq : ¬ (p2 ≠ 1 ∧ p2 ≠ 2) := by tauto
  simp only [Device.step, hl, if_false, Device.dispatch, Device.signTransaction, hb]
  simp [hq, hz, Device.signStart, hp, hi, hs, hf, Device.setCommand, signInitSteps]
  rfl

theorem Canon.trans {g : Ghost} {d d' : Device} {e : Event} {r : Reply} (hI : Inv env key g d)
    (hC : Canon env nanoS key g d) (hst : d.step env nanoS e = (d', r)) (hT : Trans env nanoS d e d' r)
    (hh : r ≠ .hang) (hu : r ≠ .ub) :
    Canon env nanoS key (g.next ⟨d.asks, d.here, e, r⟩) d' := by
  cases hT with
  | neutral h =>
    obtain ⟨h1, h2⟩ := neutral_ghost h
    simp only [Ghost.next, status, if_neg h1, h2, if_true]
    exact hC
  | version hl => simpa [Ghost.next, Ghost.onOk, Sw.ok] using hC
  | name hl => simpa [Ghost.next, Ghost.onOk, Sw.ok] using hC
  | abort hb hsw hi =>
    have hs := idle_of hI hb
    simp [Canon, Device.setCommand, hs]
  | deriveFail hb => have hs := idle_of hI hb; simp [Canon, Device.setCommand, hs]
  | epkSend hb => have hs := idle_of hI hb; simp [Canon, Device.setCommand, hs]
  | epkAsk hb => simp [Canon, Device.display]
  | daSend hb => have hs := idle_of hI hb; simp [Canon, Device.setCommand, hs]
  | daAskSend hb => simp [Canon, Device.display]
  | daAskShow hb => simp [Canon, Device.display]
  | attestHang hb => exact absurd rfl hh
  | @attestKnown p2 data rnd x s hb h2 hi hs hk =>
    have hsc := idle_of hI hb
    simp only [Canon, Device.setCommand, hsc]
    refine ⟨_, rfl, ?_⟩
    have hl := step_short hst (by simp [status])
    have h := attest_known_step (env := env) (nanoS := nanoS) (d := powerOn key g.app) rfl hl h2 hi hs
      (by rw [← hk, hI.app]; rfl)
    refine Leads.one (r := .sw Sw.ok [s]) ?_ (.inr ⟨_, rfl⟩)
    refine h.trans ?_
    simp [powerOn, Device.boot, Device.setCommand, hI.key, hI.app]
  | attestAsk hb h2 hi hs hk =>
    have hl := step_short hst (by simp [status])
    simp only [Canon, Device.display]
    refine ⟨?_, ?_⟩
    · rintro a ha
      simp [Ghost.next, Ghost.onWait] at ha
      subst ha
      exact hl
    · rintro x hx
      simp [Device.setCommand] at hx ⊢
      subst hx
      exact hk
  | @attestOk sub p2 data rnd x x' out hb hl hsub hc hx hs ho =>
    have hsc := idle_of hI hb
    simp only [Canon, hsc, hc] at hC ⊢
    obtain ⟨S, hS, hL⟩ := hC
    have hid := hI.idle hsc
    simp only [Idle, hc] at hid
    obtain ⟨x1, S1, e1, e2, e3⟩ := hid
    rw [hx] at e1
    cases e1
    rw [hS] at e2
    cases e2
    have hne : sub ≠ 1 := by rcases hsub with rfl | rfl | rfl | rfl <;> decide
    refine ⟨{ S with log := S.log ++ [(sub, data)] }, ?_, ?_⟩
    · simp [Ghost.next, Ghost.onOk, Sw.ok, hne, hS]
    · rw [replayAttest_log]
      refine hL.append (Leads.one (r := .sw Sw.ok out) ?_ (.inr ⟨_, rfl⟩))
      rw [e3.id, ← hs, cont_rnd d (.inl rfl) hne p2 data emptyRnd rnd, hst]
      simp [hc, hsc]
  | attestUb hb => exact absurd rfl hu
  | signHang hb => exact absurd rfl hh
  | signInitUb hb => exact absurd rfl hu
  | signAsk hb h2 hp hi hs hf =>
    have hl := step_short hst (by simp [status])
    simp only [Canon, Device.display]
    rintro a ha
    simp [Ghost.next, Ghost.onWait] at ha
    subst ha
    exact hl
  | @signOk sub p2 data rnd x p hb hl hsub hc hx hs ha ho hn =>
    have hsc := idle_of hI hb
    simp only [Canon, hsc, hc] at hC ⊢
    obtain ⟨S, hS, hL⟩ := hC
    have hid := hI.idle hsc
    simp only [Idle, hc] at hid
    obtain ⟨x1, S1, e1, e2, e3⟩ := hid
    rw [hx] at e1
    cases e1
    rw [hS] at e2
    cases e2
    have hne : sub ≠ 1 := by rintro rfl; exact absurd hsub.1 (by decide)
    refine ⟨{ S with log := S.log ++ [.cmd sub data] }, ?_, ?_⟩
    · simp [Ghost.next, Ghost.onOk, Ghost.log, Sw.ok, status, hS]
    · rw [replaySign_log]
      refine hL.append (Leads.one (r := status Sw.ok) ?_ (.inr ⟨_, rfl⟩))
      rw [e3.id, ← hs, cont_rnd d (.inr rfl) hne p2 data emptyRnd rnd, hst]
      simp [hc, hsc, hs]
  | @signShow sub p2 data rnd x p t o hb hl hsub hc hx hs ha ho hn hux hout =>
    have hsc := idle_of hI hb
    simp only [Canon, hsc, hc, Device.display] at hC ⊢
    obtain ⟨S, hS, hL⟩ := hC
    have hid := hI.idle hsc
    simp only [Idle, hc] at hid
    obtain ⟨x1, S1, e1, e2, e3⟩ := hid
    rw [hx] at e1
    cases e1
    rw [hS] at e2
    cases e2
    have hne : sub ≠ 1 := by rintro rfl; exact absurd hsub.1 (by decide)
    have hn2 : sub ≠ 0x20 := by rintro rfl; exact absurd hsub.2 (by decide)
    refine ⟨{ S with log := S.log ++ [.cmd sub data] }, outputScreenCount o, ?_, ?_, ?_⟩
    · simp [Ghost.next, Ghost.onWait, Ghost.log, hne, hn2, hS]
    · exact outputScreenCount_pos o
    · rw [replaySign_log]
      refine hL.append (Leads.one (r := .wait) ?_ (.inl rfl))
      rw [e3.id, ← hs, cont_rnd d (.inr rfl) hne p2 data emptyRnd rnd, hst, ← hs]
      simp [Device.display, hc]
  | signUb hb => exact absurd rfl hu
  | @signConfirm p2 data rnd x hb hl hc hx hs ha hp =>
    have hsc := idle_of hI hb
    simp only [Canon, hsc, hc, Device.display] at hC ⊢
    obtain ⟨S, hS, hL⟩ := hC
    have hid := hI.idle hsc
    simp only [Idle, hc] at hid
    obtain ⟨x1, S1, e1, e2, e3⟩ := hid
    rw [hx] at e1
    cases e1
    rw [hS] at e2
    cases e2
    refine ⟨S, _, ?_, ⟨⟨.approveSigning, .nothing⟩, txScreenCount x.p.amounts, ?_, rfl⟩, ?_⟩
    · simp [Ghost.next, Ghost.onWait, hS]
    · exact txScreenCount_pos _
    · refine hL.append (Leads.one (r := .wait) ?_ (.inl rfl))
      rw [e3.id, ← hs, confirm_data d p2 (data' := data) (by simp) hl emptyRnd rnd, hst, ← hs]
      simp [Device.display, hc]
  | idle he hs => rcases he with rfl | rfl | rfl <;> exact hC
  | @move e s m he hs hm =>
    have hg : g.next ⟨d.asks, d.here, e, .wait⟩ = g := by
      rcases he with ⟨rfl, -⟩ | ⟨rfl, -⟩ <;> rfl
    rw [hg]
    simp only [Canon, hs] at hC ⊢
    exact hC
  | moveErr he hs hm hk => simp [Canon, Device.setCommand, Device.menu]
  | moveUb => exact absurd rfl hu
  | click hs h1 h2 h3 => simpa [Ghost.next] using hC
  | reject hs h1 => simp [Canon, Device.setCommand, Device.menu]
  | okEpk hs => simp [Canon, Device.setCommand, Device.menu]
  | okDa hs => simp [Canon, Device.setCommand, Device.menu]
  | @okAttest s x hs h1 hcb hx =>
    obtain ⟨a, f0, hp, hf, hA⟩ := hI.asking s hs
    simp only [Canon, hs, hcb] at hC
    rw [hcb] at hA
    obtain ⟨ai, a1, a2, hc, x0, sid, hi, hs0, hn, rfl, hx0⟩ := hA
    rw [hx] at hx0
    simp only [Ctx.attest.injEq] at hx0
    have ht : d.asks = some .confirmAttest := by rw [asks_eq hs hf]; rfl
    have hl := hC.1 a hp
    have hk := hC.2 x hx
    simp only [Canon, Device.menu, hc, Ghost.next, Sw.ok, if_true, ht, Ghost.onApprove, hp]
    refine ⟨_, rfl, ?_⟩
    subst hx0
    have h := attest_ask_step (env := env) (nanoS := nanoS) (d := powerOn key g.app) rfl hl a2 hi hn
      (by rw [← hk, hI.app]; rfl)
    have h1 := Spec.Leads.one h (.inl rfl)
    obtain ⟨f, -, h2⟩ := toApprove_run (env := env) (nanoS := nanoS)
      (d := ({ (powerOn key g.app).setCommand .attestInput with ctx := .attest { x0 with session := sid } }).display
        (.static (attestSteps x0.token)) .attest) (.inl ⟨_, rfl, attestSteps_pages _⟩) rfl
    refine h1.append (fs := toApprove ++ []) ⟨?_, ?_⟩
    · rw [List.append_nil, h2]
      simp [Device.act, Device.actAttest, powerOn, Device.boot, Device.setCommand, Device.menu,
        Device.display, hI.key]
    · rw [List.append_nil, h2]
      simp [Device.act, Device.actAttest, powerOn, Device.boot, Device.setCommand, Device.menu,
        Device.display, Sw.ok]
  | @okSignInit s x token hs h1 hcb hx hux =>
    obtain ⟨a, f0, hp, hf, hA⟩ := hI.asking s hs
    simp only [Canon, hs, hcb] at hC
    rw [hcb] at hA
    obtain ⟨ai, a1, a2, hc, network, path, token', p, sid, t, hps, hi, hs0, hn, hpf, rfl, hx0⟩ := hA
    rw [hx] at hx0
    simp only [Ctx.sign.injEq] at hx0
    subst hx0
    cases hux
    have ht : d.asks = some .p2pkSigning := by rw [asks_eq hs hf]; rfl
    have hl := hC a hp
    simp only [Canon, Device.menu, hc, Ghost.next, Sw.ok, if_true, ht, Ghost.onApprove, hp]
    refine ⟨_, rfl, ?_⟩
    have h := sign_ask_step (env := env) (nanoS := nanoS) (d := Device.boot key) rfl hl a2 hps hi hn hpf
    have h1 := Spec.Leads.one h (.inl rfl)
    refine h1.append (fs := [.both]) ⟨?_, ?_⟩
    · simp [Device.run, Device.step, Device.display, Device.both, Flow.static, Flow.here,
        signInitSteps, Device.act, Device.actSignInit, Device.boot, Device.setCommand, Device.menu,
        hI.key]
    · simp [Device.run, Device.step, Device.display, Device.both, Flow.static, Flow.here,
        signInitSteps, Device.act, Device.actSignInit, Device.boot, Device.setCommand, Device.menu,
        Sw.ok]
  | @okSignOutput s x t o last hs h1 hcb hx hux hout hl =>
    obtain ⟨a, f0, hp, hf, hA⟩ := hI.asking s hs
    simp only [Canon, hs, hcb] at hC
    rw [hcb] at hA
    obtain ⟨ai, a1, a2, hc, x1, S1, t1, o1, hx1, hS1, hB, hu1, ho1, rfl⟩ := hA
    obtain ⟨S, n, hS, hd, hL⟩ := hC
    have ht : d.asks = some .confirmOutput := by rw [asks_eq hs hf]; rfl
    simp only [Canon, Device.menu, hc, Ghost.next, status, Sw.ok, if_true, ht, Ghost.onApprove, Ghost.log, hS,
      Option.map_some]
    refine ⟨_, rfl, ?_⟩
    rw [replaySign_log]
    refine hL.append ?_
    obtain ⟨f, -, h2⟩ := toApprove_run (env := env) (nanoS := nanoS)
      (d := { d with screen := some ⟨.dynamic ⟨.confirmOutput, .nothing⟩ n, .signOutput⟩ })
      (.inr ⟨_, n, hd, rfl⟩) rfl
    have h3 : ({ d with screen := some ⟨f, .signOutput⟩ } : Device).act env .signOutput true =
        (({ d with busy := false
                   ctx := .sign { x with p := { x.p with u := .transaction { t with lastChange := last } } }
          }).menu, status Sw.ok) := by
      simp only [Device.act, hx, Device.actSignOutput, hux, hout, if_true]
      rcases hl with ⟨q1, q2⟩ | ⟨q1, q2⟩ <;> simp [q1, q2, Device.menu]
    refine ⟨?_, ?_⟩
    · show (Device.run env nanoS _ toApprove).1 = _
      rw [h2]
      simp only [h3, Device.menu]
      simp [hc]
    · show ∀ r ∈ (Device.run env nanoS _ toApprove).2, _
      rw [h2]
      simp only [h3]
      simp [status, Sw.ok]
  | okSignTx hs => simp [Canon, Device.setCommand, Device.menu]
  | failSignTx hs => simp [Canon, Device.setCommand, Device.menu]
  | actUb => exact absurd rfl hu

theorem Runs.canon {tr : List Obs} {d : Device} (h : Runs env nanoS key tr d) :
    Canon env nanoS key (know tr) d := by
  induction h with
  | boot => simp [Canon, Device.boot]
  | step e h hh hu ih => exact Canon.trans h.inv ih rfl (step_trans rfl) hh hu

end Ergo
