import Verif.Proof.JoinOps
import Verif.Proof.AttSim
import Verif.Spec.Chunks
/-!
# Replaying a session from its joined steps
-/
namespace Ergo
open Spec

theorem inPieces_iff {sub : UInt8} (h : inPieces sub = true) :
    sub = 0x11 ∨ sub = 0x13 ∨ sub = 0x14 ∨ sub = 0x16 ∨ sub = 0x19 ∨ sub = 0x1A := by
  simpa [inPieces] using h

theorem withTx_started {p p' : P2pk} {f : FullSt → FullSt × Res FullErr} (h : p.withTx f = .ok p') :
    p'.state = p.state := by
  unfold P2pk.withTx at h
  split at h
  · split at h <;> cases h <;> rfl
  · cases h

/-- A finalized operation accepts nothing, and no command finalizes it. -/
theorem signOp_open {env : Env} {key : Bytes} {p p' : P2pk} {sub : UInt8} {data : Bytes}
    (h : signOp env key p sub data = .ok p') : p.state ≠ .finalized ∧ p'.state ≠ .finalized := by
  have out : ∀ {f g}, p.withOut f g = .ok p' → p.state ≠ .finalized ∧ p'.state ≠ .finalized := by
    intro f g h
    obtain ⟨hs, t, o, x1, r1, o1, _, _, _, _, _, rfl⟩ := withOut_cases h
    refine ⟨by rw [hs]; simp, ?_⟩
    simp only [P2pk.checkFinished]
    split
    · simp
    · rw [hs]; simp
  have tx : ∀ {f}, p.state = .txStarted ∨ p.state = .inputsStarted → p.withTx f = .ok p' →
      p.state ≠ .finalized ∧ p'.state ≠ .finalized := by
    intro f hs h
    rw [withTx_started h]
    rcases hs with hs | hs <;> rw [hs] <;> simp
  unfold signOp at h
  split at h
  · unfold opStart P2pk.startTx at h
    split at h
    · cases h
    split at h
    · cases h
    rename_i hs
    split at h
    · cases h
    · cases h
    · cases h
      exact ⟨by rw [not_not.1 hs]; simp, by simp⟩
  split at h
  · unfold P2pk.addTokens at h
    split at h
    · cases h
    · rename_i hs; exact tx (.inl (not_not.1 hs)) h
  split at h
  · unfold opFrame at h
    simp only at h
    split at h
    · cases h
    split at h
    · cases h
    split at h
    · cases h
    split at h
    · unfold P2pk.addInputTokens at h
      split at h
      · cases h
      · rename_i hs; exact tx (.inr (not_not.1 hs)) h
    · split at h
      · rename_i q hq
        have h1 : q.state = .inputsStarted ∧ p.state ≠ .finalized := by
          unfold P2pk.addInput at hq
          split at hq
          · cases hq
          rename_i hs
          split at hq
          · split at hq
            · cases hq
            · cases hq
              refine ⟨rfl, ?_⟩
              intro e
              simp [e] at hs
          · rename_i hne
            exact absurd hq (hne _)
        unfold P2pk.addInputTokens at h
        split at h
        · cases h
        · rw [withTx_started h, h1.1]
          exact ⟨h1.2, by simp⟩
      · rename_i hne
        exact absurd h (hne _)
  split at h
  · unfold P2pk.addExtension at h
    split at h
    · cases h
    · rename_i hs; exact tx (.inr (not_not.1 hs)) h
  split at h
  · unfold P2pk.addDataInputs at h
    split at h
    · cases h
    · rename_i hs; exact tx (.inr (not_not.1 hs)) h
  split at h
  · unfold opOutput P2pk.addOutput at h
    split at h
    · cases h
    split at h
    · cases h
    rename_i hs
    split at h
    · split at h
      · cases h
        refine ⟨?_, by simp⟩
        intro e
        simp [e] at hs
      · cases h
    · rename_i hne
      exact absurd h (hne _)
  split at h
  · exact out h
  split at h
  · unfold opFee at h
    split at h
    · cases h
    · exact out h
  split at h
  · unfold opChange at h
    split at h
    · cases h
    split at h
    · cases h
    split at h
    · cases h
    · exact out h
  split at h
  · exact out h
  · exact out h

/-! ## Signing -/

/-- The operation at the start of a session. -/
def startOf (env : Env) (S : SignSess) : Option P2pk :=
  match parseSignInit S.start.data (S.start.p2 = 2) with
  | .ok (network, path, token) =>
    match p2pkInit env path network S.start.rnd.keys with
    | .ok p0 => some { p0 with u := .uiApprove token }
    | _ => none
  | _ => none

/-- The operation with another path of the last change output. -/
def P2pk.setLast (p : P2pk) (last : List UInt32) : P2pk :=
  match p.u with
  | .transaction t => { p with u := .transaction { t with lastChange := last } }
  | _ => p

/-- The path remembered when the current output is approved. -/
def P2pk.toRemember (p : P2pk) : List UInt32 :=
  match p.u with
  | .transaction t =>
    match t.out with
    | some o =>
      if o.type = .bip32 then (match o.data with | .path q => q | _ => []) else []
    | none => []
  | _ => []

/-- The command puts an output on display. -/
def displays (p : P2pk) (sub : UInt8) : Bool := !decide (sub < 0x16) && p.shouldShow == some true

/-- Effect of one step of a session. -/
def entryStep (env : Env) (key : Bytes) (p : P2pk) : Entry → Option P2pk
  | .cmd sub data =>
    match signOp env key p sub data with
    | .ok p => some (if displays p sub then p.setLast [] else p)
    | _ => none
  | .approve => some (p.setLast p.toRemember)

/-- Effect of all steps (newest first). -/
def replay (env : Env) (key : Bytes) (p : Option P2pk) : List Entry → Option P2pk
  | [] => p
  | e :: l => (replay env key p l).bind (fun p => entryStep env key p e)

/-- The newest step puts an output on display. -/
def showing (env : Env) (key : Bytes) (p : Option P2pk) : List Entry → Prop
  | .cmd sub data :: l => ∃ q q', replay env key p l = some q ∧
      signOp env key q sub data = .ok q' ∧ displays q' sub = true
  | _ => False

theorem joined_append (log : List Entry) (e : Entry) : joined (log ++ [e]) = put (joined log) e := by
  simp [joined]

/-- A command that is accepted when nothing is on display. -/
theorem replay_put {env : Env} {key : Bytes} {p0 : Option P2pk} {l : List Entry} {q p : P2pk}
    {sub : UInt8} {data : Bytes} (hq : replay env key p0 l = some q) (hs : ¬ showing env key p0 l)
    (h : signOp env key q sub data = .ok p) :
    replay env key p0 (put l (.cmd sub data)) =
        some (if displays p sub then p.setLast [] else p) ∧
      (showing env key p0 (put l (.cmd sub data)) ↔ displays p sub = true) := by
  have plain : replay env key p0 (.cmd sub data :: l) =
        some (if displays p sub then p.setLast [] else p) ∧
      (showing env key p0 (.cmd sub data :: l) ↔ displays p sub = true) := by
    refine ⟨by simp [replay, hq, entryStep, h], ?_⟩
    simp only [showing]
    constructor
    · rintro ⟨q1, q2, h1, h2, h3⟩
      rw [hq] at h1
      cases h1
      rw [h] at h2
      cases h2
      exact h3
    · intro h3
      exact ⟨q, p, hq, h, h3⟩
  cases l with
  | nil => exact plain
  | cons e l =>
    cases e with
    | approve => exact plain
    | cmd s a =>
      by_cases hc : s = sub ∧ inPieces sub
      swap
      · rw [show put (.cmd s a :: l) (.cmd sub data) = .cmd sub data :: .cmd s a :: l from if_neg hc]
        exact plain
      rw [show put (.cmd s a :: l) (.cmd sub data) = .cmd sub (a ++ data) :: l from if_pos hc]
      obtain ⟨rfl, hc⟩ := hc
      simp only [replay, Option.bind_eq_some_iff] at hq
      obtain ⟨q0, hq0, he⟩ := hq
      unfold entryStep at he
      cases h1 : signOp env key q0 s a with
      | ok q1 =>
        simp only [h1] at he
        have hd : displays q1 s = false := by
          cases hd : displays q1 s with
          | false => rfl
          | true => exact absurd ⟨q0, q1, hq0, h1, hd⟩ hs
        rw [hd] at he
        simp only [Bool.false_eq_true, if_false, Option.some.injEq] at he
        subst he
        have hj := signOp_join (inPieces_iff hc) h1 h
        refine ⟨by simp [replay, hq0, entryStep, hj], ?_⟩
        simp only [showing]
        constructor
        · rintro ⟨q2, q3, h2, h3, h4⟩
          rw [hq0] at h2
          cases h2
          rw [hj] at h3
          cases h3
          exact h4
        · intro h3
          exact ⟨q0, p, hq0, hj, h3⟩
      | err e => simp [h1] at he
      | ub => simp [h1] at he

/-- The signing context is the replay of the joined steps; what is on display too. -/
theorem sign_replay {env : Env} {nanoS : Bool} {key : Bytes} {tr : List Obs} {d : Device}
    (h : Runs env nanoS key tr d) {x : SignCtx} {S : SignSess} (hx : d.ctx = .sign x)
    (ha : x.approved = true) (hS : (know tr).sign = some S) :
    (showing env key (startOf env S) (joined S.log) ↔ AsksOutput d) ∧
      ∃ q, replay env key (startOf env S) (joined S.log) = some q ∧
        (x.p = q ∨ x.p = { q with state := .finalized, u := .uiConfirm }) := by
  refine sign_induct (fun w S x => (showing env key (startOf env S) (joined S.log) ↔ w) ∧
      ∃ q, replay env key (startOf env S) (joined S.log) = some q ∧
        (x.p = q ∨ x.p = { q with state := .finalized, u := .uiConfirm }))
    ?_ ?_ ?_ ?_ ?_ h x S hx ha hS
  · intro a network path token p0 s h1 h2
    refine ⟨by simp [joined, showing], { p0 with u := .uiApprove token }, ?_, .inl rfl⟩
    simp [joined, replay, startOf, h1, h2]
  · intro S x sub data p hP h1 h2 ho hn
    obtain ⟨hw, q, hq, hx⟩ := hP
    have hxq : x.p = q := by
      rcases hx with hx | hx
      · exact hx
      · exact absurd (by rw [hx]) (signOp_open ho).1
    rw [hxq] at ho
    have hd : displays p sub = false := by
      rcases hn with hn | hn
      · simp [displays, hn]
      · simp [displays, hn]
    obtain ⟨r1, r2⟩ := replay_put hq (by rw [hw]; exact id) ho
    simp only [joined_append]
    rw [hd] at r1 r2
    exact ⟨r2.trans (by simp), p, r1, .inl rfl⟩
  · intro S x sub data p t o hP h1 h2 ho hn hu hout
    obtain ⟨hw, q, hq, hx⟩ := hP
    have hxq : x.p = q := by
      rcases hx with hx | hx
      · exact hx
      · exact absurd (by rw [hx]) (signOp_open ho).1
    rw [hxq] at ho
    have hd : displays p sub = true := by
      have : ¬ sub < 0x16 := by
        rw [UInt8.lt_iff_toNat_lt]; rw [UInt8.le_iff_toNat_le] at h1; omega
      simp [displays, hn, this]
    obtain ⟨r1, r2⟩ := replay_put hq (by rw [hw]; exact id) ho
    simp only [joined_append]
    rw [hd] at r1 r2
    exact ⟨r2.trans (by simp), _, r1, .inl (by simp [P2pk.setLast, hu])⟩
  · intro S x t o last hP hu hout hl
    obtain ⟨hw, q, hq, hx⟩ := hP
    have hxq : x.p = q := by
      rcases hx with hx | hx
      · exact hx
      · rw [hx] at hu; simp at hu
    have hne : put (joined S.log) .approve = .approve :: joined S.log := by
      cases joined S.log with
      | nil => rfl
      | cons e l => cases e <;> rfl
    simp only [joined_append, hne]
    refine ⟨by simp [showing], q.setLast q.toRemember, by
      rw [show startOf env { S with log := S.log ++ [.approve] } = startOf env S from rfl]
      simp only [replay, hq, Option.bind_some, entryStep], .inl ?_⟩
    rw [← hxq]
    have hr : x.p.toRemember = last := by
      unfold P2pk.toRemember
      rcases hl with ⟨l1, l2⟩ | ⟨l1, l2⟩
      · simp [hu, hout, l1, l2]
      · simp [hu, hout, l1, l2]
    simp [hr, P2pk.setLast, hu]
  · intro S x hP hst
    obtain ⟨hw, q, hq, hx⟩ := hP
    have hxq : x.p = q := by
      rcases hx with hx | hx
      · exact hx
      · rw [hx] at hst; simp at hst
    exact ⟨hw, q, hq, .inr (by rw [hxq])⟩

/-- A finalized operation is waiting for the final approval. -/
theorem final_asks {env : Env} {nanoS : Bool} {key : Bytes} {tr : List Obs} {d : Device}
    (h : Runs env nanoS key tr d) :
    ∀ x, d.ctx = .sign x → x.p.state = .finalized → x.p.u = .uiConfirm ∧ d.screen ≠ none := by
  induction h with
  | boot => intro x h2 _; simp [Device.boot] at h2
  | @step tr d e h hh hu ih =>
    have hI := h.inv
    obtain ⟨d', r, hst, hT⟩ := step_cases env nanoS d e
    rw [hst] at hh hu ⊢
    simp only at hh hu ⊢
    intro x hx hf
    cases hT with
    | neutral h => exact ih x hx hf
    | version hl => exact ih x hx hf
    | name hl => exact ih x hx hf
    | abort hb hsw hi => simp [Device.setCommand] at hx
    | deriveFail hb => simp [Device.setCommand] at hx
    | epkSend hb h1 hp hv hg hk => simp [Device.setCommand] at hx
    | epkAsk hb h1 hp hv hg hk hf => simp [Device.display] at hx
    | daSend hb h1 h2 hd hp hv hg ha hk => simp [Device.setCommand] at hx
    | daAskSend hb h1 h2 hd hp hv hg ha hk hf => simp [Device.display] at hx
    | daAskShow hb h1 h2 hd hp hv hg ha hf hs hl => simp [Device.display] at hx
    | attestHang hb => exact absurd rfl hh
    | attestKnown hb h2 hi hs hk => simp at hx
    | attestAsk hb h2 hi hs hk => simp [Device.display] at hx
    | attestOk hb hl hsub hc hy hs ho => simp at hx
    | attestUb => exact absurd rfl hu
    | signHang => exact absurd rfl hh
    | signInitUb => exact absurd rfl hu
    | signAsk hb h2 hp hi hs hf' =>
      simp only [Device.display, Ctx.sign.injEq] at hx
      subst hx
      obtain ⟨_, _, _, _, _, _, _, rfl⟩ := p2pkInit_ok hi
      simp at hf
    | @signOk sub p2 data rnd y p hb hl hsub hc hy hs ha ho hn =>
      simp only [Ctx.sign.injEq] at hx
      subst hx
      exact absurd hf (signOp_open ho).2
    | @signShow sub p2 data rnd y p t o hb hl hsub hc hy hs ha ho hn hu' hout =>
      simp only [Device.display, Ctx.sign.injEq] at hx
      subst hx
      exact absurd hf (signOp_open ho).2
    | signUb => exact absurd rfl hu
    | @signConfirm p2 data rnd y hb hl hc hy hs ha hp =>
      simp only [Device.display, Ctx.sign.injEq] at hx
      subst hx
      exact ⟨rfl, by simp [Device.display]⟩
    | idle he hs => exact ih x hx hf
    | move he hs hm => exact ⟨(ih x hx hf).1, by simp⟩
    | moveErr he hs hm hk => simp [Device.menu, Device.setCommand] at hx
    | moveUb => exact absurd rfl hu
    | click hs h1 h2 h3 => exact ih x hx hf
    | reject hs h1 => simp [Device.menu, Device.setCommand] at hx
    | okEpk hs h1 hcb hx' => simp [Device.menu, Device.setCommand] at hx
    | okDa hs h1 hcb hx' => simp [Device.menu, Device.setCommand] at hx
    | okAttest hs h1 hcb hx' => simp [Device.menu] at hx
    | @okSignInit s y token hs h1 hcb hy hu' =>
      simp only [Device.menu, Ctx.sign.injEq] at hx
      subst hx
      have := (ih y hy hf).1
      rw [hu'] at this
      simp at this
    | @okSignOutput s y t o last hs h1 hcb hy hu' hout hl =>
      simp only [Device.menu, Ctx.sign.injEq] at hx
      subst hx
      have := (ih y hy hf).1
      rw [hu'] at this
      simp at this
    | okSignTx hs h1 hcb hx' hsig => simp [Device.menu, Device.setCommand] at hx
    | failSignTx hs h1 hcb hx' hsig => simp [Device.menu, Device.setCommand] at hx
    | actUb => exact absurd rfl hu

/-- While a session is open the last approval is its start, and only its questions are asked. -/
theorem sign_questions {env : Env} {nanoS : Bool} {key : Bytes} {tr : List Obs} {d : Device}
    (h : Runs env nanoS key tr d) {S : SignSess} (hS : (know tr).sign = some S) :
    (know tr).app = S.start.token ∧
      (∀ s, d.screen = some s → s.cb = .signOutput ∨ s.cb = .signTx) := by
  induction h generalizing S with
  | boot => simp [know, Ghost.start] at hS
  | @step tr d e h hh hu ih =>
    have hI := h.inv
    obtain ⟨d', r, hst, hT⟩ := step_cases env nanoS d e
    rw [show know (d.observe env nanoS e :: tr) = (know tr).next (d.observe env nanoS e) from rfl,
      observe_eq hst] at hS ⊢
    rw [hst] at hh hu ⊢
    simp only at hh hu ⊢
    generalize know tr = g at hI ih hS ⊢
    have nb : d.busy = false → d.screen = none := by
      intro hb
      have := hI.busy
      rw [hb] at this
      cases hs : d.screen with
      | none => rfl
      | some s => rw [hs] at this; simp at this
    have quiet : ∀ {d' : Device} {cla ins p1 p2 : UInt8} {data : Bytes} {rnd : Rnd} {c : UInt16}
        {out : Bytes}, d'.screen = none →
        (g.next ⟨d.asks, d.here, .apdu cla ins p1 p2 data rnd, .sw c out⟩).sign = some S →
        (g.next ⟨d.asks, d.here, .apdu cla ins p1 p2 data rnd, .sw c out⟩).app = S.start.token ∧
          (∀ s, d'.screen = some s → s.cb = .signOutput ∨ s.cb = .signTx) := by
      intro d' cla ins p1 p2 data rnd c out hd h
      refine ⟨?_, by rw [hd]; simp⟩
      simp only [Ghost.next] at h ⊢
      split at h
      · rename_i hc
        rw [if_pos hc]
        unfold Ghost.onOk at h ⊢
        split at h
        · rename_i h1
          rw [if_pos h1]; exact (ih h).1
        rename_i h1
        rw [if_neg h1]
        split at h
        · rename_i h2
          rw [if_pos h2]
          simp only [Ghost.log, Option.map_eq_some_iff] at h
          obtain ⟨S0, hS0, rfl⟩ := h
          exact (ih hS0).1
        rename_i h2
        rw [if_neg h2]
        split at h
        · rename_i h3
          rw [if_pos h3]
          split at h
          · simp [Ghost.close] at h
          · rename_i h4
            rw [if_neg h4]; exact (ih h).1
        · simp [Ghost.close] at h
      · rename_i hc
        rw [if_neg hc]
        split at h
        · rename_i h1
          rw [if_pos h1]; exact (ih h).1
        · simp [Ghost.close] at h
    cases hT with
    | neutral h =>
      obtain ⟨h1, h2⟩ := neutral_ghost h
      simp only [Ghost.next, status, if_neg h1, h2, if_true] at hS ⊢
      exact ih hS
    | version hl =>
      simp only [Ghost.next, Ghost.onOk, Sw.ok, true_or, if_true] at hS ⊢
      exact ih hS
    | name hl =>
      simp only [Ghost.next, Ghost.onOk, Sw.ok, or_true, if_true] at hS ⊢
      exact ih hS
    | abort hb hsw hi => exact quiet (by simpa [Device.setCommand] using nb hb) hS
    | deriveFail hb => exact quiet (by simpa [Device.setCommand] using nb hb) hS
    | epkSend hb h1 hp hv hg hk => exact quiet (by simpa [Device.setCommand] using nb hb) hS
    | epkAsk hb h1 hp hv hg hk hf => simp [Ghost.next, Ghost.onWait, Ghost.close] at hS
    | daSend hb h1 h2 hd hp hv hg ha hk => exact quiet (by simpa [Device.setCommand] using nb hb) hS
    | daAskSend hb h1 h2 hd hp hv hg ha hk hf => simp [Ghost.next, Ghost.onWait, Ghost.close] at hS
    | daAskShow hb h1 h2 hd hp hv hg ha hf hs hl => simp [Ghost.next, Ghost.onWait, Ghost.close] at hS
    | attestHang hb => exact absurd rfl hh
    | attestKnown hb h2 hi hs hk => exact quiet (by simpa [Device.setCommand] using nb hb) hS
    | attestAsk hb h2 hi hs hk => simp [Ghost.next, Ghost.onWait, Ghost.close] at hS
    | attestOk hb hl hsub hc hy hs ho => exact quiet (nb hb) hS
    | attestUb => exact absurd rfl hu
    | signHang => exact absurd rfl hh
    | signInitUb => exact absurd rfl hu
    | signAsk hb h2 hp hi hs hf' => simp [Ghost.next, Ghost.onWait, Ghost.close] at hS
    | signOk hb hl hsub hc hy hs ha ho hn => exact quiet (nb hb) hS
    | @signShow sub p2 data rnd y p t o hb hl hsub hc hy hs ha ho hn hu' hout =>
      have hne : ¬ sub = 0x01 := by
        rintro rfl; exact absurd hsub.1 (by decide)
      have hne' : ¬ sub = 0x20 := by
        rintro rfl; exact absurd hsub.2 (by decide)
      have e1 : g.next ⟨d.asks, d.here, .apdu 0xE0 0x21 sub p2 data rnd, .wait⟩ =
          { g.log (.cmd sub data) with pending := some ⟨0x21, sub, p2, data, rnd⟩ } := by
        simp [Ghost.next, Ghost.onWait, hne, hne']
      rw [e1] at hS ⊢
      simp only [Ghost.log, Option.map_eq_some_iff] at hS
      obtain ⟨S0, hS0, rfl⟩ := hS
      refine ⟨(ih hS0).1, ?_⟩
      intro s hs
      simp only [Device.display, Option.some.injEq] at hs
      subst hs
      exact .inl rfl
    | signUb => exact absurd rfl hu
    | @signConfirm p2 data rnd y hb hl hc hy hs ha hp =>
      refine ⟨(ih hS).1, ?_⟩
      intro s hs
      simp only [Device.display, Option.some.injEq] at hs
      subst hs
      exact .inr rfl
    | idle he hs => rcases he with rfl | rfl | rfl <;> exact ih hS
    | @move e s m he hs hm =>
      have : ∀ s', some { s with flow := m.flow } = some s' → s'.cb = .signOutput ∨ s'.cb = .signTx := by
        intro s' e'
        simp only [Option.some.injEq] at e'
        subst e'
        rcases he with ⟨rfl, _⟩ | ⟨rfl, _⟩ <;> exact (ih hS).2 s hs
      rcases he with ⟨rfl, _⟩ | ⟨rfl, _⟩ <;> exact ⟨(ih hS).1, this⟩
    | moveErr he hs hm hk =>
      rcases he with ⟨rfl, _⟩ | ⟨rfl, _⟩ <;> simp [Ghost.next, Ghost.close, status] at hS
    | moveUb => exact absurd rfl hu
    | click hs h1 h2 h3 => exact ih hS
    | reject hs h1 => simp [Ghost.next, Ghost.close, status, Sw.deny] at hS
    | okEpk hs h1 hcb hx' =>
      have hq := hI.asks hs
      rw [hcb] at hq
      simp only [AsksFor] at hq
      rw [hq] at hS
      have := (ih (S := S) hS).2 _ hs
      rw [hcb] at this
      simp at this
    | okDa hs h1 hcb hx' =>
      have hq := hI.asks hs
      rw [hcb] at hq
      simp only [AsksFor] at hq
      have hS' : g.sign = some S := by
        rcases hq with hq | hq <;> rw [hq] at hS <;> exact hS
      have := (ih hS').2 _ hs
      rw [hcb] at this
      simp at this
    | okAttest hs h1 hcb hx' =>
      have hq := hI.asks hs
      rw [hcb] at hq
      simp only [AsksFor] at hq
      rw [hq] at hS
      have := (ih (S := S) hS).2 _ hs
      rw [hcb] at this
      simp at this
    | @okSignInit s y token hs h1 hcb hy hu' =>
      obtain ⟨a, f0, p1, p2, p3⟩ := hI.asking _ hs
      have hq := hI.asks hs
      rw [hcb] at hq
      simp only [AsksFor] at hq
      rw [hq] at hS ⊢
      have e1 : g.next ⟨some .p2pkSigning, d.here, .both, .sw Sw.ok [y.session]⟩ =
          { g with
            app := (g.pending.map Request.token).getD 0
            sign := g.pending.map (fun a => ⟨a, y.session, []⟩) } := rfl
      rw [e1] at hS ⊢
      simp only [p1, Option.map_some, Option.some.injEq] at hS ⊢
      subst hS
      exact ⟨rfl, by simp [Device.menu]⟩
    | @okSignOutput s y t o last hs h1 hcb hy hu' hout hl =>
      have hq := hI.asks hs
      rw [hcb] at hq
      simp only [AsksFor] at hq
      rw [hq] at hS ⊢
      have e1 : g.next ⟨some .confirmOutput, d.here, .both, status Sw.ok⟩ = g.log .approve := rfl
      rw [e1] at hS ⊢
      simp only [Ghost.log, Option.map_eq_some_iff] at hS
      obtain ⟨S0, hS0, rfl⟩ := hS
      exact ⟨(ih hS0).1, by simp [Device.menu]⟩
    | okSignTx hs h1 hcb hx' hsig =>
      have hq := hI.asks hs
      rw [hcb] at hq
      simp only [AsksFor] at hq
      rw [hq] at hS
      simp [Ghost.next, Ghost.onApprove, Ghost.close, Sw.ok] at hS
    | @failSignTx s x sw hs h1 hcb hx' hsig =>
      have hq := hI.asks hs
      rw [hcb] at hq
      simp only [AsksFor] at hq
      rw [hq] at hS
      simp only [Ghost.next, status] at hS
      split at hS <;> simp [Ghost.onApprove, Ghost.close] at hS
    | actUb => exact absurd rfl hu

/-- Two devices in the same session differ at most in the page on display. -/
theorem sign_same {env : Env} {nanoS : Bool} {key : Bytes} {tr1 tr2 : List Obs} {d1 d2 : Device}
    (h1 : Runs env nanoS key tr1 d1) (h2 : Runs env nanoS key tr2 d2) {S1 S2 : SignSess}
    (hS1 : (know tr1).sign = some S1) (hS2 : (know tr2).sign = some S2)
    (hc1 : d1.command = .signTransaction) (hc2 : d2.command = .signTransaction)
    (ha1 : d1.asks ≠ some .approveSigning) (ha2 : d2.asks ≠ some .approveSigning)
    (hst : S1.start = S2.start) (hid : S1.id = S2.id) (hj : joined S1.log = joined S2.log) :
    d1.asks = d2.asks ∧ d2 = { d1 with screen := d2.screen } := by
  have facts : ∀ {tr : List Obs} {d : Device} {S : SignSess}, Runs env nanoS key tr d →
      (know tr).sign = some S → d.command = .signTransaction → d.asks ≠ some .approveSigning →
      ∃ x, d.ctx = .sign x ∧ SignBase env S x ∧ (AsksOutput d ∧ d.asks = some .confirmOutput ∧
        d.busy = true ∨ ¬ AsksOutput d ∧ d.asks = none ∧ d.busy = false) ∧
        x.p.state ≠ .finalized ∧ d.connectedApp = S.start.token ∧ d.sessionKey = key := by
    intro tr d S h hS hc ha
    have hI := h.inv
    obtain ⟨q1, q2⟩ := sign_questions h hS
    have hfin := final_asks h
    cases hs : d.screen with
    | none =>
      have hi := hI.idle hs
      unfold Idle at hi
      rw [hc] at hi
      obtain ⟨x, S', hx, hS', hb⟩ := hi
      rw [hS] at hS'
      cases hS'
      refine ⟨x, hx, hb, .inr ⟨?_, by simp [Device.asks, hs], by rw [hI.busy, hs]; rfl⟩, ?_, ?_, hI.key⟩
      · rintro ⟨s, e, _⟩; rw [hs] at e; cases e
      · intro e; exact (hfin x hx e).2 hs
      · rw [hI.app, q1]
    | some s =>
      obtain ⟨a, f0, p1, p2, p3⟩ := hI.asking _ hs
      have hq := hI.asks hs
      rcases q2 s hs with hcb | hcb
      · rw [hcb] at p3 hq
        obtain ⟨_, _, _, _, x, S', t, o, hx, hS', hb, hu, _⟩ := p3
        rw [hS] at hS'
        cases hS'
        refine ⟨x, hx, hb, .inl ⟨⟨s, hs, hcb⟩, hq, by rw [hI.busy, hs]; rfl⟩, ?_, ?_, hI.key⟩
        · intro e
          have := (hfin x hx e).1
          rw [hu] at this
          cases this
        · rw [hI.app, q1]
      · rw [hcb] at hq
        exact absurd hq ha
  obtain ⟨x1, e1, b1, w1, f1, c1, k1⟩ := facts h1 hS1 hc1 ha1
  obtain ⟨x2, e2, b2, w2, f2, c2, k2⟩ := facts h2 hS2 hc2 ha2
  obtain ⟨v1, q1, r1, y1⟩ := sign_replay h1 e1 b1.approved hS1
  obtain ⟨v2, q2, r2, y2⟩ := sign_replay h2 e2 b2.approved hS2
  have hso : startOf env S1 = startOf env S2 := by unfold startOf; rw [hst]
  rw [hso, hj] at r1 v1
  rw [r1] at r2
  cases r2
  have hp1 : x1.p = q1 := by
    rcases y1 with y | y
    · exact y
    · rw [y] at f1; exact absurd rfl f1
  have hp2 : x2.p = q1 := by
    rcases y2 with y | y
    · exact y
    · rw [y] at f2; exact absurd rfl f2
  have hx : x1 = x2 := by
    have i1 := b1.id
    have i2 := b2.id
    have a1 := b1.approved
    have a2 := b2.approved
    obtain ⟨_, _, _⟩ := x1
    obtain ⟨_, _, _⟩ := x2
    simp_all
  have hw : AsksOutput d1 ↔ AsksOutput d2 := v1.symm.trans v2
  have hb : d1.asks = d2.asks ∧ d1.busy = d2.busy := by
    rcases w1 with ⟨u1, u2, u3⟩ | ⟨u1, u2, u3⟩ <;> rcases w2 with ⟨t1, t2, t3⟩ | ⟨t1, t2, t3⟩
    · rw [u2, t2, u3, t3]; exact ⟨rfl, rfl⟩
    · exact absurd (hw.1 u1) t1
    · exact absurd (hw.2 t1) u1
    · rw [u2, t2, u3, t3]; exact ⟨rfl, rfl⟩
  refine ⟨hb.1, ?_⟩
  have hb2 := hb.2
  clear facts h1 h2
  obtain ⟨_, _, _, _, _, _⟩ := d1
  obtain ⟨_, _, _, _, _, _⟩ := d2
  simp_all

/-! ## Attestation -/

theorem part_join {env : Env} {x x1 x2 : AttestCtx} {o1 o2 : Bytes}
    {f g k : BoxSt (List (Bytes × UInt64)) → BoxSt (List (Bytes × UInt64)) × Res BoxErr}
    (hj : ∀ y1 y2 q1 q2, f x.st = (y1, q1) → q1.passes → g y1 = (y2, q2) → q2.passes →
      q1 = .more ∧ k x.st = (y2, q2))
    (h1 : x.part env (f x.st) = .ok x1 o1) (h2 : x1.part env (g x1.st) = .ok x2 o2) :
    x.part env (k x.st) = .ok x2 o2 := by
  have hx1 : x1.state = .approved := by
    unfold AttestCtx.part at h2
    split at h2
    · cases h2
    · rename_i h; exact not_not.1 h
  unfold AttestCtx.part at h1
  split at h1
  · cases h1
  rename_i hst
  generalize hq : f x.st = q at h1
  obtain ⟨y1, q1⟩ := q
  have key : q1.passes ∧ x1 = { x with st := y1 } := by
    cases q1 with
    | ok =>
      simp only at h1
      unfold AttestCtx.checkFinished at h1
      split at h1
      · cases h1; exact ⟨rfl, rfl⟩
      · split at h1
        · cases h1
        · cases h1; simp at hx1
    | more => cases h1; exact ⟨rfl, rfl⟩
    | err e => cases h1
    | ub => cases h1
  obtain ⟨p1, rfl⟩ := key
  unfold AttestCtx.part at h2
  rw [if_neg (not_not.2 hx1)] at h2
  simp only at h2
  generalize hq2 : g y1 = q at h2
  obtain ⟨y2, q2⟩ := q
  have p2 : q2.passes := by
    cases q2 with
    | ok => rfl
    | more => rfl
    | err e => cases h2
    | ub => cases h2
  unfold AttestCtx.part
  rw [if_neg hst, (hj _ _ _ _ hq p1 hq2 p2).2]
  exact h2

theorem attestOp_join {env : Env} {key : Bytes} {x x1 x2 : AttestCtx} {sub : UInt8}
    {a b o1 o2 : Bytes} (hc : sub = 2 ∨ sub = 3 ∨ sub = 4)
    (h1 : attestOp env key x sub a = .ok x1 o1) (h2 : attestOp env key x1 sub b = .ok x2 o2) :
    attestOp env key x sub (a ++ b) = .ok x2 o2 := by
  rcases hc with rfl | rfl | rfl
  · exact part_join (f := fun y => y.addTree attestCbs a) (g := fun y => y.addTree attestCbs b)
      (k := fun y => y.addTree attestCbs (a ++ b))
      (fun _ _ _ _ e1 e2 e3 e4 => by
        obtain ⟨c1, _, _, c2⟩ := addTree_join e1 e2 e3 e4
        exact ⟨c1, c2⟩) h1 h2
  · exact part_join (f := fun y => y.addTokens attestCbs none a)
      (g := fun y => y.addTokens attestCbs none b) (k := fun y => y.addTokens attestCbs none (a ++ b))
      (fun _ _ _ _ e1 e2 e3 e4 => addTokens_join e1 e2 e3 e4) h1 h2
  · exact part_join (f := fun y => y.addRegisters attestCbs a)
      (g := fun y => y.addRegisters attestCbs b) (k := fun y => y.addRegisters attestCbs (a ++ b))
      (fun _ _ _ _ e1 e2 e3 e4 => addRegisters_join e1 e2 e3 e4) h1 h2

theorem part_session {env : Env} {x x1 : AttestCtx} {o1 : Bytes}
    {r : BoxSt (List (Bytes × UInt64)) × Res BoxErr} (h1 : x.part env r = .ok x1 o1) :
    x1.session = x.session := by
  unfold AttestCtx.part at h1
  split at h1
  · cases h1
  split at h1
  · unfold AttestCtx.checkFinished at h1
    split at h1
    · cases h1; rfl
    · split at h1
      · cases h1
      · cases h1; rfl
  · cases h1; rfl
  · cases h1
  · cases h1

theorem attestOp_session {env : Env} {key : Bytes} {x x1 : AttestCtx} {sub : UInt8} {a o1 : Bytes}
    (h : attestOp env key x sub a = .ok x1 o1) : x1.session = x.session := by
  unfold attestOp at h
  split at h
  · exact part_session h
  split at h
  · exact part_session h
  split at h
  · exact part_session h
  unfold AttestCtx.getFrame at h
  split at h
  · cases h
  split at h
  · cases h
  split at h
  · cases h
  split at h
  · cases h
  · cases h; rfl

/-- Effect of the commands of an attestation (newest first). -/
def attestReplay (env : Env) (key : Bytes) (x : AttestCtx) : List (UInt8 × Bytes) → Option AttestCtx
  | [] => some x
  | (sub, data) :: l =>
    (attestReplay env key x l).bind (fun x =>
      match attestOp env key x sub data with
      | .ok x' _ => some x'
      | _ => none)

theorem attestReplay_put {env : Env} {key : Bytes} {x0 x x' : AttestCtx} {l : List (UInt8 × Bytes)}
    {sub : UInt8} {data out : Bytes} (hq : attestReplay env key x0 l = some x)
    (h : attestOp env key x sub data = .ok x' out) :
    attestReplay env key x0 (attestPut l (sub, data)) = some x' := by
  cases l with
  | nil =>
    simp only [attestReplay, Option.some.injEq] at hq
    subst hq
    simp [attestPut, attestReplay, h]
  | cons e l =>
    obtain ⟨s, a⟩ := e
    by_cases hc : s = sub ∧ attestPieces sub
    · rw [show attestPut ((s, a) :: l) (sub, data) = (sub, a ++ data) :: l from if_pos hc]
      obtain ⟨rfl, hc⟩ := hc
      simp only [attestReplay, Option.bind_eq_some_iff] at hq
      obtain ⟨q0, hq0, he⟩ := hq
      cases h1 : attestOp env key q0 s a with
      | ok q1 o1 =>
        simp only [h1, Option.some.injEq] at he
        subst he
        have hj := attestOp_join (by simpa [attestPieces] using hc) h1 h
        simp [attestReplay, hq0, hj]
      | err e => simp [h1] at he
      | ub => simp [h1] at he
    · rw [show attestPut ((s, a) :: l) (sub, data) = (sub, data) :: (s, a) :: l from if_neg hc]
      rw [attestReplay, hq]
      simp [h]

theorem attest_replay {env : Env} {nanoS : Bool} {key : Bytes} {tr : List Obs} {d : Device}
    (h : Runs env nanoS key tr d) {x : AttestCtx} {S : AttestSess} (hs : d.screen = none)
    (hx : d.ctx = .attest x) (hS : (know tr).attest = some S) :
    ∃ x0, attestInit S.start.data (S.start.p2 = 2) 0 = .ok x0 ∧
      attestReplay env key { x0 with session := x.session, state := .approved }
        (attestJoined S.log) = some x := by
  refine attest_induct (key := key) (fun S x => ∃ x0,
      attestInit S.start.data (S.start.p2 = 2) 0 = .ok x0 ∧
      attestReplay env key { x0 with session := x.session, state := .approved }
        (attestJoined S.log) = some x) ?_ ?_ h x S hs hx hS
  · intro a x id asked app s hi
    exact ⟨x, hi, rfl⟩
  · intro S x x' sub data out hP hsub ho
    obtain ⟨x0, hi, hr⟩ := hP
    refine ⟨x0, hi, ?_⟩
    rw [attestOp_session ho, show attestJoined (S.log ++ [(sub, data)]) =
      attestPut (attestJoined S.log) (sub, data) by simp [attestJoined]]
    exact attestReplay_put hr ho

end Ergo
