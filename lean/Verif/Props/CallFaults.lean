import Verif.Proof.FailingDevice
import Verif.Props.Faults
/-!
# C86: every failing call of the operating system
-/
namespace Ergo
open Spec

/-- The start of signing is never answered with success at once. -/
theorem signStart_reply (env : Env) (nanoS : Bool) (d : Device) (p2 : UInt8) (data : Bytes) (rnd : Rnd)
    (out : Bytes) : (d.step env nanoS (.apdu 0xE0 0x21 0x01 p2 data rnd)).2 ≠ .sw 0x9000 out := by
  have hE : ∀ {sw : UInt16} {x : Device}, Ends sw → (x.abort sw).2 ≠ .sw 0x9000 out := by
    intro sw x h hc
    simp only [Device.abort, status, Reply.sw.injEq] at hc
    rw [hc.1] at h
    exact absurd h (by decide)
  have hS : ∀ {sw : UInt16}, sw ≠ 0x9000 → status sw ≠ .sw 0x9000 out := by
    intro sw h hc
    simp only [status, Reply.sw.injEq] at hc
    exact h hc.1
  have h0 : d.step env nanoS (.apdu 0xE0 0x21 0x01 p2 data rnd) =
      if data.length > 255 then (d, status Sw.wrongDataLength)
      else if p2 = 0 then (d, status Sw.wrongP1P2)
      else d.signTransaction env 0x01 p2 data rnd := by
    simp only [Device.step, Device.dispatch, ne_eq, not_true_eq_false, if_false,
      show ¬ (0x21 : UInt8) = 0x01 by decide, show ¬ (0x21 : UInt8) = 0x02 by decide,
      show ¬ (0x21 : UInt8) = 0x10 by decide, show ¬ (0x21 : UInt8) = 0x11 by decide,
      show ¬ (0x21 : UInt8) = 0x20 by decide, if_true, show ¬ (0x01 : UInt8) = 0 by decide, false_or]
  rw [h0]
  split
  · exact hS (by decide)
  · split
    · exact hS (by decide)
    · unfold Device.signTransaction
      split
      · exact hS (by decide)
      · rw [if_pos rfl]
        split
        · exact hS (by decide)
        · unfold Device.signStart
          dsimp only
          cases hp : parseSignInit data (p2 = 0x02) with
          | error e => exact hE (parseSignInit_err hp)
          | ok x =>
            obtain ⟨network, path, token⟩ := x
            dsimp only
            cases hq : p2pkInit env path network rnd.keys with
            | err e => exact hE (p2pkInit_err hq)
            | ub => simp
            | ok p =>
              dsimp only
              cases newSession 0 rnd.u8s with
              | none => simp
              | some s =>
                dsimp only
                cases pathFormat path bip32StrLen with
                | none => exact hE (by decide)
                | some t => simp

theorem faultCode_word {code : UInt16} (h : FaultCode code) : code ≠ 0x9000 ∧ harmless code = false := by
  rcases h with rfl | rfl | rfl | rfl <;> decide

/-- An execution with failing calls is one of the executions with failures of C75, in which of the
32-byte draws another one may be the one used. -/
theorem C86_run {env : Env} {nanoS : Bool} {key : Bytes} {tr : List Obs} {d : Device}
    (h : CallRuns env nanoS key tr d) :
    ∃ tr', Faulty env nanoS key tr' d ∧ List.Forall₂ AlikeUpToDraw tr tr' := by
  induction h with
  | boot => exact ⟨[], .boot, .nil⟩
  | @step tr d ok e h hh hu ih =>
    obtain ⟨tr', h1, h2⟩ := ih
    obtain ⟨_, h3, _⟩ := C75_mirror h1
    have hy := Device.yields_step (ok := ok) (env := env) (idle_of h3.inv) nanoS e
    by_cases hw : ∀ j, 0 ≤ j → j < (d.stepF env ok nanoS e 0).2 → ok j = true
    · have he := hy.works 0 hw
      rw [he] at hh hu
      simp only [observeCalls]
      rw [he]
      exact ⟨_, .step env (failing_refl env) e h1 hh hu, .cons ⟨rfl, rfl, rfl, .inl rfl⟩ h2⟩
    · obtain ⟨j, hj⟩ := Classical.not_forall.1 hw
      obtain ⟨_, hj⟩ := Classical.not_imp.1 hj
      obtain ⟨hj, hk⟩ := Classical.not_imp.1 hj
      have hf := hy.fails 0 j (Nat.zero_le _) hj (by simpa using hk)
      simp only [observeCalls]
      rcases hf with ⟨code, hc, he⟩ | ⟨p1, p2, data, rnd, rfl, he, hr⟩ | ⟨p2, data, rnd, i, rfl, he⟩
      · rw [he]
        obtain ⟨hc1, hc2⟩ := faultCode_word hc
        exact ⟨_, .fault e code h1 hc1 hc2, .cons ⟨rfl, rfl, rfl, .inl rfl⟩ h2⟩
      · rw [he]
        exact ⟨_, .address p1 p2 data rnd h1 hr, .cons ⟨rfl, rfl, rfl, .inl rfl⟩ h2⟩
      · rw [he] at hh hu ⊢
        exact ⟨_, .step env (failing_refl env) _ h1 hh hu,
          .cons ⟨rfl, rfl, rfl, .inr ⟨_, _, _, _, _, rnd, i, rfl, rfl⟩⟩ h2⟩

/-- C86: one event.  If every call works, the device does what it does without failures.  If one of the
calls that are made fails, the answer is one of four error words and all that is left is the
application token and the session key; except that a failing checksum in the address command is
answered with 0xE016 and leaves the empty command, and that after a failing curve multiplication at
the start of signing another draw may be used. -/
theorem C86_event {env : Env} {nanoS : Bool} {key : Bytes} {tr : List Obs} {d : Device}
    (h : CallRuns env nanoS key tr d) (ok : Nat → Bool) (e : Event) :
    ((∀ j < (d.stepF env ok nanoS e 0).2, ok j = true) →
      (d.stepF env ok nanoS e 0).1 = d.step env nanoS e) ∧
    ∀ j < (d.stepF env ok nanoS e 0).2, ok j = false →
      (∃ code, (code = 0xE00F ∨ code = 0xE013 ∨ code = 0xE016 ∨ code = 0xE017) ∧
        (d.stepF env ok nanoS e 0).1 = (blank d, .sw code [])) ∨
      (∃ p1 p2 data rnd, e = .apdu 0xE0 0x11 p1 p2 data rnd ∧
        (d.stepF env ok nanoS e 0).1 =
          ({ d with command := .deriveAddress, ctx := .zeroed }, .sw 0xE016 [])) ∨
      ∃ p2 data rnd i, e = .apdu 0xE0 0x21 0x01 p2 data rnd ∧
        (d.stepF env ok nanoS e 0).1 =
          d.step env nanoS (.apdu 0xE0 0x21 0x01 p2 data { rnd with keys := fun _ => rnd.keys i }) := by
  obtain ⟨_, h1, _⟩ := C86_run h
  obtain ⟨_, h3, _⟩ := C75_mirror h1
  have hy := Device.yields_step (ok := ok) (env := env) (idle_of h3.inv) nanoS e
  refine ⟨fun hw => hy.works 0 (fun j _ => hw j), fun j hj hk => ?_⟩
  rcases hy.fails 0 j (Nat.zero_le _) hj hk with
    h | ⟨p1, p2, data, rnd, he, hr, _⟩ | ⟨p2, data, rnd, i, he, hr⟩
  · exact .inl h
  · exact .inr (.inl ⟨p1, p2, data, rnd, he, hr⟩)
  · exact .inr (.inr ⟨p2, data, rnd, i, he, hr⟩)

/-- An event answered with success had no failing call. -/
theorem success_calls {env : Env} {nanoS : Bool} {d : Device} (hs : d.busy = false → d.screen = none)
    (ok : Nat → Bool) (e : Event) {out : Bytes} (hr : (d.stepF env ok nanoS e 0).1.2 = .sw 0x9000 out) :
    (∀ j < (d.stepF env ok nanoS e 0).2, ok j = true) ∧
      (d.stepF env ok nanoS e 0).1 = d.step env nanoS e := by
  have hy := Device.yields_step (ok := ok) (env := env) hs nanoS e
  have hw : ∀ j < (d.stepF env ok nanoS e 0).2, ok j = true := by
    intro j hj
    cases hk : ok j with
    | true => rfl
    | false =>
      exfalso
      rcases hy.fails 0 j (Nat.zero_le _) hj hk with
        ⟨code, hc, he⟩ | ⟨p1, p2, data, rnd, _, he, _⟩ | ⟨p2, data, rnd, i, _, he⟩
      · rw [he] at hr
        simp only [Reply.sw.injEq] at hr
        exact (faultCode_word hc).1 hr.1
      · rw [he] at hr
        simp only [Reply.sw.injEq] at hr
        exact absurd hr.1 (by decide)
      · rw [he] at hr
        exact signStart_reply env nanoS d p2 data _ out hr
  exact ⟨hw, hy.works 0 (fun j _ => hw j)⟩

/-- C86: an event answered with success had no failing call. -/
theorem C86_success {env : Env} {nanoS : Bool} {key : Bytes} {tr : List Obs} {d : Device}
    (h : CallRuns env nanoS key tr d) (ok : Nat → Bool) (e : Event) {out : Bytes}
    (hr : (d.stepF env ok nanoS e 0).1.2 = .sw 0x9000 out) :
    (∀ j < (d.stepF env ok nanoS e 0).2, ok j = true) ∧
      (d.stepF env ok nanoS e 0).1 = d.step env nanoS e := by
  obtain ⟨_, h1, _⟩ := C86_run h
  obtain ⟨_, h3, _⟩ := C75_mirror h1
  exact success_calls (idle_of h3.inv) ok e hr

/-- C86: every device reached with failing calls is reached without any failure. -/
theorem C86_mirror {env : Env} {nanoS : Bool} {key : Bytes} {tr : List Obs} {d : Device}
    (h : CallRuns env nanoS key tr d) :
    ∃ tr1 tr2, List.Forall₂ AlikeUpToDraw tr tr1 ∧ Mirrors tr1 tr2 ∧ Runs env nanoS key tr2 d := by
  obtain ⟨tr1, h1, h2⟩ := C86_run h
  obtain ⟨tr2, h3, h4, _⟩ := C75_mirror h1
  exact ⟨tr1, tr2, h2, h4, h3⟩

theorem alike_split {P : Obs → Obs → Prop} : ∀ {l : List Obs} (l2 : List Obs) {o : Obs} {l1 : List Obs},
    List.Forall₂ P l (l2 ++ o :: l1) →
    ∃ m2 p m1, l = m2 ++ p :: m1 ∧ List.Forall₂ P m2 l2 ∧ P p o
  | _, [], _, _, h => by
    cases h with
    | cons h h' => exact ⟨[], _, _, rfl, .nil, h⟩
  | _, _ :: l2, _, _, h => by
    cases h with
    | cons h h' =>
      obtain ⟨m2, p, m1, rfl, h1, h2⟩ := alike_split l2 h'
      exact ⟨_ :: m2, p, m1, rfl, .cons h h1, h2⟩

theorem alike_mem {P : Obs → Obs → Prop} {l m : List Obs} (h : List.Forall₂ P l m) :
    ∀ o ∈ l, ∃ o' ∈ m, P o o' := by
  induction h with
  | nil => simp
  | cons h _ ih =>
    intro o ho
    rcases List.mem_cons.1 ho with rfl | ho
    · exact ⟨_, List.mem_cons_self, h⟩
    · obtain ⟨o', h1, h2⟩ := ih o ho
      exact ⟨o', List.mem_cons_of_mem _ h1, h2⟩

theorem SameUpToDraw.both {e e' : Event} (h : SameUpToDraw e e') : e = .both ↔ e' = .both := by
  rcases h with rfl | ⟨_, _, _, _, _, _, _, rfl, rfl⟩
  · exact Iff.rfl
  · simp

theorem AlikeUpToDraw.restarts {o o' : Obs} (h : AlikeUpToDraw o o') (hr : Restarts o) : Restarts o' := by
  obtain ⟨cla, ins, p1, p2, data, rnd, he, hr⟩ := hr
  obtain ⟨_, _, h3, h4⟩ := h
  rw [← h3] at hr
  rcases h4 with h4 | ⟨_, _, _, _, _, _, i, h5, h6⟩
  · exact ⟨cla, ins, p1, p2, data, rnd, h4.trans he, hr⟩
  · rw [he] at h5
    cases h5
    exact ⟨_, _, _, _, _, _, h6, hr⟩

/-- C86: with calls failing at any moments, a signature still answers the approval of the confirmation
screen of a session whose start the user approved, and since that approval nothing failed. -/
theorem C86_approvals {env : Env} (hwf : env.WF) (hv : env.appVersion.length ≠ 56)
    (hn : env.appName.length ≠ 56) {nanoS : Bool} {key : Bytes} {tr : List Obs} {d : Device}
    (h : CallRuns env nanoS key tr d) (ok : Nat → Bool) (e : Event)
    (hs : Signs (observeCalls env nanoS ok d e)) :
    Approval (observeCalls env nanoS ok d e) ∧ d.asks = some .approveSigning ∧
    (∀ j < (d.stepF env ok nanoS e 0).2, ok j = true) ∧
    ∃ tr2 o1 tr1 id, tr = tr2 ++ o1 :: tr1 ∧ Approval o1 ∧ o1.asked = some .p2pkSigning ∧
      o1.reply = .sw 0x9000 [id] ∧
      ∀ o ∈ tr2, ¬ Fails o ∧ ¬ Restarts o ∧ ¬ OpensSign o ∧ ¬ ClosesSign o := by
  obtain ⟨tr', h1, h2⟩ := C86_run h
  have hs' := hs
  obtain ⟨out, hr, _⟩ := hs'
  obtain ⟨hw, he⟩ := C86_success h ok e hr
  have ho : observeCalls env nanoS ok d e = d.observe env nanoS e := by
    simp only [observeCalls, Device.observe, he]
  rw [ho] at hs ⊢
  obtain ⟨a1, a2, S, tr2, o1, tr1, _, rfl, b3, b4, _, _, _, b8, b9⟩ :=
    C75_approvals hwf hv hn h1 (failing_refl env) e hs
  obtain ⟨m2, p, m1, rfl, c1, c2, c3, c4, c5⟩ := alike_split tr2 h2
  refine ⟨a1, a2, hw, m2, p, m1, S.id, rfl, ⟨(SameUpToDraw.both c5).2 b3.1, c3 ▸ b3.2⟩, c2 ▸ b4, c4 ▸ b8, ?_⟩
  intro o hm
  obtain ⟨o', hm', ha⟩ := alike_mem c1 o hm
  obtain ⟨n1, n2, n3, n4⟩ := b9 o' hm'
  refine ⟨fun hx => n1 ?_, fun hx => n2 (AlikeUpToDraw.restarts ha hx), fun hx => n3 ?_, fun hx => n4 ?_⟩
  · obtain ⟨sw, out, r1, r2, r3⟩ := hx
    exact ⟨sw, out, ha.2.2.1.trans r1, r2, r3⟩
  · obtain ⟨r1, r2, out, r3⟩ := hx
    exact ⟨(SameUpToDraw.both ha.2.2.2).1 r1, ha.1.trans r2, out, ha.2.2.1.trans r3⟩
  · obtain ⟨r1, r2, out, r3⟩ := hx
    exact ⟨(SameUpToDraw.both ha.2.2.2).1 r1, ha.1.trans r2, out, ha.2.2.1.trans r3⟩

/-- Events and the number of the call that fails in each, if any. -/
def watchCalls (env : Env) (nanoS : Bool) : List Obs → Device → List (Event × Option Nat) →
    List Obs × Device
  | tr, d, [] => (tr, d)
  | tr, d, (e, bad) :: es =>
    let ok := fun n => decide (some n ≠ bad)
    watchCalls env nanoS (observeCalls env nanoS ok d e :: tr) (d.stepF env ok nanoS e 0).1.1 es

def repliesCalls (env : Env) (nanoS : Bool) : Device → List (Event × Option Nat) → List Reply
  | _, [] => []
  | d, (e, bad) :: es =>
    let r := (d.stepF env (fun n => decide (some n ≠ bad)) nanoS e 0).1
    r.2 :: repliesCalls env nanoS r.1 es

theorem callRuns_watch {env : Env} {nanoS : Bool} {key : Bytes} : ∀ (es : List (Event × Option Nat))
    (tr : List Obs) (d : Device), CallRuns env nanoS key tr d →
    (repliesCalls env nanoS d es).all (fun r => r != .hang && r != .ub) = true →
    CallRuns env nanoS key (watchCalls env nanoS tr d es).1 (watchCalls env nanoS tr d es).2
  | [], _, _, h, _ => h
  | (e, bad) :: es, tr, d, h, hr => by
    simp only [repliesCalls, List.all_cons, Bool.and_eq_true, bne_iff_ne, ne_eq] at hr
    exact callRuns_watch es _ _ (.step _ e h hr.1.1 hr.1.2) hr.2

/-- The whole example transaction; then the last of the five calls of the confirmation fails, and everything is
done again, with no failing call: 0xE017 the first time, a signature of 56 bytes the second time. -/
example : ∃ tr d, CallRuns toyEnv false [1] tr d ∧
    (tr.map (fun o => o.reply)).contains (.sw 0xE017 []) = true ∧ d.asks = some .approveSigning ∧
    (((d.stepF toyEnv (fun _ => true) false .both 0).1.2).casesOn none (fun _ b => some b.length) none none
      : Option Nat) = some 56 := by
  let s : List Event := demoOpen ++ demoTx ++ [cmd 0x21 0x20 7 [], .left, .left]
  have h := callRuns_watch (env := toyEnv) (nanoS := false) (key := [1])
    (s.map (·, none) ++ [(.both, some 4)] ++ s.map (·, none)) [] _ .boot (by decide +kernel)
  exact ⟨_, _, h, by decide +kernel, by decide +kernel, by decide +kernel⟩

end Ergo
