import Verif.Spec.Consent
import Verif.Proof.Inv
import Mathlib.Tactic.Tauto
/-!
# The observer's sessions in terms of the trace
-/
namespace Ergo
open Spec

theorem Ghost.close_sign (g : Ghost) : g.close.sign = none := rfl
theorem Ghost.close_attest (g : Ghost) : g.close.attest = none := rfl

/-- One observation and the signing session: a new session, or the same one with one entry more and
nothing that ends a session. -/
theorem next_sign {g : Ghost} {o : Obs} {S : SignSess} (h : (g.next o).sign = some S) :
    (OpensSign o ∧ g.pending = some S.start ∧ S.log = [] ∧
      ∃ out, o.reply = .sw 0x9000 out ∧ S.id = out.headD 0) ∨
    (∃ S0, g.sign = some S0 ∧ S = { S0 with log := S0.log ++ (signEntry o).toList } ∧
      ¬ Fails o ∧ ¬ Restarts o ∧ ¬ OpensSign o ∧ ¬ ClosesSign o) := by
  obtain ⟨asked, here, e, r⟩ := o
  cases e with
  | left =>
    cases r with
    | sw c out => simp [Ghost.next, Ghost.close] at h
    | _ =>
      right
      exact ⟨S, h, by simp [signEntry], by simp [Fails], by simp [Restarts], by simp [OpensSign],
        by simp [ClosesSign]⟩
  | right =>
    cases r with
    | sw c out => simp [Ghost.next, Ghost.close] at h
    | _ =>
      right
      exact ⟨S, h, by simp [signEntry], by simp [Fails], by simp [Restarts], by simp [OpensSign],
        by simp [ClosesSign]⟩
  | both =>
    cases r with
    | sw c out =>
      simp only [Ghost.next] at h
      split at h
      swap
      · simp [Ghost.close] at h
      rename_i hc
      subst hc
      by_cases ha : asked = some .p2pkSigning
      · left
        subst ha
        simp only [Ghost.onApprove, Option.map_eq_some_iff] at h
        obtain ⟨a, ha, rfl⟩ := h
        exact ⟨⟨rfl, rfl, out, rfl⟩, ha, rfl, out, rfl, rfl⟩
      · right
        by_cases hb : asked = some .approveSigning
        · subst hb; simp [Ghost.onApprove, Ghost.close] at h
        · have hf : ¬ Fails ⟨asked, here, .both, .sw 0x9000 out⟩ := by
            rintro ⟨sw, out', h1, h2, _⟩
            simp only [Reply.sw.injEq] at h1
            exact h2 h1.1.symm
          have hr : ¬ Restarts ⟨asked, here, .both, .sw 0x9000 out⟩ := by simp [Restarts]
          have ho : ¬ OpensSign ⟨asked, here, .both, .sw 0x9000 out⟩ := by simp [OpensSign, ha]
          have hcl : ¬ ClosesSign ⟨asked, here, .both, .sw 0x9000 out⟩ := by simp [ClosesSign, hb]
          by_cases hd : asked = some .confirmOutput
          · subst hd
            simp only [Ghost.onApprove, Ghost.log, Option.map_eq_some_iff] at h
            obtain ⟨S0, h0, rfl⟩ := h
            exact ⟨S0, h0, by simp [signEntry], hf, hr, ho, hcl⟩
          · refine ⟨S, ?_, by simp [signEntry, hd], hf, hr, ho, hcl⟩
            unfold Ghost.onApprove at h
            split at h
            · exact absurd rfl hd
            · exact absurd rfl hb
            · exact absurd rfl ha
            · exact h
            · exact h
    | _ =>
      right
      exact ⟨S, h, by simp [signEntry], by simp [Fails], by simp [Restarts], by simp [OpensSign],
        by simp [ClosesSign]⟩
  | apdu cla ins p1 p2 data rnd =>
    right
    have ho : ¬ OpensSign ⟨asked, here, .apdu cla ins p1 p2 data rnd, r⟩ := by simp [OpensSign]
    have hcl : ¬ ClosesSign ⟨asked, here, .apdu cla ins p1 p2 data rnd, r⟩ := by simp [ClosesSign]
    cases r with
    | wait =>
      simp only [Ghost.next, Ghost.onWait] at h
      have hf : ¬ Fails ⟨asked, here, .apdu cla ins p1 p2 data rnd, .wait⟩ := by simp [Fails]
      split at h
      swap
      · simp [Ghost.close] at h
      rename_i hi
      have hr : ¬ Restarts ⟨asked, here, .apdu cla ins p1 p2 data rnd, .wait⟩ := by
        simp only [Restarts, Event.apdu.injEq]
        rintro ⟨_, _, _, _, _, _, ⟨rfl, rfl, rfl, rfl, rfl, rfl⟩, h | h⟩
        · exact h.2 hi
        · obtain ⟨⟨_, h⟩, _⟩ := h; cases h
      by_cases h20 : p1 = 0x20
      · rw [if_pos h20] at h
        exact ⟨S, h, by simp [signEntry, h20], hf, hr, ho, hcl⟩
      · rw [if_neg h20] at h
        simp only [Ghost.log, Option.map_eq_some_iff] at h
        obtain ⟨S0, h0, rfl⟩ := h
        exact ⟨S0, h0, by simp [signEntry, h20, hi.1, hi.2], hf, hr, ho, hcl⟩
    | sw code out =>
      simp only [Ghost.next] at h
      by_cases hc : code = 0x9000
      · subst hc
        rw [if_pos rfl] at h
        have hf : ¬ Fails ⟨asked, here, .apdu cla ins p1 p2 data rnd, .sw 0x9000 out⟩ := by
          rintro ⟨sw, out', h1, h2, _⟩
          simp only [Reply.sw.injEq] at h1
          exact h2 h1.1.symm
        have hr : ¬ (ins = 0x10 ∨ ins = 0x11 ∨ ins = 0x20 ∧ p1 = 0x01) →
            ¬ Restarts ⟨asked, here, .apdu cla ins p1 p2 data rnd, .sw 0x9000 out⟩ := by
          intro hn
          simp only [Restarts, Event.apdu.injEq]
          rintro ⟨_, _, _, _, _, _, ⟨rfl, rfl, rfl, rfl, rfl, rfl⟩, h | h⟩
          · obtain ⟨h, _⟩ := h; cases h
          · exact hn h.2
        unfold Ghost.onOk at h
        split at h
        · rename_i hi
          refine ⟨S, h, ?_, hf, hr ?_, ho, hcl⟩
          · rcases hi with rfl | rfl <;> simp [signEntry]
          · rcases hi with rfl | rfl <;> simp
        split at h
        · rename_i hi
          simp only at hi
          subst hi
          simp only [Ghost.log, Option.map_eq_some_iff] at h
          obtain ⟨S0, h0, rfl⟩ := h
          exact ⟨S0, h0, by simp [signEntry], hf, hr (by simp), ho, hcl⟩
        split at h
        · rename_i hi
          simp only at hi
          subst hi
          split at h
          · simp [Ghost.close] at h
          · rename_i hp
            exact ⟨S, h, by simp [signEntry], hf, hr (by simpa using hp), ho, hcl⟩
        · simp [Ghost.close] at h
      · rw [if_neg hc] at h
        split at h
        swap
        · simp [Ghost.close] at h
        rename_i hh
        refine ⟨S, h, by simp [signEntry, hc], ?_, ?_, ho, hcl⟩
        · rintro ⟨sw, out', h1, _, h3⟩
          simp only [Reply.sw.injEq] at h1
          rw [h1.1, h3] at hh; cases hh
        · simp only [Restarts, Event.apdu.injEq]
          rintro ⟨_, _, _, _, _, _, ⟨rfl, rfl, rfl, rfl, rfl, rfl⟩, h | h⟩
          · obtain ⟨h, _⟩ := h; cases h
          · obtain ⟨⟨_, h⟩, _⟩ := h
            simp only [Reply.sw.injEq] at h
            exact hc h.1
    | _ =>
      exact ⟨S, h, by simp [signEntry], by simp [Fails], by simp [Restarts], ho, hcl⟩

/-- A signing session known to the observer was opened by an approval; since then nothing ended it,
and its log is what was accepted since. -/
theorem sign_opened : ∀ {tr : List Obs} {S : SignSess}, (know tr).sign = some S →
    ∃ tr2 o tr1, tr = tr2 ++ o :: tr1 ∧ OpensSign o ∧ (know tr1).pending = some S.start ∧
      (∃ out, o.reply = .sw 0x9000 out ∧ S.id = out.headD 0) ∧
      S.log = tr2.reverse.filterMap signEntry ∧
      ∀ o' ∈ tr2, ¬ Fails o' ∧ ¬ Restarts o' ∧ ¬ OpensSign o' ∧ ¬ ClosesSign o'
  | [], S, h => by simp [know, Ghost.start] at h
  | o :: tr, S, h => by
    rcases next_sign h with ⟨h1, h2, h3, h4⟩ | ⟨S0, h0, rfl, h1, h2, h3, h4⟩
    · exact ⟨[], o, tr, rfl, h1, h2, h4, by simp [h3], by simp⟩
    · obtain ⟨tr2, o0, tr1, rfl, p1, p2, p3, p4, p5⟩ := sign_opened h0
      refine ⟨o :: tr2, o0, tr1, rfl, p1, p2, p3, ?_, ?_⟩
      · simp only [p4, List.reverse_cons, List.filterMap_append]
        cases hh : signEntry o <;> simp [hh]
      · intro o' ho'
        rcases List.mem_cons.1 ho' with rfl | ho'
        · exact ⟨h1, h2, h3, h4⟩
        · exact p5 o' ho'

/-- One observation and the attestation session. -/
theorem next_attest {g : Ghost} {o : Obs} {S : AttestSess} (h : (g.next o).attest = some S) :
    (OpensAttest o ∧ S.log = [] ∧ S.app = g.app ∧
      (S.asked = true ∧ o.event = .both ∧ g.pending = some S.start ∨
       S.asked = false ∧ ∃ cla, o.event = .apdu cla S.start.ins S.start.p1 S.start.p2 S.start.data S.start.rnd) ∧
      ∃ out, o.reply = .sw 0x9000 out ∧ S.id = out.headD 0) ∨
    (∃ S0, g.attest = some S0 ∧ S = { S0 with log := S0.log ++ (attestEntry o).toList } ∧
      ¬ Fails o ∧ ¬ Restarts o ∧ ¬ OpensAttest o) := by
  obtain ⟨asked, here, e, r⟩ := o
  cases e with
  | left =>
    cases r with
    | sw c out => simp [Ghost.next, Ghost.close] at h
    | _ =>
      right
      exact ⟨S, h, by simp [attestEntry], by simp [Fails], by simp [Restarts], by simp [OpensAttest]⟩
  | right =>
    cases r with
    | sw c out => simp [Ghost.next, Ghost.close] at h
    | _ =>
      right
      exact ⟨S, h, by simp [attestEntry], by simp [Fails], by simp [Restarts], by simp [OpensAttest]⟩
  | both =>
    cases r with
    | sw c out =>
      simp only [Ghost.next] at h
      split at h
      swap
      · simp [Ghost.close] at h
      rename_i hc
      subst hc
      by_cases ha : asked = some .confirmAttest
      · left
        subst ha
        simp only [Ghost.onApprove, Option.map_eq_some_iff] at h
        obtain ⟨a, ha, rfl⟩ := h
        exact ⟨⟨⟨out, rfl⟩, .inl ⟨rfl, rfl⟩⟩, rfl, rfl, .inl ⟨rfl, rfl, ha⟩, out, rfl, rfl⟩
      · right
        have hf : ¬ Fails ⟨asked, here, .both, .sw 0x9000 out⟩ := by
          rintro ⟨sw, out', h1, h2, _⟩
          simp only [Reply.sw.injEq] at h1
          exact h2 h1.1.symm
        have hr : ¬ Restarts ⟨asked, here, .both, .sw 0x9000 out⟩ := by simp [Restarts]
        have ho : ¬ OpensAttest ⟨asked, here, .both, .sw 0x9000 out⟩ := by simp [OpensAttest, ha]
        refine ⟨S, ?_, by simp [attestEntry], hf, hr, ho⟩
        unfold Ghost.onApprove at h
        split at h
        · exact h
        · simp [Ghost.close] at h
        · exact h
        · exact absurd rfl ha
        · exact h
    | _ =>
      right
      exact ⟨S, h, by simp [attestEntry], by simp [Fails], by simp [Restarts], by simp [OpensAttest]⟩
  | apdu cla ins p1 p2 data rnd =>
    cases r with
    | wait =>
      right
      simp only [Ghost.next, Ghost.onWait] at h
      have hf : ¬ Fails ⟨asked, here, .apdu cla ins p1 p2 data rnd, .wait⟩ := by simp [Fails]
      have ho : ¬ OpensAttest ⟨asked, here, .apdu cla ins p1 p2 data rnd, .wait⟩ := by
        simp [OpensAttest]
      split at h
      swap
      · simp [Ghost.close] at h
      rename_i hi
      have hr : ¬ Restarts ⟨asked, here, .apdu cla ins p1 p2 data rnd, .wait⟩ := by
        simp only [Restarts, Event.apdu.injEq]
        rintro ⟨_, _, _, _, _, _, ⟨rfl, rfl, rfl, rfl, rfl, rfl⟩, h | h⟩
        · exact h.2 hi
        · obtain ⟨⟨_, h⟩, _⟩ := h; cases h
      refine ⟨S, ?_, by simp [attestEntry], hf, hr, ho⟩
      split at h
      · exact h
      · exact h
    | sw code out =>
      simp only [Ghost.next] at h
      by_cases hc : code = 0x9000
      · subst hc
        rw [if_pos rfl] at h
        have hf : ¬ Fails ⟨asked, here, .apdu cla ins p1 p2 data rnd, .sw 0x9000 out⟩ := by
          rintro ⟨sw, out', h1, h2, _⟩
          simp only [Reply.sw.injEq] at h1
          exact h2 h1.1.symm
        have hr : ¬ (ins = 0x10 ∨ ins = 0x11 ∨ ins = 0x20 ∧ p1 = 0x01) →
            ¬ Restarts ⟨asked, here, .apdu cla ins p1 p2 data rnd, .sw 0x9000 out⟩ := by
          intro hn
          simp only [Restarts, Event.apdu.injEq]
          rintro ⟨_, _, _, _, _, _, ⟨rfl, rfl, rfl, rfl, rfl, rfl⟩, h | h⟩
          · obtain ⟨h, _⟩ := h; cases h
          · exact hn h.2
        have ho : ¬ (ins = 0x20 ∧ p1 = 0x01) →
            ¬ OpensAttest ⟨asked, here, .apdu cla ins p1 p2 data rnd, .sw 0x9000 out⟩ := by
          rintro hn ⟨_, h | ⟨_, _, _, _, h⟩⟩
          · simp at h
          · simp only [Event.apdu.injEq] at h
            exact hn ⟨h.2.1, h.2.2.1⟩
        unfold Ghost.onOk at h
        split at h
        · rename_i hi
          right
          refine ⟨S, h, ?_, hf, hr ?_, ho ?_⟩
          · rcases hi with rfl | rfl <;> simp [attestEntry]
          · rcases hi with rfl | rfl <;> simp
          · rcases hi with rfl | rfl <;> simp
        split at h
        · rename_i hi
          right
          simp only at hi
          subst hi
          exact ⟨S, h, by simp [attestEntry], hf, hr (by simp), ho (by simp)⟩
        split at h
        · rename_i hi
          simp only at hi
          subst hi
          split at h
          · rename_i hp
            simp only at hp
            subst hp
            left
            simp only [Option.some.injEq] at h
            subst h
            exact ⟨⟨⟨out, rfl⟩, .inr ⟨_, _, _, _, rfl⟩⟩, rfl, rfl, .inr ⟨rfl, cla, rfl⟩, out, rfl, rfl⟩
          · rename_i hp
            right
            simp only at hp
            simp only [Option.map_eq_some_iff] at h
            obtain ⟨S0, h0, rfl⟩ := h
            exact ⟨S0, h0, by simp [attestEntry, hp], hf, hr (by simpa using hp), ho (by simpa using hp)⟩
        · simp [Ghost.close] at h
      · rw [if_neg hc] at h
        split at h
        swap
        · simp [Ghost.close] at h
        rename_i hh
        right
        refine ⟨S, h, by simp [attestEntry, hc], ?_, ?_, ?_⟩
        · rintro ⟨sw, out', h1, _, h3⟩
          simp only [Reply.sw.injEq] at h1
          rw [h1.1, h3] at hh; cases hh
        · simp only [Restarts, Event.apdu.injEq]
          rintro ⟨_, _, _, _, _, _, ⟨rfl, rfl, rfl, rfl, rfl, rfl⟩, h | h⟩
          · obtain ⟨h, _⟩ := h; cases h
          · obtain ⟨⟨_, h⟩, _⟩ := h
            simp only [Reply.sw.injEq] at h
            exact hc h.1
        · rintro ⟨⟨_, h⟩, _⟩
          simp only [Reply.sw.injEq] at h
          exact hc h.1
    | _ =>
      right
      exact ⟨S, h, by simp [attestEntry], by simp [Fails], by simp [Restarts], by simp [OpensAttest]⟩

/-- The same for an attestation session. -/
theorem attest_opened : ∀ {tr : List Obs} {S : AttestSess}, (know tr).attest = some S →
    ∃ tr2 o tr1, tr = tr2 ++ o :: tr1 ∧ OpensAttest o ∧ S.app = (know tr1).app ∧
      (S.asked = true ∧ o.event = .both ∧ (know tr1).pending = some S.start ∨
       S.asked = false ∧ ∃ cla, o.event = .apdu cla S.start.ins S.start.p1 S.start.p2 S.start.data S.start.rnd) ∧
      (∃ out, o.reply = .sw 0x9000 out ∧ S.id = out.headD 0) ∧
      S.log = tr2.reverse.filterMap attestEntry ∧
      ∀ o' ∈ tr2, ¬ Fails o' ∧ ¬ Restarts o' ∧ ¬ OpensAttest o'
  | [], S, h => by simp [know, Ghost.start] at h
  | o :: tr, S, h => by
    rcases next_attest h with ⟨h1, h2, h3, h4, h5⟩ | ⟨S0, h0, rfl, h1, h2, h3⟩
    · exact ⟨[], o, tr, rfl, h1, h3, h4, h5, by simp [h2], by simp⟩
    · obtain ⟨tr2, o0, tr1, rfl, p1, p2, p3, p4, p5, p6⟩ := attest_opened h0
      refine ⟨o :: tr2, o0, tr1, rfl, p1, p2, p3, p4, ?_, ?_⟩
      · simp only [p5, List.reverse_cons, List.filterMap_append]
        cases hh : attestEntry o <;> simp [hh]
      · intro o' ho'
        rcases List.mem_cons.1 ho' with rfl | ho'
        · exact ⟨h1, h2, h3⟩
        · exact p6 o' ho'

/-- Every observation of a trace was made at some point of the execution. -/
theorem Runs.split {env : Env} {nanoS : Bool} {key : Bytes} : ∀ {tr2 : List Obs} {o : Obs}
    {tr1 : List Obs} {d : Device}, Runs env nanoS key (tr2 ++ o :: tr1) d →
    ∃ d1 e, Runs env nanoS key tr1 d1 ∧ o = d1.observe env nanoS e
  | [], o, tr1, d, h => by
    cases h with
    | step e h hh hu => exact ⟨_, e, h, rfl⟩
  | o2 :: tr2, o, tr1, d, h => by
    cases h with
    | step e h hh hu => exact Runs.split h

/-- A success answer to pressing both buttons is an approval. -/
theorem approval_of {env : Env} {nanoS : Bool} {key : Bytes} {tr : List Obs} {d : Device}
    (h : Runs env nanoS key tr d) {e : Event} (he : (d.observe env nanoS e).event = .both)
    {out : Bytes} (hr : (d.observe env nanoS e).reply = .sw 0x9000 out) :
    Approval (d.observe env nanoS e) := by
  refine ⟨he, ?_⟩
  have he' : e = .both := he
  have hr' : (d.step env nanoS e).2 = .sw 0x9000 out := hr
  show d.here = _ ∨ ∃ p, d.here = _
  obtain ⟨d', r, hst, hT⟩ := step_cases env nanoS d e
  rw [hst] at hr'
  have key : ∀ s : Screen, d.screen = some s →
      (s.flow.here = .approve ∨ ∃ p, s.flow.here = .pathApprove p) →
      d.here = some .approve ∨ ∃ p, d.here = some (.pathApprove p) := by
    intro s hs hp
    unfold Device.here
    rw [hs]
    rcases hp with hp | ⟨p, hp⟩
    · exact .inl (by rw [Option.map_some, hp])
    · exact .inr ⟨p, by rw [Option.map_some, hp]⟩
  cases hT with
  | okEpk hs h1 => exact key _ hs h1
  | okDa hs h1 => exact key _ hs h1
  | okAttest hs h1 => exact key _ hs h1
  | okSignInit hs h1 => exact key _ hs h1
  | okSignOutput hs h1 => exact key _ hs h1
  | okSignTx hs h1 => exact key _ hs h1
  | failSignTx hs h1 hcb hx hsig =>
    simp only [status, Reply.sw.injEq] at hr'
    exact absurd hr'.1 (sendResponse_err hsig).1
  | reject => simp [status, Sw.deny] at hr'
  | moveErr h => subst he'; simp at h
  | _ => first | (cases he'; done) | (cases hr'; done)

end Ergo
