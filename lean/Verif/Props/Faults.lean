import Verif.Proof.Faults
import Verif.Props.Sign
/-!
# C75: a failure of the operating system is like a refusal
-/
namespace Ergo
open Spec

/-- C75: an event during which services fail does what it does with working services, or it is answered
with an error and leaves nothing but the application token and the session key. -/
theorem C75_event {env env' : Env} {nanoS : Bool} {key : Bytes} {tr : List Obs} {d : Device}
    (h : Runs env nanoS key tr d) (hf : Failing env' env) (e : Event) :
    d.step env' nanoS e = d.step env nanoS e ∨
      ∃ code, code ≠ 0x9000 ∧ harmless code = false ∧ d.step env' nanoS e = (blank d, .sw code []) :=
  step_failing hf (idle_of h.inv) nanoS e

/-- C75: every device reached with failures, at any moments, is reached without any: by the same trace
in which every failure is replaced by a refusal of the user or an unknown subcommand of the host.  The
observer knows the same after both. -/
theorem C75_mirror {env : Env} {nanoS : Bool} {key : Bytes} {tr : List Obs} {d : Device}
    (h : Faulty env nanoS key tr d) :
    ∃ tr', Runs env nanoS key tr' d ∧ Mirrors tr tr' ∧ know tr' = know tr := by
  suffices H : ∃ tr', Runs env nanoS key tr' d ∧ Mirrors tr tr' by
    obtain ⟨tr', h1, h2⟩ := H
    exact ⟨tr', h1, h2, h2.know_eq⟩
  induction h with
  | boot => exact ⟨[], .boot, .nil⟩
  | fault e code h h1 h2 ih =>
    obtain ⟨tr', h3, h4⟩ := ih
    obtain ⟨o, os, h5, h6, h7⟩ := h3.failure
    exact ⟨_, h5, .fault _ o os h4 ⟨code, [], rfl, h1, h2⟩ h6 h7⟩
  | @address tr d p1 p2 data rnd h hr ih =>
    obtain ⟨tr', h3, h4⟩ := ih
    have he := address_failure hr
    have h5 := h3.step (.apdu 0xE0 0x11 p1 p2 (255 :: data.tail) rnd) (by rw [he]; simp) (by rw [he]; simp)
    have hd := congrArg (·.1) he
    simp only at hd
    rw [hd] at h5
    refine ⟨_, h5, .fault _ _ [] h4 ⟨0xE016, [], rfl, by decide, by decide⟩
      ⟨0xE016, [], ?_, by decide, by decide⟩ (by simp)⟩
    simp only [Device.observe, he]
  | @step tr d env' hf e h hh hu ih =>
    obtain ⟨tr', h3, h4⟩ := ih
    rcases C75_event h3 hf e with he | ⟨code, h1, h2, he⟩
    · have ho : d.observe env' nanoS e = d.observe env nanoS e := by simp only [Device.observe, he]
      rw [he] at hh hu ⊢
      rw [ho]
      exact ⟨_, h3.step e hh hu, .same _ h4⟩
    · obtain ⟨o, os, h5, h6, h7⟩ := h3.failure
      have hd : (d.step env' nanoS e).1 = blank d := by rw [he]
      rw [hd]
      refine ⟨_, h5, .fault _ o os h4 ⟨code, [], ?_, h1, h2⟩ h6 h7⟩
      simp only [Device.observe, he]

/-- C75: with failures at any moments, a signature still answers the approval of the confirmation
screen of a session whose start the user approved, and since that approval nothing failed (C03). -/
theorem C75_approvals {env : Env} (hwf : env.WF) (hv : env.appVersion.length ≠ 56)
    (hn : env.appName.length ≠ 56) {nanoS : Bool} {key : Bytes} {tr : List Obs} {d : Device}
    (h : Faulty env nanoS key tr d) {env' : Env} (hf : Failing env' env) (e : Event)
    (hs : Signs (d.observe env' nanoS e)) :
    Approval (d.observe env' nanoS e) ∧ d.asks = some .approveSigning ∧
    ∃ S tr2 o1 tr1, (know tr).sign = some S ∧ tr = tr2 ++ o1 :: tr1 ∧
      Approval o1 ∧ o1.asked = some .p2pkSigning ∧ (know tr1).pending = some S.start ∧
      S.start.ins = 0x21 ∧ S.start.p1 = 0x01 ∧ o1.reply = .sw 0x9000 [S.id] ∧
      ∀ o ∈ tr2, ¬ Fails o ∧ ¬ Restarts o ∧ ¬ OpensSign o ∧ ¬ ClosesSign o := by
  obtain ⟨tr', h1, h2, h3⟩ := C75_mirror h
  rcases C75_event h1 hf e with he | ⟨code, c1, c2, he⟩
  · have ho : d.observe env' nanoS e = d.observe env nanoS e := by simp only [Device.observe, he]
    rw [ho] at hs ⊢
    obtain ⟨a1, a2, S, tr2, o1, tr1, b1, b2, b3, b4, b5, b6, b7, b8, b9⟩ :=
      C03_approvals hwf hv hn h1 e hs
    have hnf : ¬ Fails o1 := by
      rintro ⟨sw, out, r1, r2, _⟩
      rw [b8] at r1
      cases r1
      exact r2 rfl
    obtain ⟨t1, c1, c2⟩ := h2.since b2 hnf (fun x hx => (b9 x hx).1)
    exact ⟨a1, a2, S, tr2, o1, t1, h3 ▸ b1, c1, b3, b4, c2.know_eq ▸ b5, b6, b7, b8, b9⟩
  · obtain ⟨out, r1, r2⟩ := hs
    have : (d.step env' nanoS e).2 = .sw 0x9000 out := r1
    rw [he] at this
    cases this
    exact absurd rfl c1

/-- The toy services of a moment at which no key can be derived. -/
def deafEnv : Env := { toyEnv with derive := fun _ => none }

theorem deaf_failing : Failing deafEnv toyEnv :=
  ⟨rfl, rfl, rfl, rfl, fun _ => .inl rfl, fun _ => .inr rfl, .inr rfl⟩

theorem faulty_watch {env : Env} {nanoS : Bool} {key : Bytes} : ∀ (es : List Event) (tr : List Obs)
    (d : Device), Faulty env nanoS key tr d →
    (d.run env nanoS es).2.all (fun r => r != .hang && r != .ub) = true →
    Faulty env nanoS key (d.watch env nanoS tr es).1 (d.watch env nanoS tr es).2
  | [], _, _, h, _ => h
  | e :: es, tr, d, h, hr => by
    simp only [Device.run, List.all_cons, Bool.and_eq_true, bne_iff_ne, ne_eq] at hr
    exact faulty_watch es _ _ (.step env (failing_refl env) e h hr.1.1 hr.1.2) hr.2

/-- The derivation fails when the user confirms the transaction: 0xE013 and no signature.  In the next
session it works, and the same transaction is signed. -/
example : ∃ tr d, Faulty toyEnv false [1] tr d ∧
    (tr.map (fun o => o.reply)).contains (.sw 0xE013 []) = true ∧ d.asks = some .approveSigning ∧
    ((d.step toyEnv false .both).2.casesOn none (fun _ b => some b.length) none none
      : Option Nat) = some 56 := by
  have h := faulty_watch (env := toyEnv) (nanoS := false) (key := [1])
    (demoOpen ++ demoTx ++ [cmd 0x21 0x20 7 [], .left, .left]) [] _ .boot (by decide +kernel)
  have h1 := Faulty.step deafEnv deaf_failing .both h (by decide +kernel) (by decide +kernel)
  have h2 := faulty_watch (demoOpen ++ demoTx ++ [cmd 0x21 0x20 7 [], .left, .left]) _ _ h1
    (by decide +kernel)
  exact ⟨_, _, h2, by decide +kernel, by decide +kernel, by decide +kernel⟩

end Ergo
