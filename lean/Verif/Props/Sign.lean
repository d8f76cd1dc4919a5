import Verif.Props.Attest
import Verif.Props.Consent
import Verif.Proof.Schnorr
import Verif.Proof.Screens
/-!
# Signatures: consent, nonces and keys (C03, C06, C08)
-/
namespace Ergo
open Spec

theorem compress_length {p : Bytes} (h : p.length = 65) : (compress p).length = 33 := by
  simp [compress, h]

theorem genPublic_len {env : Env} (hwf : env.WF) {path : List UInt32} {pub chain : Bytes}
    (h : env.genPublic path = some (pub, chain)) : pub.length = 65 ∧ chain.length = 32 := by
  unfold Env.genPublic at h
  split at h
  · simp at h
  rename_i k c hd
  split at h
  · simp at h
  rename_i p hp
  simp only [Option.some.injEq, Prod.mk.injEq] at h
  obtain ⟨rfl, rfl⟩ := h
  exact ⟨hwf.pub_len _ _ hp, (hwf.derive_len _ _ _ hd).2⟩

theorem exports_len {env : Env} (hwf : env.WF) {a : Request} {out : Bytes}
    (h : a.exports env = some out) : out.length = 65 ∨ out.length = 38 := by
  unfold Request.exports at h
  split at h
  · obtain ⟨k, hk, rfl⟩ := Option.map_eq_some_iff.1 h
    obtain ⟨h1, h2⟩ := genPublic_len hwf hk
    left
    simp [compress_length h1, h2]
  · obtain ⟨k, hk, rfl⟩ := Option.map_eq_some_iff.1 h
    obtain ⟨h1, h2⟩ := genPublic_len hwf hk
    right
    simp [p2pkAddress, compress_length h1, hwf.blake_len]

/-- Frames are longer than signatures. -/
theorem frame_len {env : Env} (hwf : env.WF) {nanoS : Bool} {key : Bytes} {tr : List Obs} {d : Device}
    (h : Runs env nanoS key tr d) {cla p2 : UInt8} {data out : Bytes} {rnd : Rnd}
    (hr : (d.step env nanoS (.apdu cla 0x20 0x05 p2 data rnd)).2 = .sw 0x9000 out) :
    59 ≤ out.length := by
  obtain ⟨S, x, x', hS, _, _, _, hA, _, ho, _, _⟩ := attest_answer h (by decide) hr
  have hg : x.getFrame env key data = .ok x' out := ho
  obtain ⟨_, _, _, i, _, _, rfl⟩ := getFrame_rel hA hg
  rw [List.length_append, List.length_take, hwf.hmac_len, frameBytes_length]
  · omega
  · exact hwf.blake_len _
  · intro t ht
    obtain ⟨u, hu, rfl⟩ := List.mem_map.1 ht
    exact hA.idLen u hu

/-- Everything about the step that releases a signature. -/
theorem signature_of {env : Env} (hwf : env.WF) (hv : env.appVersion.length ≠ 56)
    (hn : env.appName.length ≠ 56) {nanoS : Bool} {key : Bytes} {tr : List Obs} {d : Device}
    (h : Runs env nanoS key tr d) {e : Event} {out : Bytes}
    (hr : (d.step env nanoS e).2 = .sw 0x9000 out) (hl : out.length = 56) :
    e = .both ∧ Approves d e ∧ d.asks = some .approveSigning ∧
    ∃ x S, d.ctx = .sign x ∧ (know tr).sign = some S ∧ SignBase env S x ∧ x.p.state = .finalized ∧
      x.p.sendResponse env = .ok out ∧
      (d.step env nanoS e).1 = ⟨d.connectedApp, key, .none, false, .zeroed, none⟩ ∧
      ∃ a, (know tr).pending = some a ∧ a.p1 = 0x20 := by
  have hI := h.inv
  obtain ⟨_, h5⟩ := C16_outputs h e _ _ hr (by omega)
  have h6 : Approves d e ∧ d.asks = some .approveSigning := by
    rcases h5 with ⟨_, _, _, _, _, rfl⟩ | ⟨_, _, _, _, _, rfl⟩ | ⟨p2, data, rnd, rfl⟩ | h6 |
      ⟨a, _, h6, _⟩
    · exact absurd hl hv
    · exact absurd hl hn
    · have := frame_len hwf h hr; omega
    · exact h6
    · rcases exports_len hwf h6 with h7 | h7 <;> omega
  obtain ⟨h7, h8⟩ := h6
  have he : e = .both := h7.1
  refine ⟨he, h7, h8, ?_⟩
  obtain ⟨d', r, hst, hT⟩ := step_cases env nanoS d e
  rw [hst] at hr ⊢
  subst he
  have hcb : ∀ s c, d.screen = some s → s.cb = c → AsksFor c (some .approveSigning) := by
    intro s c hs hc
    have := hI.asks hs
    rwa [h8, hc] at this
  cases hT with
  | idle he hs => cases hr
  | okEpk hs h1 hc hx => exact absurd (hcb _ _ hs hc) (by simp [AsksFor])
  | okDa hs h1 hc hx => exact absurd (hcb _ _ hs hc) (by simp [AsksFor])
  | okAttest hs h1 hc hx => exact absurd (hcb _ _ hs hc) (by simp [AsksFor])
  | okSignInit hs h1 hc hx => exact absurd (hcb _ _ hs hc) (by simp [AsksFor])
  | okSignOutput hs h1 hc hx => exact absurd (hcb _ _ hs hc) (by simp [AsksFor])
  | okSignTx hs h1 hc hx hsig =>
    simp only [Reply.sw.injEq] at hr
    obtain ⟨_, rfl⟩ := hr
    obtain ⟨a, f0, p1, p2, p3⟩ := hI.asking _ hs
    rw [hc] at p3
    obtain ⟨_, q2, _, y, S, q3, q4, q5, _, q6, _⟩ := p3
    rw [hx] at q3
    cases q3
    exact ⟨_, S, hx, q4, q5, q6, hsig, by simp [Device.setCommand, Device.menu, hI.key], a, p1, q2⟩
  | failSignTx hs h1 hc hx hsig =>
    simp only [status, Reply.sw.injEq] at hr
    obtain ⟨_, rfl⟩ := hr
    simp at hl
  | reject hs h1 =>
    simp only [status, Reply.sw.injEq] at hr
    obtain ⟨_, rfl⟩ := hr
    simp at hl
  | moveErr he => simp at he
  | _ => cases hr

/-- C03: a signature answers the user's approval of the transaction-confirmation screen.  In the same
session the user has approved the start-signing screen before (`o1`, for the request `S.start` on
display at that time, when the device gave the session its id), and since then there was no error,
no rejection, no restart, no other session and no other signature. -/
theorem C03_approvals {env : Env} (hwf : env.WF) (hv : env.appVersion.length ≠ 56)
    (hn : env.appName.length ≠ 56) {nanoS : Bool} {key : Bytes} {tr : List Obs} {d : Device}
    (h : Runs env nanoS key tr d) (e : Event) (hs : Signs (d.observe env nanoS e)) :
    Approval (d.observe env nanoS e) ∧ d.asks = some .approveSigning ∧
    ∃ S tr2 o1 tr1, (know tr).sign = some S ∧ tr = tr2 ++ o1 :: tr1 ∧
      Approval o1 ∧ o1.asked = some .p2pkSigning ∧ (know tr1).pending = some S.start ∧
      S.start.ins = 0x21 ∧ S.start.p1 = 0x01 ∧ o1.reply = .sw 0x9000 [S.id] ∧
      ∀ o ∈ tr2, ¬ Fails o ∧ ¬ Restarts o ∧ ¬ OpensSign o ∧ ¬ ClosesSign o := by
  obtain ⟨out, hr, hl⟩ := hs
  obtain ⟨he, h7, h8, x, S, hx, hS, hB, _⟩ := signature_of hwf hv hn h hr hl
  refine ⟨h7, h8, S, ?_⟩
  obtain ⟨tr2, o1, tr1, rfl, h1, h2, ⟨out1, h3, h4⟩, _, h5⟩ := sign_opened hS
  obtain ⟨d1, e1, hd1, rfl⟩ := h.split
  refine ⟨tr2, _, tr1, hS, rfl, approval_of hd1 h1.1 h3, h1.2.1, h2, hB.ins, hB.p1, ?_, h5⟩
  rw [h3]
  obtain ⟨_, h6, _⟩ := h1
  have hr1 : (d1.step env nanoS e1).2 = .sw 0x9000 out1 := h3
  have hq : d1.asks = some .p2pkSigning := h6
  obtain ⟨d', r, hst, hT⟩ := step_cases env nanoS d1 e1
  rw [hst] at hr1
  have he1 : e1 = .both := by assumption
  subst he1
  have hI := hd1.inv
  have hcb : ∀ s c, d1.screen = some s → s.cb = c → AsksFor c (some .p2pkSigning) := by
    intro s c hs hc
    have := hI.asks hs
    rwa [hq, hc] at this
  cases hT with
  | idle he hs => cases hr1
  | okEpk hs h1 hc hx => exact absurd (hcb _ _ hs hc) (by simp [AsksFor])
  | okDa hs h1 hc hx => exact absurd (hcb _ _ hs hc) (by simp [AsksFor])
  | okAttest hs h1 hc hx => exact absurd (hcb _ _ hs hc) (by simp [AsksFor])
  | okSignOutput hs h1 hc hx => exact absurd (hcb _ _ hs hc) (by simp [AsksFor])
  | okSignTx hs h1 hc hx => exact absurd (hcb _ _ hs hc) (by simp [AsksFor])
  | failSignTx hs h1 hc hx => exact absurd (hcb _ _ hs hc) (by simp [AsksFor])
  | okSignInit hs h1 hc hx hu =>
    simp only [Reply.sw.injEq] at hr1
    obtain ⟨_, rfl⟩ := hr1
    simp [h4]
  | reject hs h1 => simp [status, Sw.deny] at hr1
  | moveErr he => simp at he
  | _ => cases hr1

/-- The demonstration run ends with a signature. -/
example : ∃ tr d, Runs toyEnv false [1] tr d ∧ toyEnv.appVersion.length ≠ 56 ∧
    toyEnv.appName.length ≠ 56 ∧ d.asks = some .approveSigning ∧
    ((d.step toyEnv false .both).2.casesOn none (fun _ b => some b.length) none none
      : Option Nat) = some 56 :=
  ⟨_, _, runs_boot (key := [1]) (env := toyEnv) (nanoS := false)
    (demoOpen ++ demoTx ++ [cmd 0x21 0x20 7 [], .left, .left]) (by decide +kernel),
    by decide +kernel, by decide +kernel, by decide +kernel, by decide +kernel⟩

theorem schnorrFinish_eq {env : Env} {t secret key sig : Bytes}
    (h : schnorrFinish env t secret key = some sig) (hb : ∀ b, (env.blake b).length = 32) :
    sig.take 24 = (env.blake t).take 24 ∧ sig.length = 56 ∧
    be (sig.drop 24) = (be key + be (sig.take 24) * be secret) % groupOrder := by
  simp only [schnorrFinish] at h
  split at h
  · simp at h
  simp only [Option.some.injEq] at h
  subst h
  have hl : ((env.blake t).take 24).length = 24 := by simp [hb]
  rw [List.take_left' hl, List.drop_left' hl, be_beBytes, ← secpN_eq, beNat_eq, beNat_eq, beNat_eq]
  refine ⟨rfl, by simp [hb, beBytes_length], ?_⟩
  rw [Nat.add_mod_mod, Nat.mod_eq_of_lt]
  exact lt_trans (Nat.mod_lt _ (by decide)) (by decide)

/-- The request that waits for the user was put on screen at the last display. -/
theorem pending_set {a : Request} : ∀ {tr2 tr1 : List Obs}, (know (tr2 ++ tr1)).pending = some a →
    (know tr1).pending = some a ∨
    ∃ t2 o t1 cla, tr2 = t2 ++ o :: t1 ∧ o.event = .apdu cla a.ins a.p1 a.p2 a.data a.rnd ∧
      o.reply = .wait
  | [], tr1, h => .inl h
  | o :: tr2, tr1, h => by
    have key : (know (tr2 ++ tr1)).pending = some a ∨ ∃ cla,
        o.event = .apdu cla a.ins a.p1 a.p2 a.data a.rnd ∧ o.reply = .wait := by
      simp only [List.cons_append, know] at h
      generalize know (tr2 ++ tr1) = g at h ⊢
      obtain ⟨asked, here, e, r⟩ := o
      have hlog : ∀ e : Entry, (g.log e).pending = g.pending := fun _ => rfl
      have hcl : g.close.pending = g.pending := rfl
      cases e with
      | apdu cla ins p1 p2 data rnd =>
        cases r with
        | wait =>
          right
          simp only [Ghost.next, Ghost.onWait] at h
          refine ⟨cla, ?_, rfl⟩
          split at h <;> (simp only [Option.some.injEq] at h; rw [← h])
        | sw code out =>
          left
          simp only [Ghost.next, Ghost.onOk] at h
          repeat' split at h
          all_goals exact h
        | hang => exact .inl h
        | ub => exact .inl h
      | left => cases r <;> exact .inl h
      | right => cases r <;> exact .inl h
      | both =>
        left
        cases r with
        | sw code out =>
          simp only [Ghost.next, Ghost.onApprove] at h
          repeat' split at h
          all_goals exact h
        | _ => exact h
    rcases key with h | ⟨cla, h1, h2⟩
    · rcases pending_set h with h | ⟨t2, o', t1, cla, rfl, h1, h2⟩
      · exact .inl h
      · exact .inr ⟨o :: t2, o', t1, cla, rfl, h1, h2⟩
    · exact .inr ⟨[], o, tr2, cla, rfl, h1, h2⟩

/-- Only the documented class is put on screen. -/
theorem wait_class {env : Env} {nanoS : Bool} {d : Device} {cla ins p1 p2 : UInt8} {data : Bytes}
    {rnd : Rnd} (hr : (d.step env nanoS (.apdu cla ins p1 p2 data rnd)).2 = .wait) : cla = 0xE0 := by
  by_contra hne
  simp only [Device.step] at hr
  split at hr
  · cases hr
  · simp only [Device.dispatch] at hr
    rw [if_pos hne] at hr
    cases hr

/-- C06: between two signatures the user is asked about a new start command `a`; the ephemeral key
`k` of the second signature `c ‖ z` is one of the random draws of that command: `z = k + c·secret`
modulo the group order. -/
theorem C06_fresh {env : Env} (hwf : env.WF) (hv : env.appVersion.length ≠ 56)
    (hn : env.appName.length ≠ 56) {nanoS : Bool} {key : Bytes} {tr2 tr1 : List Obs} {o1 : Obs}
    {d : Device} (h : Runs env nanoS key (tr2 ++ o1 :: tr1) d) (hs1 : Signs o1)
    (e : Event) (out : Bytes) (hr : (d.step env nanoS e).2 = .sw 0x9000 out) (hl : out.length = 56) :
    ∃ a t2 o t1, tr2 = t2 ++ o :: t1 ∧ AsksSign a o ∧
      ((know (tr2 ++ o1 :: tr1)).sign.map SignSess.start) = some a ∧
      ∃ secret chain j, env.derive (pathOf (a.data.drop 1)) = some (secret, chain) ∧
        0 < be (a.rnd.keys j) ∧ be (a.rnd.keys j) ≤ groupOrder ∧
        be (out.drop 24) = (be (a.rnd.keys j) + be (out.take 24) * be secret) % groupOrder := by
  obtain ⟨he, h7, h8, x, S, hx, hS, hB, hf, hsend, _⟩ := signature_of hwf hv hn h hr hl
  obtain ⟨u2, o2, u1, htr, h1, h2, ⟨out1, h3, h4⟩, _, h5⟩ := sign_opened hS
  obtain ⟨d1, e1, hd1, ho1⟩ := h.split
  -- the first signature closes its session
  have hc1 : ClosesSign o1 ∧ ∃ b, (know tr1).pending = some b ∧ b.p1 = 0x20 := by
    subst ho1
    obtain ⟨outa, hra, hla⟩ := hs1
    obtain ⟨he1, _, hask, _, _, _, _, _, _, _, _, b, hb⟩ := signature_of hwf hv hn hd1 hra hla
    exact ⟨⟨he1, hask, outa, hra⟩, b, hb⟩
  obtain ⟨hc1, b, hb1, hb2⟩ := hc1
  -- so the second session was opened after it
  have hsuf : ∃ u3, tr2 = u2 ++ o2 :: u3 ∧ u1 = u3 ++ o1 :: tr1 := by
    rcases List.append_eq_append_iff.1 htr with ⟨w, h9, h10⟩ | ⟨w, h9, h10⟩
    · cases w with
      | nil =>
        simp only [List.nil_append, List.cons.injEq] at h10
        rw [← h10.1] at h1
        have := hc1.2.1
        rw [h1.2.1] at this
        cases this
      | cons w ws =>
        simp only [List.cons_append, List.cons.injEq] at h10
        exact absurd hc1 (h10.1 ▸ h5 w (by simp [h9])).2.2.2
    · cases w with
      | nil =>
        simp only [List.nil_append, List.cons.injEq] at h10
        rw [h10.1] at h1
        have := hc1.2.1
        rw [h1.2.1] at this
        cases this
      | cons w ws =>
        simp only [List.cons_append, List.cons.injEq] at h10
        exact ⟨ws, by rw [h9, h10.1], h10.2⟩
  obtain ⟨u3, rfl, rfl⟩ := hsuf
  have hp := pending_set h2
  have hp1 : (know (o1 :: tr1)).pending = some b := by
    simp only [know]
    obtain ⟨asked, here, e', r'⟩ := o1
    obtain ⟨c1, c2, outa, c3⟩ := hc1
    simp only at c1 c2 c3
    subst c1 c2 c3
    simpa [Ghost.next, Ghost.onApprove, Ghost.close] using hb1
  rcases hp with hp | ⟨t2, o, t1, cla, rfl, h9, h10⟩
  · rw [hp1] at hp
    cases hp
    rw [hB.p1] at hb2
    exact absurd hb2 (by decide)
  · refine ⟨S.start, u2 ++ o2 :: t2, o, t1, by simp, ⟨hB.ins, hB.p1, ?_, h10⟩, by rw [hS]; rfl, ?_⟩
    · have hh : Runs env nanoS key ((u2 ++ o2 :: t2) ++ o :: (t1 ++ o1 :: tr1)) d := by
        simpa using h
      obtain ⟨d3, e3, hd3, rfl⟩ := hh.split
      have he3 : e3 = .apdu cla S.start.ins S.start.p1 S.start.p2 S.start.data S.start.rnd := h9
      subst he3
      rw [h9, Request.event, wait_class h10]
    · obtain ⟨network, path, token, p0, i1, i2, i3, _, i5⟩ := hB.init
      obtain ⟨_, _, secret, h0, k, j1, j2, rfl⟩ := p2pkInit_ok i2
      simp only at i5
      obtain ⟨_, j3, _⟩ := parseSignInit_some i1
      rw [j3]
      unfold P2pk.sendResponse at hsend
      rw [if_neg (by simp [hf]), i3, j1] at hsend
      simp only at hsend
      split at hsend
      · rename_i sig hsig
        simp only [Except.ok.injEq] at hsend
        subst hsend
        rw [i5] at hsig
        obtain ⟨_, _, g3⟩ := schnorrFinish_eq hsig hwf.blake_len
        obtain ⟨j, pk, w, rfl, _, _, _, _, g5⟩ := schnorrInitLoop_some env secret _ _ _ _ _ j2
        obtain ⟨kc, hkc, rfl⟩ := Option.map_eq_some_iff.1 j1
        refine ⟨kc.1, kc.2, j, hkc, ?_, ?_, g3⟩
        · simp only [scalarOk, beNat_eq] at g5
          simp at g5
          omega
        · simp only [scalarOk, beNat_eq, secpN_eq] at g5
          simp at g5
          omega
      · cases hsend

/-- C06: a signature erases the whole context, with the ephemeral key, and so does every rejection
and every failure on screen. -/
theorem C06_erased {env : Env} (hwf : env.WF) (hv : env.appVersion.length ≠ 56)
    (hn : env.appName.length ≠ 56) {nanoS : Bool} {key : Bytes} {tr : List Obs} {d : Device}
    (h : Runs env nanoS key tr d) (e : Event) :
    (Signs (d.observe env nanoS e) →
      (d.step env nanoS e).1 = ⟨d.connectedApp, key, .none, false, .zeroed, none⟩) ∧
    (∀ sw out, e = .left ∨ e = .right ∨ e = .both → (d.step env nanoS e).2 = .sw sw out →
      sw ≠ 0x9000 →
      (d.step env nanoS e).1 = ⟨d.connectedApp, key, .none, false, .zeroed, none⟩) := by
  constructor
  · rintro ⟨out, hr, hl⟩
    obtain ⟨_, _, _, _, _, _, _, _, _, _, h9, _⟩ := signature_of hwf hv hn h hr hl
    exact h9
  · intro sw out he hr hsw
    have hI := h.inv
    obtain ⟨d', r, hst, hT⟩ := step_cases env nanoS d e
    rw [hst] at hr ⊢
    simp only at hr
    subst hr
    generalize hr : Reply.sw sw out = r at hT
    cases hT with
    | moveErr => simp [Device.setCommand, Device.menu, hI.key]
    | reject => simp [Device.setCommand, Device.menu, hI.key]
    | failSignTx => simp [Device.setCommand, Device.menu, hI.key]
    | _ => first
      | (cases hr; done)
      | (simp at he; done)
      | (simp only [status, Reply.sw.injEq] at hr; exact absurd hr.1 hsw)

/-- Decidable form of `Signs`. -/
def isSig : Reply → Bool
  | .sw c b => c = 0x9000 && b.length = 56
  | _ => false

theorem isSig_iff {o : Obs} : isSig o.reply = true ↔ Signs o := by
  unfold isSig Signs
  cases o.reply <;> simp

/-- Two complete sessions: the hypotheses of `C06_fresh` are satisfiable. -/
example : ∃ tr2 o1 tr1 d, Runs toyEnv false [1] (tr2 ++ o1 :: tr1) d ∧ Signs o1 ∧
    Signs (d.observe toyEnv false .both) := by
  have h := runs_boot (key := [1]) (env := toyEnv) (nanoS := false)
    (demoOpen ++ demoTx ++ demoConfirm ++ demoOpen ++ demoTx ++ [cmd 0x21 0x20 7 [], .left, .left])
    (by decide +kernel)
  generalize hw : (Device.boot [1]).watch toyEnv false [] (demoOpen ++ demoTx ++ demoConfirm ++
    demoOpen ++ demoTx ++ [cmd 0x21 0x20 7 [], .left, .left]) = w at h
  have h1 : ((w.1.drop 14).head?.map (fun o => isSig o.reply)).getD false = true := by
    subst hw; decide +kernel
  have h2 : isSig (w.2.step toyEnv false .both).2 = true := by
    subst hw; decide +kernel
  cases hd : w.1.drop 14 with
  | nil => rw [hd] at h1; simp at h1
  | cons o t =>
    rw [hd] at h1
    simp only [List.head?_cons, Option.map_some, Option.getD_some] at h1
    have e : w.1.take 14 ++ o :: t = w.1 := by rw [← hd]; exact List.take_append_drop _ _
    exact ⟨w.1.take 14, o, t, w.2, by rw [e]; exact h, isSig_iff.1 h1, isSig_iff.1 h2⟩

/-- How an open signing session was started. -/
theorem session_start {env : Env} {nanoS : Bool} {key : Bytes} {tr : List Obs} {d : Device}
    (h : Runs env nanoS key tr d) {S : SignSess} (hS : (know tr).sign = some S) :
    ∃ tr2 o1 tr1 d1, tr = tr2 ++ o1 :: tr1 ∧ Runs env nanoS key tr1 d1 ∧
      o1 = d1.observe env nanoS .both ∧ OpensSign o1 ∧ (know tr1).pending = some S.start ∧
      S.log = tr2.reverse.filterMap signEntry ∧
      d1.asks = some .p2pkSigning ∧
      ∃ network path token p t, parseSignInit S.start.data (S.start.p2 = 2) = .ok (network, path, token) ∧
        p2pkInit env path network S.start.rnd.keys = .ok p ∧ pathFormat path bip32StrLen = some t := by
  obtain ⟨tr2, o1, tr1, rfl, h1, h2, _, h4, h5⟩ := sign_opened hS
  obtain ⟨d1, e1, hd1, rfl⟩ := h.split
  have he : e1 = .both := h1.1
  subst he
  have hq : d1.asks = some .p2pkSigning := h1.2.1
  refine ⟨tr2, _, tr1, d1, rfl, hd1, rfl, h1, h2, h4, hq, ?_⟩
  have hI := hd1.inv
  cases hs : d1.screen with
  | none => simp [Device.asks, hs] at hq
  | some s =>
    have hA := hI.asks hs
    obtain ⟨a, f0, p1, p2, p3⟩ := hI.asking _ hs
    rw [h2] at p1
    cases p1
    rw [hq] at hA
    cases hcb : s.cb <;> rw [hcb] at hA p3 <;> simp [AsksFor] at hA
    obtain ⟨_, _, _, _, n, path, token, p, s', t, q1, q2, _, _, q3, _⟩ := p3
    exact ⟨n, path, token, p, t, q1, q2, q3⟩

/-- C08: a signature is made with the secret derived for the path `pathOf (S.start.data.drop 1)` of
the start command: the response is `k + c·secret`.  The path is an Ergo address path, it is on the
first page of the start-signing screen (`d1`) that the user approved, there cut to 59 characters, and
in full on the first page of the transaction-confirmation screen. -/
theorem C08_key {env : Env} (hwf : env.WF) (hv : env.appVersion.length ≠ 56)
    (hn : env.appName.length ≠ 56) {nanoS : Bool} {key : Bytes} {tr : List Obs} {d : Device}
    (h : Runs env nanoS key tr d) (e : Event) (out : Bytes)
    (hr : (d.step env nanoS e).2 = .sw 0x9000 out) (hl : out.length = 56) :
    ∃ S path, (know tr).sign = some S ∧ path = pathOf (S.start.data.drop 1) ∧
      IsAddressPath path ∧ path.length ≤ 10 ∧
      (∃ secret chain j, env.derive path = some (secret, chain) ∧
        be (out.drop 24) = (be (S.start.rnd.keys j) + be (out.take 24) * be secret) % groupOrder) ∧
      (∃ tr2 d1 tr1, tr = tr2 ++ d1.observe env nanoS .both :: tr1 ∧ Runs env nanoS key tr1 d1 ∧
        OpensSign (d1.observe env nanoS .both) ∧
        d1.pages.head? = some (pathPage .p2pkSigning path)) ∧
      (d.dynPages env nanoS).head? = some (.page ⟨.p2pkPath, .text (pathText path)⟩) := by
  obtain ⟨he, h7, h8, x, S, hx, hS, hB, hf, hsend, _⟩ := signature_of hwf hv hn h hr hl
  obtain ⟨network, path, token, p0, i1, i2, i3, _, i5⟩ := hB.init
  obtain ⟨g1, _, secret, h0, k, j1, j2, rfl⟩ := p2pkInit_ok i2
  simp only at i5
  obtain ⟨_, j3, j4⟩ := parseSignInit_some i1
  obtain ⟨tr2, o1, tr1, d1, rfl, hd1, rfl, ho, hp, _, hq, network', path', token', p', t, k1, k2, k3⟩ :=
    session_start h hS
  rw [i1] at k1
  simp only [Except.ok.injEq, Prod.mk.injEq] at k1
  obtain ⟨rfl, rfl, rfl⟩ := k1
  refine ⟨S, path, hS, j3.symm, (validate_address _).1 g1, j4, ?_, ⟨tr2, d1, tr1, rfl, hd1, ho, ?_⟩, ?_⟩
  · unfold P2pk.sendResponse at hsend
    rw [if_neg (by simp [hf]), i3, j1] at hsend
    simp only at hsend
    split at hsend
    · rename_i sig hsig
      simp only [Except.ok.injEq] at hsend
      subst hsend
      rw [i5] at hsig
      obtain ⟨_, _, g3⟩ := schnorrFinish_eq hsig hwf.blake_len
      obtain ⟨j, pk, w, rfl, _⟩ := schnorrInitLoop_some env secret _ _ _ _ _ j2
      obtain ⟨kc, hkc, rfl⟩ := Option.map_eq_some_iff.1 j1
      exact ⟨kc.1, kc.2, j, hkc, g3⟩
    · cases hsend
  · obtain ⟨a, p1, _, _, _, p3⟩ := (C16_screen hd1).2.2.2.2 hq
    rw [hp] at p1
    cases p1
    rw [p3, j3]
    rfl
  · have hI := h.inv
    cases hs : d.screen with
    | none => simp [Device.asks, hs] at h8
    | some s =>
      have hA := hI.asks hs
      obtain ⟨a, f0, p1, p2, p3⟩ := hI.asking _ hs
      rw [h8] at hA
      cases hcb : s.cb <;> rw [hcb] at hA p3 <;> simp [AsksFor] at hA
      obtain ⟨_, _, _, y, S', q1, q2, _, q3, _, q4⟩ := p3
      rw [hx] at q1
      cases q1
      rw [dynPages_eq hs p2, q4, hcb]
      have hc : (Flow.dynamic ⟨.approveSigning, .nothing⟩ (txScreenCount x.p.amounts)).count =
          (2 + 2 * x.p.amounts.nonZeroCount) + 1 := by
        simp only [Flow.dynamic, txScreenCount]; omega
      rw [hc, List.range_succ_eq_map]
      simp only [List.map_cons, List.head?_cons, Device.show, hx, q3, showTx, i3, textLen,
        pathFormat_full k3]

example : (after (demoOpen ++ demoTx ++ [cmd 0x21 0x20 7 []])).dynPages toyEnv false =
    [.page ⟨.p2pkPath, .text "44'/429'/0'/0/0".toList⟩, .page ⟨.txAmount, .erg 90⟩,
     .page ⟨.txFee, .erg 10⟩] := by decide +kernel

end Ergo
