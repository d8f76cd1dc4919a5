import Verif.Proof.MacFaults
import Verif.Props.CallFaults
/-!
# C87: the authentication function may fail without being noticed
-/
namespace Ergo
open Spec

theorem alikeTag_refl (a : Option Title) (s : Option FlowStep) (e : Event) (r : Reply) :
    AlikeUpToTag ⟨a, s, e, r⟩ ⟨a, s, e, r⟩ := ⟨rfl, rfl, .inl ⟨rfl, .inl (.inl rfl)⟩⟩

/-- One event with a failing authentication function: like an event without failure. -/
theorem mac_step {env : Env} (hwf : env.WF) (nanoS : Bool) {g : Option Bytes}
    (hg : ∀ b, g = some b → b.length = 32) (d : Device) (e : Event) :
    ∃ e', (d.step (garbled env g) nanoS e).1 = (d.step env nanoS e').1 ∧
      AlikeUpToTag ⟨d.asks, d.here, e, (d.step (garbled env g) nanoS e).2⟩ (d.observe env nanoS e') := by
  cases g with
  | none => exact ⟨e, rfl, alikeTag_refl ..⟩
  | some g =>
    have hg := hg g rfl
    show ∃ e', (d.step (env.mac fun _ _ => g) nanoS e).1 = _ ∧
      AlikeUpToTag ⟨d.asks, d.here, e, (d.step (env.mac fun _ _ => g) nanoS e).2⟩ _
    by_cases he : ∀ cla p2 data rnd, e ≠ .apdu cla 0x21 0x12 p2 data rnd
    · obtain ⟨h1, h2 | ⟨h2, body, h3, h4⟩⟩ := mac_other (env := env) (H := fun _ _ => g) nanoS d he
      · exact ⟨e, h1, by rw [h2]; exact alikeTag_refl ..⟩
      · refine ⟨e, h1, rfl, rfl, .inr (.inr ⟨rfl, h2, body, _, _, ?_, ?_, h4, h3⟩)⟩
        · rw [List.length_take, hg]; rfl
        · rw [List.length_take, hwf.hmac_len]; rfl
    · simp only [ne_eq, not_forall, not_not] at he
      obtain ⟨cla, p2, data, rnd, rfl⟩ := he
      by_cases hl : data.length ≤ 255
      · rcases opFrame_garbled (H := fun _ _ => g) hwf d.sessionKey hl with
          ⟨body, tag, tag', rest, rfl, ht, ht', hb, ho⟩ | ho
        · rcases frame_form nanoS d cla p2 (data := body ++ tag ++ rest) (data' := body ++ tag' ++ rest) rnd
            (by simp only [List.length_append, ht, ht']) with ⟨r, _, hr⟩ | ⟨_, x, hx⟩
          · refine ⟨.apdu cla 0x21 0x12 p2 (body ++ tag ++ rest) rnd, ?_, ?_⟩
            · rw [(hr _).1, (hr _).1]
            · simp only [Device.observe]
              rw [(hr _).1, (hr _).1]
              exact alikeTag_refl ..
          · have hs : d.step (env.mac fun _ _ => g) nanoS (.apdu cla 0x21 0x12 p2 (body ++ tag ++ rest) rnd) =
                d.step env nanoS (.apdu cla 0x21 0x12 p2 (body ++ tag' ++ rest) rnd) := by
              rw [(hx _).1, (hx _).2, ho]
            refine ⟨.apdu cla 0x21 0x12 p2 (body ++ tag' ++ rest) rnd, by rw [hs], ?_⟩
            simp only [Device.observe]
            rw [hs]
            exact ⟨rfl, rfl, .inl ⟨rfl, .inr ⟨_, _, _, _, _, _, _, ht, ht', hb, rfl, rfl⟩⟩⟩
        · refine ⟨.apdu cla 0x21 0x12 p2 data rnd, ?_, rfl, rfl, ?_⟩
          · rcases frame_form nanoS d cla p2 (data' := data) rnd rfl with ⟨r, _, hr⟩ | ⟨_, x, hx⟩
            · rw [(hr _).1, (hr _).1]
            · rw [(hx _).1, (hx _).1]
              rcases ho (fun _ _ => g) x.p with h1 | h1 <;> rcases ho env.hmac x.p with h2 | h2 <;>
                rw [h1, show opFrame env d.sessionKey x.p data = _ from h2] <;> rfl
          · rcases frame_form nanoS d cla p2 (data' := data) rnd rfl with ⟨r, _, hr⟩ | ⟨_, x, hx⟩
            · refine .inl ⟨?_, .inl (.inl rfl)⟩
              simp only [Device.observe]
              rw [(hr _).1, (hr _).1]
            · refine .inr (.inl ⟨rfl, ⟨_, _, _, _, rfl⟩, ?_, ?_⟩)
              · unfold Fails
                simp only
                rw [(hx _).1]
                rcases ho (fun _ _ => g) x.p with h1 | h1 <;> rw [h1] <;>
                  exact ⟨_, _, rfl, by decide, by decide⟩
              · unfold Fails
                simp only [Device.observe]
                rw [(hx _).1]
                rcases ho env.hmac x.p with h2 | h2 <;>
                  rw [show opFrame env d.sessionKey x.p data = _ from h2] <;>
                  exact ⟨_, _, rfl, by decide, by decide⟩
      · rcases frame_form nanoS d cla p2 (data' := data) rnd rfl with ⟨r, _, hr⟩ | ⟨hl', _⟩
        · refine ⟨.apdu cla 0x21 0x12 p2 data rnd, ?_, ?_⟩
          · rw [(hr _).1, (hr _).1]
          · simp only [Device.observe]
            rw [(hr _).1, (hr _).1]
            exact alikeTag_refl ..
        · exact absurd hl' hl

/-- An event other than a frame command or a request for a frame is the same. -/
theorem garbled_same {env : Env} (nanoS : Bool) (g : Option Bytes) (d : Device) {e : Event}
    (h1 : ∀ cla p2 data rnd, e ≠ .apdu cla 0x21 0x12 p2 data rnd)
    (h2 : ∀ cla p2 data rnd, e ≠ .apdu cla 0x20 0x05 p2 data rnd) :
    d.step (garbled env g) nanoS e = d.step env nanoS e := by
  cases g with
  | none => rfl
  | some g =>
    obtain ⟨a, b | ⟨⟨_, _, _, _, b⟩, _⟩⟩ := mac_other (env := env) (H := fun _ _ => g) nanoS d h1
    · exact Prod.ext a b
    · exact absurd b (h2 _ _ _ _)

/-- C87 (partial: frames may be accepted with a wrong tag while the function fails): executions in which
the authentication function fails at any events, and other calls too, are like executions with failures
(C75) in which frames with other tags were presented and released. -/
theorem C87_run_partial {env : Env} (hwf : env.WF) {nanoS : Bool} {key : Bytes} {tr : List Obs} {d : Device}
    (h : MacRuns env nanoS key tr d) :
    ∃ tr', Faulty env nanoS key tr' d ∧ List.Forall₂ AlikeUpToTag tr tr' := by
  induction h with
  | boot => exact ⟨[], .boot, .nil⟩
  | @step tr d g hg ok e h hh hu ih =>
    obtain ⟨tr', h1, h2⟩ := ih
    obtain ⟨_, h3, _⟩ := C75_mirror h1
    have hy := Device.yields_step (ok := ok) (env := garbled env g) (idle_of h3.inv) nanoS e
    by_cases hw : ∀ j, 0 ≤ j → j < (d.stepF (garbled env g) ok nanoS e 0).2 → ok j = true
    · have he := hy.works 0 hw
      rw [he] at hh hu
      simp only [observeMac]
      rw [he]
      obtain ⟨e', m1, m2⟩ := mac_step hwf nanoS hg d e
      have hr : (d.step env nanoS e').2 ≠ .hang ∧ (d.step env nanoS e').2 ≠ .ub := by
        obtain ⟨_, _, ⟨r, _⟩ | ⟨_, _, _, _, _, r, _⟩ | ⟨_, _, _, _, _, _, _, _, r⟩⟩ := m2
        · rw [show (d.step env nanoS e').2 = _ from r]
          exact ⟨hh, hu⟩
        · rw [show (d.step env nanoS e').2 = _ from r]
          simp
        · rw [show (d.step env nanoS e').2 = _ from r]
          simp
      rw [m1]
      exact ⟨_, .step env (failing_refl env) e' h1 hr.1 hr.2, .cons m2 h2⟩
    · obtain ⟨j, hj⟩ := Classical.not_forall.1 hw
      obtain ⟨_, hj⟩ := Classical.not_imp.1 hj
      obtain ⟨hj, hk⟩ := Classical.not_imp.1 hj
      have hf := hy.fails 0 j (Nat.zero_le _) hj (by simpa using hk)
      simp only [observeMac]
      rcases hf with ⟨code, hc, he⟩ | ⟨p1, p2, data, rnd, rfl, he, hr⟩ | ⟨p2, data, rnd, i, rfl, he⟩
      · rw [he]
        obtain ⟨hc1, hc2⟩ := faultCode_word hc
        exact ⟨_, .fault e code h1 hc1 hc2, .cons (alikeTag_refl ..) h2⟩
      · rw [he]
        rw [garbled_same nanoS g d (by simp) (by simp)] at hr
        exact ⟨_, .address p1 p2 data rnd h1 hr, .cons (alikeTag_refl ..) h2⟩
      · rw [garbled_same nanoS g d (by simp) (by simp)] at he
        rw [he] at hh hu ⊢
        exact ⟨_, .step env (failing_refl env) _ h1 hh hu,
          .cons ⟨rfl, rfl, .inl ⟨rfl, .inl (.inr ⟨_, _, _, _, _, rnd, i, rfl, rfl⟩)⟩⟩ h2⟩

/-- C87 (partial): at an event at which the function works, a frame is accepted with the right tag only. -/
theorem C87_tag_partial {env : Env} (hwf : env.WF) {nanoS : Bool} {key : Bytes} {tr : List Obs} {d : Device}
    (h : MacRuns env nanoS key tr d) (ok : Nat → Bool) {cla p2 : UInt8} {data : Bytes} {rnd : Rnd} {out : Bytes}
    (hr : (d.stepF env ok nanoS (.apdu cla 0x21 0x12 p2 data rnd) 0).1.2 = .sw 0x9000 out) :
    TagOk env key data := by
  obtain ⟨tr', h1, _⟩ := C87_run_partial hwf h
  obtain ⟨_, h3, _⟩ := C75_mirror h1
  have he := (success_calls (idle_of h3.inv) ok _ hr).2
  rw [he] at hr
  rcases frame_form nanoS d cla p2 (data' := data) rnd rfl with ⟨r, hn, hq⟩ | ⟨_, x, hx⟩
  · rw [(hq env).1] at hr
    exact absurd hr (hn out)
  · rw [(hx env).1] at hr
    have hk : d.sessionKey = key := h3.inv.key
    rw [hk] at hr
    unfold opFrame at hr
    dsimp only at hr
    by_cases h0 : (frameDataLen data).toNat = 0
    · rw [if_pos h0] at hr
      exact absurd hr (by simp [Device.signResult, Device.abort, status, Sw.notEnoughData])
    rw [if_neg h0] at hr
    by_cases ht : (env.hmac key (data.take (frameDataLen data).toNat)).take 16 ≠
        (data.drop (frameDataLen data).toNat).take 16
    · rw [if_pos ht] at hr
      exact absurd hr (by simp [Device.signResult, Device.abort, status, Sw.badFrameSignature])
    · have ht := (not_not.1 ht).symm
      rw [frameDataLen_tagAt h0] at ht
      exact ht

theorem AlikeUpToTag.event_both {o o' : Obs} (h : AlikeUpToTag o o') : o.event = .both ↔ o'.event = .both := by
  obtain ⟨_, _, ⟨_, h | ⟨_, _, _, _, _, _, _, _, _, _, h, h'⟩⟩ | ⟨h, _⟩ | ⟨h, _⟩⟩ := h
  · exact SameUpToDraw.both h
  · simp [h, h']
  · rw [h]
  · rw [h]

theorem AlikeUpToTag.fails {o o' : Obs} (h : AlikeUpToTag o o') (hf : Fails o) : Fails o' := by
  obtain ⟨_, _, ⟨r, _⟩ | ⟨_, _, _, r⟩ | ⟨_, _, _, _, _, _, _, r, _⟩⟩ := h
  · obtain ⟨sw, out, r1, r2, r3⟩ := hf
    exact ⟨sw, out, r.trans r1, r2, r3⟩
  · exact r
  · obtain ⟨sw, out, r1, r2, r3⟩ := hf
    rw [r] at r1
    cases r1
    exact absurd rfl r2

/-- The answer to the button is the same. -/
theorem AlikeUpToTag.button {o o' : Obs} (h : AlikeUpToTag o o') (hb : o.event = .both) :
    o'.reply = o.reply := by
  obtain ⟨_, _, ⟨r, _⟩ | ⟨_, ⟨_, _, _, _, r⟩, _⟩ | ⟨_, ⟨_, _, _, _, r⟩, _⟩⟩ := h
  · exact r
  · rw [hb] at r; cases r
  · rw [hb] at r; cases r

theorem AlikeUpToTag.restarts {o o' : Obs} (h : AlikeUpToTag o o') (hr : Restarts o) : Restarts o' := by
  obtain ⟨cla, ins, p1, p2, data, rnd, he, hr⟩ := hr
  obtain ⟨_, _, ⟨r, h4⟩ | ⟨_, ⟨_, _, _, _, r⟩, hf, _⟩ | ⟨_, ⟨_, _, _, _, r⟩, _, _, _, _, _, r1, _⟩⟩ := h
  · rw [← r] at hr
    rcases h4 with (h4 | ⟨_, _, _, _, _, _, i, h5, h6⟩) | ⟨_, _, _, _, _, _, _, _, _, _, h5, h6⟩
    · exact ⟨cla, ins, p1, p2, data, rnd, h4.trans he, hr⟩
    · rw [he] at h5
      cases h5
      exact ⟨_, _, _, _, _, _, h6, hr⟩
    · rw [he] at h5
      cases h5
      exact ⟨_, _, _, _, _, _, h6, hr⟩
  · obtain ⟨sw, out, r1, r2, _⟩ := hf
    rw [r1] at hr
    rcases hr with ⟨hr, _⟩ | ⟨⟨_, hr⟩, _⟩
    · cases hr
    · cases hr
      exact absurd rfl r2
  · rw [he] at r
    cases r
    rw [r1] at hr
    rcases hr with ⟨hr, _⟩ | ⟨_, hr | hr | ⟨_, hr⟩⟩
    · cases hr
    · exact absurd hr (by decide)
    · exact absurd hr (by decide)
    · exact absurd hr (by decide)

/-- C87 (partial): whatever the authentication function does, a signature answers the approval of the
confirmation screen of a session whose start the user approved, and since that approval nothing failed
(the failures of the authentication function excepted, which cause no error). -/
theorem C87_approvals_partial {env : Env} (hwf : env.WF) (hv : env.appVersion.length ≠ 56)
    (hn : env.appName.length ≠ 56) {nanoS : Bool} {key : Bytes} {tr : List Obs} {d : Device}
    (h : MacRuns env nanoS key tr d) {g : Option Bytes} (hg : ∀ b, g = some b → b.length = 32)
    (ok : Nat → Bool) (e : Event) (hs : Signs (observeMac env nanoS g ok d e)) :
    Approval (observeMac env nanoS g ok d e) ∧ d.asks = some .approveSigning ∧
    (∀ j < (d.stepF (garbled env g) ok nanoS e 0).2, ok j = true) ∧
    ∃ tr2 o1 tr1 id, tr = tr2 ++ o1 :: tr1 ∧ Approval o1 ∧ o1.asked = some .p2pkSigning ∧
      o1.reply = .sw 0x9000 [id] ∧
      ∀ o ∈ tr2, ¬ Fails o ∧ ¬ Restarts o ∧ ¬ OpensSign o ∧ ¬ ClosesSign o := by
  obtain ⟨tr', h1, h2⟩ := C87_run_partial hwf h
  obtain ⟨_, h3, _⟩ := C75_mirror h1
  obtain ⟨out, hr, hlen⟩ := hs
  obtain ⟨hw, he⟩ := success_calls (idle_of h3.inv) ok e hr
  obtain ⟨e', m1, m2⟩ := mac_step hwf nanoS hg d e
  have ho : observeMac env nanoS g ok d e = ⟨d.asks, d.here, e, (d.step (garbled env g) nanoS e).2⟩ := by
    simp only [observeMac, he]
  rw [ho]
  replace hr : (d.step (garbled env g) nanoS e).2 = .sw 0x9000 out := by rw [← he]; exact hr
  have hs' : Signs (d.observe env nanoS e') := by
    obtain ⟨_, _, ⟨r, _⟩ | ⟨_, _, ⟨sw, o, r, r', _⟩, _⟩ | ⟨_, _, body, t, t', l, l', r, r'⟩⟩ := m2
    · exact ⟨out, r.trans hr, hlen⟩
    · replace r : (d.step (garbled env g) nanoS e).2 = _ := r
      rw [hr] at r
      cases r
      exact absurd rfl r'
    · replace r : (d.step (garbled env g) nanoS e).2 = _ := r
      rw [hr] at r
      cases r
      refine ⟨_, r', ?_⟩
      rw [List.length_append] at hlen ⊢
      omega
  obtain ⟨a1, a2, S, tr2, o1, tr1, _, rfl, b3, b4, _, _, _, b8, b9⟩ :=
    C75_approvals hwf hv hn h1 (failing_refl env) e' hs'
  obtain ⟨t2, p, t1, rfl, c1, c2⟩ := alike_split tr2 h2
  have hpb := (AlikeUpToTag.event_both c2).2 b3.1
  refine ⟨⟨(AlikeUpToTag.event_both m2).2 a1.1, a1.2⟩, a2, hw, t2, p, t1, S.id, rfl,
    ⟨hpb, c2.2.1 ▸ b3.2⟩, c2.1 ▸ b4, (AlikeUpToTag.button c2 hpb) ▸ b8, ?_⟩
  intro o hm
  obtain ⟨o', hm', ha⟩ := alike_mem c1 o hm
  obtain ⟨n1, n2, n3, n4⟩ := b9 o' hm'
  refine ⟨fun hx => n1 (AlikeUpToTag.fails ha hx), fun hx => n2 (AlikeUpToTag.restarts ha hx),
    fun hx => n3 ?_, fun hx => n4 ?_⟩
  · obtain ⟨r1, r2, out, r3⟩ := hx
    exact ⟨(AlikeUpToTag.event_both ha).1 r1, ha.1.trans r2, out, (AlikeUpToTag.button ha r1).trans r3⟩
  · obtain ⟨r1, r2, out, r3⟩ := hx
    exact ⟨(AlikeUpToTag.event_both ha).1 r1, ha.1.trans r2, out, (AlikeUpToTag.button ha r1).trans r3⟩

/-- Events, and what the authentication function leaves in its array if it fails. -/
def watchMac (env : Env) (nanoS : Bool) : List Obs → Device → List (Event × Option Bytes) →
    List Obs × Device
  | tr, d, [] => (tr, d)
  | tr, d, (e, g) :: es =>
    watchMac env nanoS (observeMac env nanoS g (fun _ => true) d e :: tr)
      (d.stepF (garbled env g) (fun _ => true) nanoS e 0).1.1 es

def repliesMac (env : Env) (nanoS : Bool) : Device → List (Event × Option Bytes) → List Reply
  | _, [] => []
  | d, (e, g) :: es =>
    let r := (d.stepF (garbled env g) (fun _ => true) nanoS e 0).1
    r.2 :: repliesMac env nanoS r.1 es

theorem macRuns_watch {env : Env} {nanoS : Bool} {key : Bytes} : ∀ (es : List (Event × Option Bytes))
    (tr : List Obs) (d : Device), MacRuns env nanoS key tr d →
    es.all (fun e => match e.2 with | none => true | some b => b.length == 32) = true →
    (repliesMac env nanoS d es).all (fun r => r != .hang && r != .ub) = true →
    MacRuns env nanoS key (watchMac env nanoS tr d es).1 (watchMac env nanoS tr d es).2
  | [], _, _, h, _, _ => h
  | (e, g) :: es, tr, d, h, hg, hr => by
    simp only [repliesMac, List.all_cons, Bool.and_eq_true, bne_iff_ne, ne_eq] at hr hg
    refine macRuns_watch es _ _ (.step g ?_ _ e h hr.1.1 hr.1.2) hg.2 hr.2
    rintro b rfl
    simpa using hg.1

/-- The frame of `demoTx` with a tag of zeros, and the function failing on an array of zeros. -/
def forgedTx : List (Event × Option Bytes) :=
  demoOpen.map (·, none) ++
  (demoTx.take 1).map (·, none) ++
  [(cmd 0x21 0x12 7 (List.replicate 32 1 ++ [1, 0, 0, 0, 0, 0, 0, 0, 0, 100, 0] ++ List.replicate 16 0 ++
      [0, 0, 0, 0]), some (List.replicate 32 0))] ++
  (demoTx.drop 2).map (·, none) ++ [(cmd 0x21 0x20 7 [], none), (.left, none), (.left, none)]

/-- C87 is false: a frame whose tag is not the one of this device, and which the device never released,
is accepted when the authentication function fails and its array happens to hold the tag; the
transaction is then signed. -/
theorem C87_negation : ∃ (env : Env) (key : Bytes) (tr : List Obs) (d : Device), env.WF ∧
    MacRuns env false key tr d ∧
    (∃ o ∈ tr, ∃ p2 data rnd, o.event = .apdu 0xE0 0x21 0x12 p2 data rnd ∧ o.reply = .sw 0x9000 [] ∧
      ¬ TagOk env key data) ∧
    (∀ o ∈ tr, ∀ cla p1 p2 data rnd, o.event ≠ .apdu cla 0x20 p1 p2 data rnd) ∧
    Signs (observeMac env false none (fun _ => true) d .both) := by
  have h := macRuns_watch (env := toyEnv) (nanoS := false) (key := [1]) forgedTx [] _ .boot
    (by decide +kernel) (by decide +kernel)
  refine ⟨toyEnv, [1], _, _, toyEnv_wf, h, ?_, ?_, ?_⟩
  · refine ⟨((watchMac toyEnv false [] (.boot [1]) forgedTx).1.reverse)[3], ?_, 7,
      List.replicate 32 1 ++ [1, 0, 0, 0, 0, 0, 0, 0, 0, 100, 0] ++ List.replicate 16 0 ++ [0, 0, 0, 0],
      demoRnd, rfl, by decide +kernel, by unfold TagOk; decide +kernel⟩
    exact List.mem_reverse.1 (List.getElem_mem _)
  · have ht : (watchMac toyEnv false [] (.boot [1]) forgedTx).1.all
        (fun o => match o.event with | .apdu _ ins _ _ _ _ => ins != 0x20 | _ => true) = true := by
      decide +kernel
    intro o ho cla p1 p2 data rnd he
    have := List.all_eq_true.1 ht o ho
    rw [he] at this
    simp at this
  · have hr : ((observeMac toyEnv false none (fun _ => true)
        (watchMac toyEnv false [] (.boot [1]) forgedTx).2 .both).reply.casesOn none
          (fun c b => some (c, b.length)) none none : Option (UInt16 × Nat)) = some (0x9000, 56) := by
      decide +kernel
    unfold Signs
    cases hq : (observeMac toyEnv false none (fun _ => true)
      (watchMac toyEnv false [] (.boot [1]) forgedTx).2 .both).reply with
    | sw c b =>
      rw [hq] at hr
      simp only [Option.some.injEq, Prod.mk.injEq] at hr
      exact ⟨b, by rw [hr.1], hr.2⟩
    | _ => rw [hq] at hr; cases hr

/-- The function fails while a frame with the right tag is checked: 0xE018.  The whole session again,
with the same frame: it is accepted, and its tag is right; the transaction is signed. -/
example : ∃ tr d, MacRuns toyEnv false [1] tr d ∧
    (tr.map (fun o => o.reply)).contains (.sw Sw.badFrameSignature []) = true ∧
    d.asks = some .approveSigning ∧
    TagOk toyEnv [1] (demoFrame 1 1 0 100 [] [0, 0, 0, 0]) ∧
    ((observeMac toyEnv false none (fun _ => true) d .both).reply.casesOn none
      (fun c b => some (c, b.length)) none none : Option (UInt16 × Nat)) = some (0x9000, 56) := by
  have h := macRuns_watch (env := toyEnv) (nanoS := false) (key := [1])
    (demoOpen.map (·, none) ++ (demoTx.take 1).map (·, none) ++
      [(cmd 0x21 0x12 7 (demoFrame 1 1 0 100 [] [0, 0, 0, 0]), some (List.replicate 32 0))] ++
      (demoOpen ++ demoTx ++ [cmd 0x21 0x20 7 [], .left, .left]).map (·, none)) [] _ .boot
    (by decide +kernel) (by decide +kernel)
  exact ⟨_, _, h, by decide +kernel, by decide +kernel, by unfold TagOk; decide +kernel, by decide +kernel⟩

end Ergo
