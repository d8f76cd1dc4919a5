import Verif.Spec.Replies
import Verif.Props.Sign
import Verif.Props.Attest
import Mathlib.Tactic.Tauto
/-!
# C57: every command is answered exactly once, with data of the documented length
-/
namespace Ergo
open Spec

theorem asks_screen {env : Env} {nanoS : Bool} {key : Bytes} {tr : List Obs} {d : Device}
    (h : Runs env nanoS key tr d) : d.asks.isSome = d.screen.isSome := by
  cases hs : d.screen with
  | none => simp [Device.asks, hs]
  | some s =>
    have := h.inv.asks hs
    cases hcb : s.cb <;> rw [hcb] at this <;> simp only [AsksFor] at this
    case deriveAddress => rcases this with e | e <;> rw [e] <;> rfl
    all_goals rw [this]; rfl

/-- What a step does to the question on display. -/
theorem step_screen {env : Env} {nanoS : Bool} {key : Bytes} {tr : List Obs} {d : Device}
    (h : Runs env nanoS key tr d) (e : Event) (hh : (d.step env nanoS e).2 ≠ .hang)
    (hu : (d.step env nanoS e).2 ≠ .ub) :
    (∀ cla ins p1 p2 data rnd, e = .apdu cla ins p1 p2 data rnd →
      ((d.step env nanoS e).2 = .wait ∧ d.screen = none ∧ (d.step env nanoS e).1.screen.isSome ∨
       (∃ sw out, (d.step env nanoS e).2 = .sw sw out) ∧ (d.step env nanoS e).1.screen = d.screen)) ∧
    ((e = .left ∨ e = .right ∨ e = .both) →
      ((d.step env nanoS e).2 = .wait ∧ (d.step env nanoS e).1.screen.isSome = d.screen.isSome ∨
       (∃ sw out, (d.step env nanoS e).2 = .sw sw out) ∧ d.screen.isSome ∧
        (d.step env nanoS e).1.screen = none)) := by
  have hb : d.busy = false → d.screen = none := by
    intro hb
    have := h.inv.busy
    rw [hb] at this
    cases hs : d.screen with
    | none => rfl
    | some s => rw [hs] at this; simp at this
  obtain ⟨d', r, hst, hT⟩ := step_cases env nanoS d e
  rw [hst] at hh hu ⊢
  simp only at hh hu ⊢
  cases hT with
  | neutral h => exact ⟨fun _ _ _ _ _ _ _ => .inr ⟨⟨_, _, rfl⟩, rfl⟩, by simp⟩
  | version hl => exact ⟨fun _ _ _ _ _ _ _ => .inr ⟨⟨_, _, rfl⟩, rfl⟩, by simp⟩
  | name hl => exact ⟨fun _ _ _ _ _ _ _ => .inr ⟨⟨_, _, rfl⟩, rfl⟩, by simp⟩
  | abort hb hsw hi he => exact ⟨fun _ _ _ _ _ _ _ => .inr ⟨⟨_, _, rfl⟩, rfl⟩, by simp⟩
  | deriveFail hb => exact ⟨fun _ _ _ _ _ _ _ => .inr ⟨⟨_, _, rfl⟩, rfl⟩, by simp⟩
  | epkSend hb h1 hp hv hg hk => exact ⟨fun _ _ _ _ _ _ _ => .inr ⟨⟨_, _, rfl⟩, rfl⟩, by simp⟩
  | epkAsk hb' => exact ⟨fun _ _ _ _ _ _ _ => .inl ⟨rfl, hb hb', rfl⟩, by simp⟩
  | daSend hb => exact ⟨fun _ _ _ _ _ _ _ => .inr ⟨⟨_, _, rfl⟩, rfl⟩, by simp⟩
  | daAskSend hb' => exact ⟨fun _ _ _ _ _ _ _ => .inl ⟨rfl, hb hb', rfl⟩, by simp⟩
  | daAskShow hb' => exact ⟨fun _ _ _ _ _ _ _ => .inl ⟨rfl, hb hb', rfl⟩, by simp⟩
  | attestHang hb => exact absurd rfl hh
  | attestKnown hb => exact ⟨fun _ _ _ _ _ _ _ => .inr ⟨⟨_, _, rfl⟩, rfl⟩, by simp⟩
  | attestAsk hb' => exact ⟨fun _ _ _ _ _ _ _ => .inl ⟨rfl, hb hb', rfl⟩, by simp⟩
  | attestOk hb => exact ⟨fun _ _ _ _ _ _ _ => .inr ⟨⟨_, _, rfl⟩, rfl⟩, by simp⟩
  | attestUb hb => exact absurd rfl hu
  | signHang hb => exact absurd rfl hh
  | signInitUb hb => exact absurd rfl hu
  | signAsk hb' => exact ⟨fun _ _ _ _ _ _ _ => .inl ⟨rfl, hb hb', rfl⟩, by simp⟩
  | signOk hb => exact ⟨fun _ _ _ _ _ _ _ => .inr ⟨⟨_, _, rfl⟩, rfl⟩, by simp⟩
  | signShow hb' => exact ⟨fun _ _ _ _ _ _ _ => .inl ⟨rfl, hb hb', rfl⟩, by simp⟩
  | signUb hb => exact absurd rfl hu
  | signConfirm hb' => exact ⟨fun _ _ _ _ _ _ _ => .inl ⟨rfl, hb hb', rfl⟩, by simp⟩
  | idle he hs =>
    refine ⟨?_, fun _ => .inl ⟨rfl, rfl⟩⟩
    rintro _ _ _ _ _ _ rfl; simp at he
  | move he hs hm =>
    refine ⟨?_, fun _ => .inl ⟨rfl, by simp [hs]⟩⟩
    rintro _ _ _ _ _ _ rfl; simp at he
  | moveErr he hs hm hk =>
    refine ⟨?_, fun _ => .inr ⟨⟨_, _, rfl⟩, by simp [hs], rfl⟩⟩
    rintro _ _ _ _ _ _ rfl; simp at he
  | moveUb he hs hm hk => exact absurd rfl hu
  | click hs h1 h2 h3 => exact ⟨by simp, fun _ => .inl ⟨rfl, by simp [hs]⟩⟩
  | reject hs h1 => exact ⟨by simp, fun _ => .inr ⟨⟨_, _, rfl⟩, by simp [hs], rfl⟩⟩
  | okEpk hs => exact ⟨by simp, fun _ => .inr ⟨⟨_, _, rfl⟩, by simp [hs], rfl⟩⟩
  | okDa hs => exact ⟨by simp, fun _ => .inr ⟨⟨_, _, rfl⟩, by simp [hs], rfl⟩⟩
  | okAttest hs => exact ⟨by simp, fun _ => .inr ⟨⟨_, _, rfl⟩, by simp [hs], rfl⟩⟩
  | okSignInit hs => exact ⟨by simp, fun _ => .inr ⟨⟨_, _, rfl⟩, by simp [hs], rfl⟩⟩
  | okSignOutput hs => exact ⟨by simp, fun _ => .inr ⟨⟨_, _, rfl⟩, by simp [hs], rfl⟩⟩
  | okSignTx hs => exact ⟨by simp, fun _ => .inr ⟨⟨_, _, rfl⟩, by simp [hs], rfl⟩⟩
  | failSignTx hs => exact ⟨by simp, fun _ => .inr ⟨⟨_, _, rfl⟩, by simp [hs], rfl⟩⟩
  | actUb hs h1 h => exact absurd rfl hu

/-- C57: commands and replies: in every execution every command has been answered exactly once, except
for the one command about which the user is being asked right now. -/
theorem C57_once {env : Env} {nanoS : Bool} {key : Bytes} {tr : List Obs} {d : Device}
    (h : Runs env nanoS key tr d) :
    commandCount tr = replyCount tr + if d.asks.isSome then 1 else 0 := by
  rw [asks_screen h]
  induction h with
  | boot => rfl
  | @step tr d e h hh hu ih =>
    obtain ⟨h1, h2⟩ := step_screen h e hh hu
    have hc : ∀ o, commandCount (o :: tr) = commandCount tr +
        if (match o.event with | .apdu .. => true | _ => false) = true then 1 else 0 :=
      fun o => List.countP_cons
    have hr : ∀ o, replyCount (o :: tr) = replyCount tr +
        if (match o.reply with | .sw .. => true | _ => false) = true then 1 else 0 :=
      fun o => List.countP_cons
    rw [hc, hr, ih]
    cases e with
    | apdu cla ins p1 p2 data rnd =>
      rcases h1 _ _ _ _ _ _ rfl with ⟨e1, e2, e3⟩ | ⟨⟨sw, out, e1⟩, e2⟩
      · simp [Device.observe, e1, e2, e3]
      · simp [Device.observe, e1, e2]; omega
    | left =>
      rcases h2 (by simp) with ⟨e1, e2⟩ | ⟨⟨sw, out, e1⟩, e2, e3⟩
      · simp [Device.observe, e1, e2]
      · simp [Device.observe, e1, e2, e3]
    | right =>
      rcases h2 (by simp) with ⟨e1, e2⟩ | ⟨⟨sw, out, e1⟩, e2, e3⟩
      · simp [Device.observe, e1, e2]
      · simp [Device.observe, e1, e2, e3]
    | both =>
      rcases h2 (by simp) with ⟨e1, e2⟩ | ⟨⟨sw, out, e1⟩, e2, e3⟩
      · simp [Device.observe, e1, e2]
      · simp [Device.observe, e1, e2, e3]

/-- C57: a command is left without an answer only when it puts a question on the display, and only then
is a question put there; a button gives an answer exactly if it takes the question away. -/
theorem C57_when {env : Env} {nanoS : Bool} {key : Bytes} {tr : List Obs} {d : Device}
    (h : Runs env nanoS key tr d) (e : Event) (hh : (d.step env nanoS e).2 ≠ .hang)
    (hu : (d.step env nanoS e).2 ≠ .ub) :
    (∀ cla ins p1 p2 data rnd, e = .apdu cla ins p1 p2 data rnd →
      ((d.step env nanoS e).2 = .wait ↔ d.asks = none ∧ (d.step env nanoS e).1.asks.isSome)) ∧
    ((e = .left ∨ e = .right ∨ e = .both) →
      ((d.step env nanoS e).2 = .wait ↔ (d.step env nanoS e).1.asks.isSome = d.asks.isSome)) := by
  have ha := asks_screen h
  have ha' := asks_screen (Runs.step e h hh hu)
  have hn : d.asks = none ↔ d.screen = none := by
    rw [← Option.not_isSome_iff_eq_none, ha, Option.not_isSome_iff_eq_none]
  obtain ⟨h1, h2⟩ := step_screen h e hh hu
  rw [ha, ha', hn]
  constructor
  · intro cla ins p1 p2 data rnd he
    rcases h1 _ _ _ _ _ _ he with ⟨e1, e2, e3⟩ | ⟨⟨sw, out, e1⟩, e2⟩
    · exact iff_of_true e1 ⟨e2, e3⟩
    · refine iff_of_false (by rw [e1]; simp) ?_
      rintro ⟨g1, g2⟩
      rw [e2, g1] at g2
      simp at g2
  · intro he
    rcases h2 he with ⟨e1, e2⟩ | ⟨⟨sw, out, e1⟩, e2, e3⟩
    · exact iff_of_true e1 e2
    · refine iff_of_false (by rw [e1]; simp) ?_
      rw [e2, e3]; simp

/-- Two commands while the user is being asked: the second is answered at once, the first by the
user's decision. -/
example : (seen [cmd 0x20 0x01 1 (List.replicate 32 1 ++ [0, 2, 0, 0, 0, 0, 0, 0, 1, 9, 0, 0, 0, 36, 0,
      0, 0, 1, 0, 0, 0, 0, 0]), cmd 0x01 0 0 [], .left, .left, .both]).map (·.reply) =
    [.sw 0x9000 [7], .wait, .wait, .sw 0x9000 toyEnv.appVersion, .wait] := by decide +kernel

theorem show_err_ne {env : Env} {nanoS : Bool} {d : Device} {cb : Callback} {k : Nat} {sw : UInt16}
    (h : d.show env nanoS cb k = .err sw) : sw ≠ 0x9000 := by
  have pa : ∀ {o network}, printAddress env o network = .err sw → sw ≠ 0x9000 := by
    intro o network h
    unfold printAddress at h
    repeat' split at h
    all_goals first | (simp only [ShowRes.err.injEq] at h; subst h; decide) | simp at h
  unfold Device.show at h
  repeat' split at h
  · unfold showOutput at h
    split at h
    · exact pa h
    · simp at h
    · repeat' split at h
      all_goals first | (simp only [ShowRes.err.injEq] at h; subst h; decide) | simp at h
  · simp at h
  · simp at h
  · unfold showTx at h
    repeat' split at h
    all_goals first
      | (simp only [ShowRes.err.injEq] at h; subst h; decide)
      | (simp at h; done)
      | (dsimp only at h; repeat' split at h) <;> simp at h
  · simp at h
  · simp at h

theorem raw_len {env : Env} (hwf : env.WF) {path : List UInt32} {pub chain raw : Bytes} {n : UInt8}
    (hg : env.genPublic path = some (pub, chain)) (ha : addressFromPubkey env n pub = some raw) :
    raw.length = 38 := by
  obtain ⟨h1, _⟩ := genPublic_len hwf hg
  unfold addressFromPubkey at ha
  split at ha
  · simp only [Option.some.injEq] at ha
    subst ha
    simp [withChecksum, compress_length h1, hwf.blake_len]
  · simp at ha

/-- C57: an error is answered without data; a positive answer has data of exactly the documented
length, so every answer fits the APDU buffer. -/
theorem C57_length {env : Env} (hwf : env.WF) {nanoS : Bool} {key : Bytes} {tr : List Obs} {d : Device}
    (h : Runs env nanoS key tr d) (e : Event) {code : UInt16} {out : Bytes}
    (hr : (d.step env nanoS e).2 = .sw code out) :
    (code ≠ 0x9000 → out = []) ∧
    (code = 0x9000 → ∃ ins p1, answered tr e = some (ins, p1) ∧ DocLength env ins p1 out.length) := by
  have hI := h.inv
  obtain ⟨d', r, hst, hT⟩ := step_cases env nanoS d e
  have hr' := hr
  rw [hst] at hr
  simp only at hr
  have pend : ∀ {s}, d.screen = some s → ∃ a f0, (know tr).pending = some a ∧
      Asking env (know tr) d a f0 s.cb := by
    intro s hs
    obtain ⟨a, f0, p1, _, p3⟩ := hI.asking s hs
    exact ⟨a, f0, p1, p3⟩
  cases hT with
  | neutral h =>
    simp only [status, Reply.sw.injEq] at hr
    obtain ⟨rfl, rfl⟩ := hr
    refine ⟨fun _ => rfl, fun hc => ?_⟩
    subst hc
    rcases h with ⟨h, _⟩ | h | ⟨h, _⟩ | ⟨h, _⟩ | ⟨h, _⟩ <;> exact absurd h (by decide)
  | version hl =>
    simp only [Reply.sw.injEq] at hr
    obtain ⟨rfl, rfl⟩ := hr
    exact ⟨fun hc => absurd rfl hc, fun _ => ⟨_, _, rfl, .inl ⟨rfl, rfl⟩⟩⟩
  | name hl =>
    simp only [Reply.sw.injEq] at hr
    obtain ⟨rfl, rfl⟩ := hr
    exact ⟨fun hc => absurd rfl hc, fun _ => ⟨_, _, rfl, .inr (.inl ⟨rfl, rfl⟩)⟩⟩
  | abort hb hsw hi he =>
    simp only [status, Reply.sw.injEq] at hr
    obtain ⟨rfl, rfl⟩ := hr
    exact ⟨fun _ => rfl, fun hc => absurd hc hsw⟩
  | deriveFail hb =>
    simp only [status, Reply.sw.injEq] at hr
    obtain ⟨rfl, rfl⟩ := hr
    exact ⟨fun _ => rfl, fun hc => absurd hc (by decide)⟩
  | epkSend hb h1 hp hv hg hk =>
    simp only [Reply.sw.injEq] at hr
    obtain ⟨rfl, rfl⟩ := hr
    obtain ⟨g1, g2⟩ := genPublic_len hwf hg
    exact ⟨fun hc => absurd rfl hc, fun _ => ⟨_, _, rfl, .inr (.inr (.inl ⟨rfl, by
      simp [epkResponse, compress_length g1, g2]⟩))⟩⟩
  | epkAsk => simp at hr
  | daSend hb h1 h2 hd hp hv hg ha hk =>
    simp only [Reply.sw.injEq] at hr
    obtain ⟨rfl, rfl⟩ := hr
    exact ⟨fun hc => absurd rfl hc, fun _ => ⟨_, _, rfl, .inr (.inr (.inr (.inl ⟨rfl, .inl ⟨h1,
      raw_len hwf hg ha⟩⟩)))⟩⟩
  | daAskSend => simp at hr
  | daAskShow => simp at hr
  | attestHang hb => simp at hr
  | attestKnown hb =>
    simp only [Reply.sw.injEq] at hr
    obtain ⟨rfl, rfl⟩ := hr
    exact ⟨fun hc => absurd rfl hc, fun _ => ⟨_, _, rfl, .inr (.inr (.inr (.inr (.inl ⟨rfl, .inl ⟨rfl,
      rfl⟩⟩))))⟩⟩
  | attestAsk => simp at hr
  | @attestOk sub p2 data rnd x x' out' hb hl hsub hc hx hs ho =>
    simp only [Reply.sw.injEq] at hr
    obtain ⟨rfl, rfl⟩ := hr
    refine ⟨fun hc => absurd rfl hc, fun _ => ⟨_, _, rfl, .inr (.inr (.inr (.inr (.inl ⟨rfl, .inr ?_⟩))))⟩⟩
    by_cases h5 : sub = 5
    · subst h5
      right
      refine ⟨rfl, ?_⟩
      obtain ⟨S, i, hS, hid, hcomp, hd, hi, hout⟩ := C12_frame h hr'
      have hsc : d.screen = none := by
        have := hI.busy
        rw [hb] at this
        cases hsc : d.screen with
        | none => rfl
        | some s => rw [hsc] at this; simp at this
      obtain ⟨_, _, e3⟩ := (C10_session hwf h hsc hc hS hcomp i rnd).1 hi
      refine ⟨_, ?_, by rw [hout]; exact e3⟩
      exact frameTokens_length _ _
    · left
      have h3 : sub = 2 ∨ sub = 3 ∨ sub = 4 := by tauto
      refine ⟨h3, ?_⟩
      obtain ⟨S, _, hout⟩ := C12_announced h h3 hr'
      rw [hout]
      split <;> simp
  | attestUb hb => simp at hr
  | signHang hb => simp at hr
  | signInitUb hb => simp at hr
  | signAsk => simp at hr
  | signOk hb hl hsub =>
    simp only [status, Reply.sw.injEq] at hr
    obtain ⟨rfl, rfl⟩ := hr
    exact ⟨fun hc => absurd rfl hc, fun _ => ⟨_, _, rfl, .inr (.inr (.inr (.inr (.inr ⟨rfl, .inr (.inl
      ⟨hsub.1, hsub.2, rfl⟩)⟩))))⟩⟩
  | signShow => simp at hr
  | signUb => simp at hr
  | signConfirm => simp at hr
  | idle => simp at hr
  | move => simp at hr
  | moveErr he hs hm hk =>
    simp only [status, Reply.sw.injEq] at hr
    obtain ⟨rfl, rfl⟩ := hr
    exact ⟨fun _ => rfl, fun hc => absurd hc (show_err_ne hk)⟩
  | moveUb => simp at hr
  | click => simp at hr
  | reject hs h1 =>
    simp only [status, Reply.sw.injEq] at hr
    obtain ⟨rfl, rfl⟩ := hr
    exact ⟨fun _ => rfl, fun hc => absurd hc (by decide)⟩
  | okEpk hs h1 hcb hx =>
    simp only [Reply.sw.injEq] at hr
    obtain ⟨rfl, rfl⟩ := hr
    obtain ⟨a, f0, q1, q2⟩ := pend hs
    rw [hcb] at q2
    obtain ⟨i1, _, _, path, token, pub, chain, t, _, _, hg, _, _, hx'⟩ := q2
    rw [hx] at hx'
    cases hx'
    obtain ⟨g1, g2⟩ := genPublic_len hwf hg
    exact ⟨fun hc => absurd rfl hc, fun _ => ⟨a.ins, a.p1, by simp [answered, q1], .inr (.inr (.inl ⟨i1, by
      simp [epkResponse, compress_length g1, g2]⟩))⟩⟩
  | okDa hs h1 hcb hx =>
    simp only [Reply.sw.injEq] at hr
    obtain ⟨rfl, rfl⟩ := hr
    obtain ⟨a, f0, q1, q2⟩ := pend hs
    rw [hcb] at q2
    obtain ⟨i1, _, _, network, rest, path, token, pub, chain, raw, t, _, _, _, hg, ha, _, hf⟩ := q2
    refine ⟨fun hc => absurd rfl hc, fun _ => ⟨a.ins, a.p1, by simp [answered, q1], .inr (.inr (.inr (.inl ⟨i1,
      ?_⟩)))⟩⟩
    rcases hf with ⟨j1, _, hx'⟩ | ⟨j1, s, _, _, _, hx'⟩
    · rw [hx] at hx'
      cases hx'
      exact .inl ⟨j1, raw_len hwf hg ha⟩
    · rw [hx] at hx'
      cases hx'
      exact .inr ⟨j1, rfl⟩
  | okAttest hs h1 hcb hx =>
    simp only [Reply.sw.injEq] at hr
    obtain ⟨rfl, rfl⟩ := hr
    obtain ⟨a, f0, q1, q2⟩ := pend hs
    rw [hcb] at q2
    exact ⟨fun hc => absurd rfl hc, fun _ => ⟨a.ins, a.p1, by simp [answered, q1], .inr (.inr (.inr (.inr (.inl
      ⟨q2.1, .inl ⟨q2.2.1, rfl⟩⟩))))⟩⟩
  | okSignInit hs h1 hcb hx hu =>
    simp only [Reply.sw.injEq] at hr
    obtain ⟨rfl, rfl⟩ := hr
    obtain ⟨a, f0, q1, q2⟩ := pend hs
    rw [hcb] at q2
    exact ⟨fun hc => absurd rfl hc, fun _ => ⟨a.ins, a.p1, by simp [answered, q1], .inr (.inr (.inr (.inr (.inr
      ⟨q2.1, .inl ⟨q2.2.1, rfl⟩⟩))))⟩⟩
  | okSignOutput hs h1 hcb hx hu hout hl =>
    simp only [status, Reply.sw.injEq] at hr
    obtain ⟨rfl, rfl⟩ := hr
    obtain ⟨a, f0, q1, q2⟩ := pend hs
    rw [hcb] at q2
    refine ⟨fun hc => absurd rfl hc, fun _ => ⟨a.ins, a.p1, by simp [answered, q1], .inr (.inr (.inr (.inr (.inr
      ⟨q2.1, .inr (.inl ⟨?_, q2.2.2.1, rfl⟩)⟩))))⟩⟩
    have := q2.2.1
    rw [UInt8.le_iff_toNat_le] at this ⊢
    exact le_trans (by decide) this
  | @okSignTx s x sig hs h1 hcb hx hsig =>
    simp only [Reply.sw.injEq] at hr
    obtain ⟨rfl, rfl⟩ := hr
    obtain ⟨a, f0, q1, q2⟩ := pend hs
    rw [hcb] at q2
    have hl : sig.length = 56 := by
      unfold P2pk.sendResponse at hsig
      repeat' split at hsig
      all_goals first | (simp only [Except.ok.injEq] at hsig; subst hsig) | simp at hsig
      rename_i hf
      exact (schnorrFinish_eq hf hwf.blake_len).2.1
    exact ⟨fun hc => absurd rfl hc, fun _ => ⟨a.ins, a.p1, by simp [answered, q1], .inr (.inr (.inr (.inr (.inr
      ⟨q2.1, .inr (.inr ⟨q2.2.1, hl⟩)⟩))))⟩⟩
  | failSignTx hs h1 hcb hx hsig =>
    simp only [status, Reply.sw.injEq] at hr
    obtain ⟨rfl, rfl⟩ := hr
    exact ⟨fun _ => rfl, fun hc => absurd hc (sendResponse_err hsig).1⟩
  | actUb => simp at hr

/-- C57: so every answer fits the APDU buffer, if name and version do. -/
theorem C57_fits {env : Env} (hwf : env.WF) (hn : env.appName.length ≤ 255)
    (hv : env.appVersion.length ≤ 255) {nanoS : Bool} {key : Bytes} {tr : List Obs} {d : Device}
    (h : Runs env nanoS key tr d) (e : Event) {code : UInt16} {out : Bytes}
    (hr : (d.step env nanoS e).2 = .sw code out) : out.length ≤ 255 := by
  obtain ⟨h1, h2⟩ := C57_length hwf h e hr
  by_cases hc : code = 0x9000
  · obtain ⟨ins, p1, _, hd⟩ := h2 hc
    rcases hd with ⟨_, e⟩ | ⟨_, e⟩ | ⟨_, e⟩ | ⟨_, ⟨_, e⟩ | ⟨_, e⟩⟩ | ⟨_, ⟨_, e⟩ | ⟨_, e⟩ | ⟨_, k, hk, e⟩⟩ |
      ⟨_, ⟨_, e⟩ | ⟨_, _, e⟩ | ⟨_, e⟩⟩ <;> omega
  · rw [h1 hc]; simp

example : (((after (demoOpen ++ demoTx ++ [cmd 0x21 0x20 7 [], .left, .left])).step toyEnv false .both).2
      matches .sw 0x9000 _) = true ∧
    answered (seen (demoOpen ++ demoTx ++ [cmd 0x21 0x20 7 [], .left, .left])) .both = some (0x21, 0x20) := by
  decide +kernel

end Ergo
