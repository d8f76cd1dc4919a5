import Verif.Props.Device
import Verif.Spec.Consent
import Verif.Proof.Path
import Verif.Proof.Base58
/-!
# C16, C03, C06, C08: exports and signatures only with consent
-/
namespace Ergo
open Spec

theorem parsePathToken_path {d : Bytes} {b : Bool} {path : List UInt32} {token : UInt32}
    (h : parsePathToken d b = .ok (path, token)) : pathOf d = path := by
  unfold parsePathToken at h
  split at h
  · simp at h
  rename_i len d1 h1
  split at h
  · simp at h
  rename_i path' d2 h2
  split at h
  · simp at h
  rename_i tok d3 h3
  split at h
  · simp at h
  simp only [Except.ok.injEq, Prod.mk.injEq] at h
  obtain ⟨rfl, rfl⟩ := h
  rw [bufU8_some h1]
  exact pathOf_read h2

theorem parseSignInit_some {d : Bytes} {b : Bool} {n : UInt8} {path : List UInt32} {token : UInt32}
    (h : parseSignInit d b = .ok (n, path, token)) :
    d.headD 0 = n ∧ pathOf (d.drop 1) = path ∧ path.length ≤ 10 := by
  unfold parseSignInit at h
  split at h
  · simp at h
  rename_i len d1 h1
  split at h
  · simp at h
  rename_i path' d2 h2
  split at h
  · simp at h
  rename_i tok d3 h3
  split at h
  · simp at h
  simp only [Except.ok.injEq, Prod.mk.injEq] at h
  obtain ⟨rfl, rfl, rfl⟩ := h
  rw [bufU8_some h1]
  exact ⟨rfl, readPath_some h2⟩

theorem address_spec {env : Env} {n : UInt8} {pub raw : Bytes}
    (h : addressFromPubkey env n pub = some raw) : raw = p2pkAddress env n pub := by
  unfold addressFromPubkey at h
  split at h
  · simp only [Option.some.injEq] at h; rw [← h]; rfl
  · simp at h

theorem exports_epk {env : Env} {a : Request} {path : List UInt32} {token : UInt32}
    {pub chain : Bytes} (hi : a.ins = 0x10)
    (hp : parsePathToken a.data (a.p1 = 2) = .ok (path, token))
    (hg : env.genPublic path = some (pub, chain)) :
    a.exports env = some (epkResponse pub chain) := by
  unfold Request.exports
  rw [if_pos hi, parsePathToken_path hp, hg]
  rfl

theorem exports_da {env : Env} {a : Request} {n : UInt8} {rest raw : Bytes} {path : List UInt32}
    {token : UInt32} {pub chain : Bytes} {b : Bool} (hi : a.ins = 0x11) (hd : a.data = n :: rest)
    (hp : parsePathToken rest b = .ok (path, token)) (hg : env.genPublic path = some (pub, chain))
    (ha : addressFromPubkey env n pub = some raw) : a.exports env = some raw := by
  unfold Request.exports
  rw [if_neg (by rw [hi]; decide), hd, List.drop_one, List.tail_cons, parsePathToken_path hp, hg,
    address_spec ha]
  rfl

theorem checkFinished_small {env : Env} {x y : AttestCtx} {out : Bytes}
    (h : x.checkFinished env = .ok y out) : out.length ≤ 1 := by
  unfold AttestCtx.checkFinished at h
  split at h
  · simp only [AttestRes.ok.injEq] at h; obtain ⟨rfl, rfl⟩ := h; simp
  · split at h
    · simp at h
    · simp only [AttestRes.ok.injEq] at h; obtain ⟨rfl, rfl⟩ := h; simp

theorem part_small {env : Env} {x y : AttestCtx} {out : Bytes}
    {r : BoxSt (List (Bytes × UInt64)) × Res BoxErr}
    (h : x.part env r = .ok y out) : out.length ≤ 1 := by
  unfold AttestCtx.part at h
  split at h
  · simp at h
  split at h
  · exact checkFinished_small h
  · simp only [AttestRes.ok.injEq] at h; obtain ⟨rfl, rfl⟩ := h; simp
  · simp at h
  · simp at h

theorem attestOp_small {env : Env} {key : Bytes} {x y : AttestCtx} {sub : UInt8} {data out : Bytes}
    (h : attestOp env key x sub data = .ok y out)
    (hs : sub = 2 ∨ sub = 3 ∨ sub = 4 ∨ sub = 5) : out.length ≤ 1 ∨ sub = 5 := by
  rcases hs with rfl | rfl | rfl | rfl
  · exact .inl (part_small h)
  · exact .inl (part_small h)
  · exact .inl (part_small h)
  · exact .inr rfl

theorem approves_of {d : Device} {s : Screen} (hs : d.screen = some s)
    (hp : s.flow.here = .approve ∨ ∃ p, s.flow.here = .pathApprove p) : Approves d .both := by
  refine ⟨rfl, ?_⟩
  unfold Device.here
  rw [hs]
  rcases hp with hp | ⟨p, hp⟩
  · exact .inl (by rw [Option.map_some, hp])
  · exact .inr ⟨p, by rw [Option.map_some, hp]⟩

theorem asks_of {env : Env} {key : Bytes} {g : Ghost} {d : Device} {s : Screen} {cb : Callback}
    (hI : Inv env key g d) (hs : d.screen = some s) (hcb : s.cb = cb) : AsksFor cb d.asks := by
  rw [← hcb]; exact hI.asks hs

/-- C16: a complete list of the answers that carry more than one byte.  They are: version, name,
attested frames, the signature approved on the final screen, and exports; an export answers either
the user's approval of that very request, or a request with the application token (not 0) of the
last approval. -/
theorem C16_outputs {env : Env} {nanoS : Bool} {key : Bytes} {tr : List Obs} {d : Device}
    (h : Runs env nanoS key tr d) (e : Event) (sw : UInt16) (out : Bytes)
    (hr : (d.step env nanoS e).2 = .sw sw out) (hl : 2 ≤ out.length) :
    sw = 0x9000 ∧
    ((∃ p1 p2 data rnd, e = .apdu 0xE0 0x01 p1 p2 data rnd ∧ out = env.appVersion) ∨
     (∃ p1 p2 data rnd, e = .apdu 0xE0 0x02 p1 p2 data rnd ∧ out = env.appName) ∨
     (∃ p2 data rnd, e = .apdu 0xE0 0x20 0x05 p2 data rnd) ∨
     (Approves d e ∧ d.asks = some .approveSigning) ∨
     (∃ a : Request, a.IsExport ∧ a.exports env = some out ∧
        (Approves d e ∧ d.asks = some a.question ∧ (know tr).pending = some a ∨
         e = a.event ∧ a.token ≠ 0 ∧ a.token = (know tr).app))) := by
  have hI := h.inv
  obtain ⟨d', r, hst, hT⟩ := step_cases env nanoS d e
  rw [hst] at hr
  cases hT with
  | neutral hn => simp only [status, Reply.sw.injEq] at hr; obtain ⟨_, rfl⟩ := hr; simp at hl
  | version hl => 
    simp only [Reply.sw.injEq] at hr; obtain ⟨rfl, rfl⟩ := hr
    exact ⟨rfl, .inl ⟨_, _, _, _, rfl, rfl⟩⟩
  | name hl => 
    simp only [Reply.sw.injEq] at hr; obtain ⟨rfl, rfl⟩ := hr
    exact ⟨rfl, .inr (.inl ⟨_, _, _, _, rfl, rfl⟩)⟩
  | @epkSend p1 p2 data rnd path token pub chain hb h1 hp hv hg hk =>
    simp only [Reply.sw.injEq] at hr; obtain ⟨rfl, rfl⟩ := hr
    refine ⟨rfl, .inr (.inr (.inr (.inr ⟨⟨0x10, p1, p2, data, rnd⟩, .inl rfl, ?_, .inr ⟨rfl, ?_⟩⟩)))⟩
    · exact exports_epk rfl hp hg
    · rw [token_of_epk rfl hp, ← hI.app]
      obtain ⟨k1, k2, k3⟩ := isKnown_iff.1 hk
      exact ⟨k1, k3.symm⟩
  | @daSend p1 p2 data rnd network rest path token pub chain raw hb h1 h2 hd hp hv hg ha hk =>
    simp only [Reply.sw.injEq] at hr; obtain ⟨rfl, rfl⟩ := hr
    refine ⟨rfl, .inr (.inr (.inr (.inr ⟨⟨0x11, p1, p2, data, rnd⟩, .inr ⟨rfl, h1⟩, ?_, .inr ⟨rfl, ?_⟩⟩)))⟩
    · exact exports_da rfl hd hp hg ha
    · rw [token_of_da rfl hd hp, ← hI.app]
      obtain ⟨k1, k2, k3⟩ := isKnown_iff.1 hk
      exact ⟨k1, k3.symm⟩
  | attestKnown => simp only [Reply.sw.injEq] at hr; obtain ⟨_, rfl⟩ := hr; simp at hl
  | attestOk hb hl' hsub hc hx hs ho =>
    simp only [Reply.sw.injEq] at hr; obtain ⟨rfl, rfl⟩ := hr
    rcases attestOp_small ho hsub with h1 | rfl
    · omega
    · exact ⟨rfl, .inr (.inr (.inl ⟨_, _, _, rfl⟩))⟩
  | okEpk hs h1 hcb hx =>
    simp only [Reply.sw.injEq] at hr; obtain ⟨rfl, rfl⟩ := hr
    have hq := asks_of hI hs hcb
    obtain ⟨a, f0, p1, p2, p3⟩ := hI.asking _ hs
    rw [hcb] at p3
    obtain ⟨q1, _, _, path, token, pub, chain, t, q2, _, q5, _, q3, q4⟩ := p3
    rw [hx] at q4
    simp only [Ctx.extPub.injEq] at q4
    subst q4
    refine ⟨rfl, .inr (.inr (.inr (.inr ⟨a, .inl q1, exports_epk q1 q2 q5, .inl ⟨approves_of hs h1, ?_, p1⟩⟩)))⟩
    unfold Request.question
    rw [if_pos q1]
    exact hq
  | @okDa s x hs h1 hcb hx =>
    simp only [Reply.sw.injEq] at hr; obtain ⟨rfl, rfl⟩ := hr
    obtain ⟨a, f0, p1, p2, p3⟩ := hI.asking _ hs
    rw [hcb] at p3
    obtain ⟨q1, _, _, network, rest, path, token, pub, chain, raw, t, q0, q2, _, q5, q6, _, q3⟩ := p3
    rcases q3 with ⟨q7, q3, q4⟩ | ⟨_, s', _, _, q3, q4⟩
    · rw [hx] at q4
      simp only [Ctx.derive.injEq] at q4
      subst q4
      refine ⟨rfl, .inr (.inr (.inr (.inr ⟨a, .inr ⟨q1, q7⟩, exports_da q1 q0 q2 q5 q6,
        .inl ⟨approves_of hs h1, ?_, p1⟩⟩)))⟩
      rw [asks_eq hs p2, q3]
      unfold Request.question
      rw [if_neg (by rw [q1]; decide)]
      rfl
    · rw [hx] at q4
      simp only [Ctx.derive.injEq] at q4
      subst q4
      simp at hl
  | okAttest => simp only [Reply.sw.injEq] at hr; obtain ⟨_, rfl⟩ := hr; simp at hl
  | okSignInit => simp only [Reply.sw.injEq] at hr; obtain ⟨_, rfl⟩ := hr; simp at hl
  | okSignTx hs h1 hcb hx hsig =>
    simp only [Reply.sw.injEq] at hr; obtain ⟨rfl, rfl⟩ := hr
    exact ⟨rfl, .inr (.inr (.inr (.inl ⟨approves_of hs h1, asks_of hI hs hcb⟩)))⟩
  | _ =>
    first
    | (simp only [status, Reply.sw.injEq] at hr; obtain ⟨_, rfl⟩ := hr; simp at hl)
    | (simp at hr)

/-- An export with approval; then another one with the token of that approval, at once. -/
example : (after [cmd 0x10 2 0 (demoPath3 ++ [0, 0, 0, 9]), .left, .left]).asks = some .extPubKeyExport ∧
    ((after [cmd 0x10 2 0 (demoPath3 ++ [0, 0, 0, 9]), .left, .left]).step toyEnv false .both).2 =
      .sw 0x9000 (2 :: List.replicate 31 0 ++ [4] ++ List.replicate 32 1) ∧
    ((after [cmd 0x10 2 0 (demoPath3 ++ [0, 0, 0, 9]), .left, .left, .both]).step toyEnv false
      (cmd 0x11 1 2 (0 :: demoPath 1 ++ [0, 0, 0, 9]))).2 =
      .sw 0x9000 (1 :: 2 :: List.replicate 31 0 ++ [6, 7, 7, 7, 7]) ∧
    ((after [cmd 0x10 2 0 (demoPath3 ++ [0, 0, 0, 9]), .left, .left, .both]).step toyEnv false
      (cmd 0x11 1 2 (0 :: demoPath 1 ++ [0, 0, 0, 8]))).2 = .wait := by
  decide +kernel

/-! ## What is shown -/

/-- The pages of the flow on display that do not depend on the transaction. -/
def Device.pages (d : Device) : List Page :=
  match d.screen with
  | none => []
  | some s => s.flow.steps.filterMap FlowStep.page?

theorem pages_eq {d : Device} {s : Screen} {f0 : Flow} (hs : d.screen = some s)
    (hf : FlowOk f0 s.flow) : d.pages = f0.steps.filterMap FlowStep.page? := by
  unfold Device.pages
  rw [hs]
  show s.flow.steps.filterMap _ = _
  rw [hf.steps]

theorem path_text {p : List UInt32} {t : List Char} (h : pathFormat p bip32StrLen = some t) :
    t = (pathText p).take 59 := by
  unfold pathFormat at h
  split at h
  · simp at h
  · simpa [bip32StrLen] using (pathFormatLoop_some p [] t (by decide) h).1

theorem token_pages (token : UInt32) :
    List.filterMap FlowStep.page? (if token ≠ 0 then [appIdPage token] else []) = tokenPages token := by
  unfold tokenPages appIdPage
  by_cases h : token = 0 <;> simp [h, FlowStep.page?]

/-- C16, C08: what each request shows: the whole content of its approval flow, except for the
screens of transactions. -/
theorem C16_screen {env : Env} {nanoS : Bool} {key : Bytes} {tr : List Obs} {d : Device}
    (h : Runs env nanoS key tr d) :
    (d.asks = some .extPubKeyExport → ∃ a, (know tr).pending = some a ∧ a.ins = 0x10 ∧
      IsAccountPath (pathOf a.data) ∧
      d.pages = [⟨.extPubKeyExport, .nothing⟩, pathPage .path (pathOf a.data)] ++ tokenPages a.token) ∧
    (d.asks = some .confirmSendAddress → ∃ a, (know tr).pending = some a ∧ a.ins = 0x11 ∧ a.p1 = 1 ∧
      IsAddressPath (pathOf (a.data.drop 1)) ∧
      d.pages = [⟨.confirmSendAddress, .nothing⟩, pathPage .path (pathOf (a.data.drop 1))] ++
        tokenPages a.token) ∧
    (d.asks = some .confirmAddress → ∃ a raw, (know tr).pending = some a ∧ a.ins = 0x11 ∧ a.p1 = 2 ∧
      IsAddressPath (pathOf (a.data.drop 1)) ∧ a.exports env = some raw ∧
      d.pages = [⟨.confirmAddress, .nothing⟩, pathPage .path (pathOf (a.data.drop 1)),
        ⟨.address, .text (base58 raw)⟩] ++ tokenPages a.token) ∧
    (d.asks = some .confirmAttest → ∃ a, (know tr).pending = some a ∧ a.ins = 0x20 ∧ a.p1 = 0x01 ∧
      d.pages = ⟨.confirmAttest, .nothing⟩ :: tokenPages a.token) ∧
    (d.asks = some .p2pkSigning → ∃ a, (know tr).pending = some a ∧ a.ins = 0x21 ∧ a.p1 = 0x01 ∧
      IsAddressPath (pathOf (a.data.drop 1)) ∧
      d.pages = pathPage .p2pkSigning (pathOf (a.data.drop 1)) ::
        (if a.token ≠ 0 ∧ a.token = (know tr).app then []
         else [⟨.application, .appToken a.token⟩])) := by
  have hI := h.inv
  have hA : ∀ t, d.asks = some t → ∃ s, d.screen = some s := by
    intro t ht
    cases hs : d.screen with
    | none => simp [Device.asks, hs] at ht
    | some s => exact ⟨s, rfl⟩
  refine ⟨fun ht => ?_, fun ht => ?_, fun ht => ?_, fun ht => ?_, fun ht => ?_⟩
  all_goals
    obtain ⟨s, hs⟩ := hA _ ht
    have hq := hI.asks hs
    obtain ⟨a, f0, p1, p2, p3⟩ := hI.asking _ hs
    rw [ht] at hq
    cases hcb : s.cb <;> rw [hcb] at hq p3 <;> simp [AsksFor] at hq
  · obtain ⟨q1, _, _, path, token, pub, chain, t, q2, q6, q5, q7, q3, q4⟩ := p3
    refine ⟨a, p1, q1, ?_, ?_⟩
    · rw [parsePathToken_path q2]; exact (validate_account _).1 q6
    · rw [pages_eq hs p2, q3, parsePathToken_path q2, token_of_epk q1 q2]
      simp only [Flow.static, epkSteps, List.filterMap_append, token_pages, path_text q7]
      simp [FlowStep.page?, pathPage]
  · obtain ⟨q1, _, _, network, rest, path, token, pub, chain, raw, t, q0, q2, q8, q5, q6, q7, q3⟩ := p3
    rcases q3 with ⟨q9, q3, q4⟩ | ⟨_, s', _, _, q3, q4⟩
    · refine ⟨a, p1, q1, q9, ?_⟩
      rw [token_of_da q1 q0 q2, pages_eq hs p2, q3, q0, List.drop_one, List.tail_cons,
        parsePathToken_path q2]
      refine ⟨(validate_address _).1 q8, ?_⟩
      simp only [Flow.static, daSendSteps, List.filterMap_append, token_pages, path_text q7]
      simp [FlowStep.page?, pathPage]
    · rw [asks_eq hs p2, q3] at ht; exact absurd ht (by simp [Flow.title, Flow.static, daShowSteps, FlowStep.page?])
  · obtain ⟨q1, _, _, network, rest, path, token, pub, chain, raw, t, q0, q2, q8, q5, q6, q7, q3⟩ := p3
    rcases q3 with ⟨_, q3, q4⟩ | ⟨q9, s', q10, _, q3, q4⟩
    · rw [asks_eq hs p2, q3] at ht; exact absurd ht (by simp [Flow.title, Flow.static, daSendSteps, FlowStep.page?])
    · refine ⟨a, raw, p1, q1, q9, ?_⟩
      rw [exports_da q1 q0 q2 q5 q6, token_of_da q1 q0 q2, pages_eq hs p2, q3, q0, List.drop_one,
        List.tail_cons, parsePathToken_path q2]
      refine ⟨(validate_address _).1 q8, rfl, ?_⟩
      rw [base58Encode_eq] at q10
      split at q10
      · simp only [Option.some.injEq] at q10
        simp only [Flow.static, daShowSteps, List.filterMap_append, token_pages, path_text q7, ← q10]
        simp [FlowStep.page?, pathPage]
      · simp at q10
  · obtain ⟨q1, q2, q3, q4, x0, s0, q5, q6, _, q7, q8⟩ := p3
    refine ⟨a, p1, q1, q2, ?_⟩
    rw [pages_eq hs p2, q7, token_of_attest q1 q5]
    have := token_pages x0.token
    simp only [Flow.static, attestSteps, List.filterMap_append, List.filterMap_cons,
      FlowStep.page?, this]
    simp
  · obtain ⟨q1, q2, q3, q4, network, path, token', p, s0, t, q5, q6, q7, _, q8, q9, q10⟩ := p3
    obtain ⟨r1, r2, _⟩ := parseSignInit_some q5
    obtain ⟨v1, _⟩ := p2pkInit_ok q6
    refine ⟨a, p1, q1, q2, ?_, ?_⟩
    · rw [r2]; exact (validate_address _).1 v1
    · rw [pages_eq hs p2, q9, token_of_sign q1 q5, r2, ← hI.app]
      simp only [Flow.static, signInitSteps, List.filterMap_append, List.filterMap_cons,
        FlowStep.page?, path_text q8, pathPage]
      by_cases hk : isKnown d.connectedApp token' = true
      · have := isKnown_iff.1 hk
        rw [if_pos hk, if_pos ⟨this.2.1, this.2.2⟩]; simp
      · rw [if_neg hk, if_neg]
        · simp [appIdPage, FlowStep.page?]
        · rintro ⟨k1, k2⟩
          exact hk (isKnown_iff.2 ⟨by rw [← k2]; exact k1, k1, k2⟩)

/-- The pages of the flow for showing an address. -/
example : ((after [cmd 0x11 2 2 (0 :: demoPath 1 ++ [0, 0, 0, 8])]).pages).length = 4 ∧
    (after [cmd 0x11 2 2 (0 :: demoPath 1 ++ [0, 0, 0, 8])]).pages.getD 1 ⟨.fee, .nothing⟩ =
      ⟨.path, .text "44'/429'/0'/0/1".toList⟩ := by decide +kernel

/-- C16: a request to display an address is never answered with success at once; when it is put on
screen, the question is about this address, and the answer to the approval carries no data. -/
theorem C16_display {env : Env} {nanoS : Bool} {key : Bytes} {tr : List Obs} {d : Device}
    (h : Runs env nanoS key tr d) (p2 : UInt8) (data : Bytes) (rnd : Rnd) :
    (∀ out, (d.step env nanoS (.apdu 0xE0 0x11 2 p2 data rnd)).2 ≠ .sw 0x9000 out) ∧
    ((d.step env nanoS (.apdu 0xE0 0x11 2 p2 data rnd)).2 = .wait →
      (d.step env nanoS (.apdu 0xE0 0x11 2 p2 data rnd)).1.asks = some .confirmAddress) ∧
    (d.asks = some .confirmAddress → ∀ sw out, (d.step env nanoS .both).2 = .sw sw out → out = []) := by
  refine ⟨?_, ?_, ?_⟩
  · intro out hr
    generalize he : Event.apdu 0xE0 0x11 2 p2 data rnd = e at hr
    obtain ⟨d', r, hst, hT⟩ := step_cases env nanoS d e
    rw [hst] at hr
    cases hT with
    | neutral hn =>
      simp only [status, Reply.sw.injEq] at hr
      exact (neutral_ghost hn).1 hr.1
    | abort hb hsw => simp only [status, Reply.sw.injEq] at hr; exact hsw hr.1
    | deriveFail => simp only [status, Reply.sw.injEq] at hr; exact absurd hr.1 (by decide)
    | daSend hb h1 => cases he; exact absurd h1 (by decide)
    | moveErr h => subst he; simp at h
    | _ => first | (cases he; done) | (cases hr; done)
  · intro hr
    generalize he : Event.apdu 0xE0 0x11 2 p2 data rnd = e at hr
    obtain ⟨d', r, hst, hT⟩ := step_cases env nanoS d e
    rw [hst] at hr ⊢
    cases hT with
    | daAskSend hb h1 => cases he; exact absurd h1 (by decide)
    | daAskShow => rfl
    | idle h => subst he; simp at h
    | move h => subst he; simp at h
    | _ => first | (cases he; done) | (cases hr; done)
  · intro ha sw out hr
    have hI := h.inv
    generalize he : Event.both = e at hr
    obtain ⟨d', r, hst, hT⟩ := step_cases env nanoS d e
    rw [hst] at hr
    cases hT with
    | okEpk hs h1 hcb hx => have := asks_of hI hs hcb; rw [ha] at this; simp [AsksFor] at this
    | okAttest hs h1 hcb hx => have := asks_of hI hs hcb; rw [ha] at this; simp [AsksFor] at this
    | okSignInit hs h1 hcb hx => have := asks_of hI hs hcb; rw [ha] at this; simp [AsksFor] at this
    | okSignTx hs h1 hcb hx => have := asks_of hI hs hcb; rw [ha] at this; simp [AsksFor] at this
    | okDa hs h1 hcb hx =>
      simp only [Reply.sw.injEq] at hr
      obtain ⟨_, rfl⟩ := hr
      obtain ⟨a, f0, p1, p2, p3⟩ := hI.asking _ hs
      rw [hcb] at p3
      obtain ⟨q1, _, _, network, rest, path, token, pub, chain, raw, t, q0, q2, q8, q5, q6, q7, q3⟩ := p3
      rcases q3 with ⟨_, q3, q4⟩ | ⟨q9, s', q10, _, q3, q4⟩
      · rw [asks_eq hs p2, q3] at ha
        exact absurd ha (by simp [Flow.title, Flow.static, daSendSteps, FlowStep.page?])
      · rw [hx] at q4
        simp only [Ctx.derive.injEq] at q4
        subst q4
        simp
    | _ =>
      first
      | (cases he; done)
      | (cases hr; done)
      | (simp only [status, Reply.sw.injEq] at hr; exact hr.2.symm)

example : ((after []).step toyEnv false (cmd 0x11 2 1 (0 :: demoPath 1))).2 = .wait ∧
    ((after [cmd 0x11 2 1 (0 :: demoPath 1), .left, .left]).step toyEnv false .both).2 =
      .sw 0x9000 [] := by decide +kernel

end Ergo
