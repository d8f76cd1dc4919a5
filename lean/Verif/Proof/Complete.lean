import Verif.Proof.Asks
import Verif.Proof.Final
import Verif.Spec.Complete
import Verif.Proof.Start

/-! # Fitting commands are served to the end -/

namespace Ergo
open Spec

variable {env : Env} {nanoS : Bool} {key : Bytes}

/-! ## The approvals do not matter for what fits -/

theorem forget_approve (D : TxDesc) : (D.step .approve).forget = D.forget := by
  unfold TxDesc.step
  simp only
  split
  · rfl
  · rename_i h; simp [TxDesc.forget, h]

theorem forget_onInput (D : TxDesc) (f : InDesc → InDesc) :
    (D.onInput f).forget = D.forget.onInput f := by
  unfold TxDesc.onInput TxDesc.forget
  cases h : D.inputs <;> simp [h]

theorem forget_onOutput (D : TxDesc) (f : BoxDesc Nat → BoxDesc Nat) :
    (D.onOutput f).forget = D.forget.onOutput f := by
  unfold TxDesc.onOutput TxDesc.forget
  cases h : D.outputs <;> simp [h]

theorem forget_step (D : TxDesc) (sub : UInt8) (data : Bytes) :
    (D.step (.cmd sub data)).forget = D.forget.step (.cmd sub data) := by
  unfold TxDesc.step
  dsimp only
  by_cases e : sub = 0x10
  · subst e; rfl
  rw [if_neg e, if_neg e]
  by_cases e : sub = 0x11
  · subst e; rfl
  rw [if_neg e, if_neg e]
  by_cases e : sub = 0x12
  · subst e
    rw [if_pos rfl, if_pos rfl]
    unfold TxDesc.frame
    split
    · rfl
    · exact forget_onInput _ _
  rw [if_neg e, if_neg e]
  by_cases e : sub = 0x13
  · subst e; exact forget_onInput _ _
  rw [if_neg e, if_neg e]
  by_cases e : sub = 0x14
  · subst e; rfl
  rw [if_neg e, if_neg e]
  by_cases e : sub = 0x15
  · subst e; rfl
  rw [if_neg e, if_neg e]
  by_cases e : sub = 0x16
  · subst e; exact forget_onOutput _ _
  rw [if_neg e, if_neg e]
  by_cases e : sub = 0x17
  · subst e; exact forget_onOutput _ _
  rw [if_neg e, if_neg e]
  by_cases e : sub = 0x18
  · subst e; exact forget_onOutput _ _
  rw [if_neg e, if_neg e]
  by_cases e : sub = 0x19
  · subst e; exact forget_onOutput _ _
  rw [if_neg e, if_neg e]
  by_cases e : sub = 0x1A
  · subst e; exact forget_onOutput _ _
  rw [if_neg e, if_neg e]

theorem forget_frame (D : TxDesc) (data : Bytes) : D.forget.frame data = (D.frame data).forget := by
  unfold TxDesc.frame
  split
  · rfl
  · exact (forget_onInput _ _).symm

theorem forget_sumOut (D : TxDesc) (f) : D.forget.sumOut f = D.sumOut f := by
  simp [TxDesc.sumOut, TxDesc.forget, Function.comp_def]

theorem forget_tokOut (D : TxDesc) (id) : D.forget.tokOut id = D.tokOut id := by
  simp [TxDesc.tokOut, TxDesc.forget, Function.comp_def]

theorem forget_count (D : TxDesc) :
    D.forget.outputs.countP (·.box.complete) = D.outputs.countP (·.box.complete) := by
  simp [TxDesc.forget, List.countP_map, Function.comp_def]

theorem forget_frameFits (D : TxDesc) (data : Bytes) :
    FrameFits env key D.forget data ↔ FrameFits env key D data := by
  unfold FrameFits
  have : SumsFit (D.forget.frame data) ↔ SumsFit (D.frame data) := by
    rw [forget_frame]
    exact ⟨fun ⟨a, b, c⟩ => ⟨a, b, c⟩, fun ⟨a, b, c⟩ => ⟨a, b, c⟩⟩
  rw [this]
  exact Iff.rfl

theorem forget_out (D : TxDesc) (P : BoxDesc Nat → Prop) :
    (∃ o os, D.forget.outputs = o :: os ∧ P o.box) ↔ ∃ o os, D.outputs = o :: os ∧ P o.box := by
  unfold TxDesc.forget
  cases D.outputs with
  | nil => simp
  | cons o os =>
    constructor
    · rintro ⟨o', os', h, hp⟩
      simp only [List.map_cons, List.cons.injEq] at h
      exact ⟨o, os, rfl, by rw [← h.1] at hp; exact hp⟩
    · rintro ⟨o', os', h, hp⟩
      simp only [List.cons.injEq] at h
      exact ⟨_, _, rfl, by rw [← h.1] at hp; exact hp⟩

theorem forget_fits (D : TxDesc) (sub : UInt8) (data : Bytes) :
    Fits env key D.forget sub data ↔ Fits env key D sub data := by
  unfold Fits
  by_cases e : sub = 0x10
  · subst e; exact Iff.rfl
  rw [if_neg e, if_neg e]
  refine and_congr Iff.rfl ?_
  by_cases e : sub = 0x11
  · subst e; exact Iff.rfl
  rw [if_neg e, if_neg e]
  by_cases e : sub = 0x12
  · subst e; exact forget_frameFits D data
  rw [if_neg e, if_neg e]
  by_cases e : sub = 0x13
  · subst e; exact Iff.rfl
  rw [if_neg e, if_neg e]
  by_cases e : sub = 0x14
  · subst e; exact Iff.rfl
  rw [if_neg e, if_neg e]
  by_cases e : sub = 0x15
  · subst e
    rw [if_pos rfl, if_pos rfl, forget_count]
    exact Iff.rfl
  rw [if_neg e, if_neg e]
  by_cases e : sub = 0x20
  · subst e
    rw [if_pos rfl, if_pos rfl, forget_count]
    exact Iff.rfl
  rw [if_neg e, if_neg e]
  by_cases e : sub = 0x16
  · subst e
    exact forget_out D (fun b => b.scriptDone = false ∧ scriptLen b + data.length ≤ b.treeSize ∧
          (scriptLen b + data.length = b.treeSize ∨ 255 ≤ data.length))
  simp only [if_neg e]
  by_cases e : sub = 0x17
  · subst e
    simp only [ValueFits, forget_sumOut]
    exact forget_out D (fun b => data = [] ∧ b.script = none ∧
      b.value + D.sumOut Script.isFee + D.sumOut Script.isChange ≤ D.sumIn)
  simp only [if_neg e]
  by_cases e : sub = 0x18
  · subst e
    simp only [ValueFits, forget_sumOut]
    exact forget_out D (fun b => 1 ≤ field data 0 1 ∧ field data 0 1 ≤ 10 ∧ pathLen data ≤ data.length ∧
          IsAddressPath (pathOf data) ∧ (env.genPublic (pathOf data)).isSome ∧
          b.script = none ∧ b.value + D.sumOut Script.isFee + D.sumOut Script.isChange ≤ D.sumIn)
  simp only [if_neg e]
  by_cases e : sub = 0x19
  · subst e
    simp only [forget_tokOut]
    exact forget_out D (fun b =>
        b.scriptDone = true ∧ b.tokens.length < b.nTokens ∧ data.length % 12 = 0 ∧
          b.tokens.length + data.length / 12 ≤ b.nTokens ∧
          (∀ t ∈ (pieces 12 data).map tok12, t.1 < D.nTok) ∧
          NoRepeat D.table (b.tokens ++ (pieces 12 data).map tok12) ∧
          ∀ id, D.tokOut id + tokRefs D.table ((pieces 12 data).map tok12) id ≤ D.tokIn id + 2 ^ 63)
  simp only [if_neg e]
  by_cases e : sub = 0x1A
  · subst e
    exact forget_out D (fun b => b.scriptDone = true ∧ b.tokens.length = b.nTokens ∧
          b.regs.length < b.regsSize ∧ b.regs.length + data.length ≤ b.regsSize)
  simp only [if_neg e]
  exact forget_out D (fun _ => False)

theorem forget_whole (D : TxDesc) : Whole D.forget ↔ Whole D := by
  unfold Whole
  rw [forget_count]
  exact Iff.rfl

theorem forget_sofar (D : TxDesc) (k) : txBytesSoFar k D.forget = txBytesSoFar k D := by
  unfold txBytesSoFar TxDesc.forget
  simp [List.flatMap_def, ← List.map_reverse, Function.comp_def]

theorem forget_after (D E : TxDesc) (h : D.forget = E.forget) (cs : List SignCmd) :
    (D.after cs).forget = (E.after cs).forget := by
  induction cs generalizing D E with
  | nil => exact h
  | cons c cs ih =>
    refine ih _ _ ?_
    rw [forget_step, forget_step, h]

theorem forget_fitsAll (D E : TxDesc) (h : D.forget = E.forget) (cs : List SignCmd) :
    FitsAll env key D cs → FitsAll env key E cs := by
  induction cs generalizing D E with
  | nil => exact id
  | cons c cs ih =>
    rintro ⟨h1, h2, h3, h4⟩
    refine ⟨h1, h2, ?_, ih _ _ ?_ h4⟩
    · rw [← forget_fits, ← h, forget_fits]; exact h3
    · rw [forget_step, forget_step, h]

/-! ## Steps -/

theorem Runs.next {tr : List Obs} {d d' : Device} {e : Event} {r : Reply}
    (h : Runs env nanoS key tr d) (hst : d.step env nanoS e = (d', r)) (h1 : r ≠ .hang)
    (h2 : r ≠ .ub) : Runs env nanoS key (⟨d.asks, d.here, e, r⟩ :: tr) d' := by
  have := Runs.step e h (by rw [hst]; exact h1) (by rw [hst]; exact h2)
  rwa [observe_eq hst, hst] at this

theorem Spec.Live.cons {o : Obs} {tr : List Obs} (h : Live tr)
    (hn : ∀ cla p2 data rnd, o.event ≠ .apdu cla 0x20 0x01 p2 data rnd) : Live (o :: tr) := by
  right
  refine ⟨h, ?_⟩
  rintro ⟨cla, p2, data, rnd, out, he, _⟩
  exact hn _ _ _ _ he

/-- From the first screen of a question with dynamic screens left twice to Approve. -/
theorem to_approve {tr : List Obs} {d : Device} (h : Runs env nanoS key tr d) {p : Page} {n : Nat}
    {cb : Callback} (hs : d.screen = some ⟨Flow.dynamic p n, cb⟩) :
    ∃ b1 b2 f, f.here = .approve ∧ f.steps = (Flow.dynamic p n).steps ∧
      Runs env nanoS key (⟨some p.title, b2, .left, .wait⟩ :: ⟨some p.title, b1, .left, .wait⟩ :: tr)
        { d with screen := some ⟨f, cb⟩ } := by
  have e1 : d.step env nanoS .left =
      ({ d with screen := some ⟨{ Flow.dynamic p n with idx := 5 }, cb⟩ }, .wait) := by
    simp only [Device.step, hs]
    rfl
  have a1 : d.asks = some p.title := by simp only [Device.asks, hs]; rfl
  have h1 := h.next e1 (by simp) (by simp)
  have e2 : Device.step env nanoS
      { d with screen := some ⟨{ Flow.dynamic p n with idx := 5 }, cb⟩ } .left =
      ({ d with screen := some ⟨{ Flow.dynamic p n with idx := 4 }, cb⟩ }, .wait) := rfl
  have h2 := h1.next e2 (by simp) (by simp)
  rw [a1] at h2
  exact ⟨_, _, { Flow.dynamic p n with idx := 4 }, rfl, rfl, h2⟩

/-- A question is asked and approved. -/
theorem approving {tr : List Obs} {d d1 d2 : Device} (h : Runs env nanoS key tr d) {e : Event}
    {p : Page} {n : Nat} {cb : Callback} {r : Reply} (he : d.step env nanoS e = (d1, .wait))
    (hs : d1.screen = some ⟨Flow.dynamic p n, cb⟩)
    (hact : ∀ f, Device.act env { d1 with screen := some ⟨f, cb⟩ } cb true = (d2, r))
    (h1 : r ≠ .hang) (h2 : r ≠ .ub) :
    ∃ l, Approving p.title e r l ∧ Runs env nanoS key (l ++ tr) d2 := by
  obtain ⟨b1, b2, f, hf1, hf2, hr2⟩ := to_approve (h.next he (by simp) (by simp)) hs
  have e1 : Device.asks { d1 with screen := some ⟨f, cb⟩ } = some p.title := by
    simp [Device.asks, hf2, Flow.dynamic, FlowStep.page?]
  have e2 : Device.here { d1 with screen := some ⟨f, cb⟩ } = some .approve := by
    simp [Device.here, hf1]
  have hst : Device.step env nanoS { d1 with screen := some ⟨f, cb⟩ } .both = (d2, r) := by
    simp only [Device.step, Device.both, hf1]
    exact hact f
  have hr3 := hr2.next hst h1 h2
  rw [e1, e2] at hr3
  exact ⟨_, ⟨_, _, _, _, rfl⟩, hr3⟩

/-- Approval of an output. -/
theorem actOutput_ok {x : SignCtx} {t : TxData} {o : OutInfo} (hu : x.p.u = .transaction t)
    (ho : t.out = some o) (hb : o.type = .bip32 → ∃ q, o.data = .path q) :
    ∃ last, ∀ d : Device, d.actSignOutput x true =
      (({ d with busy := false, ctx := .sign { x with p :=
        { x.p with u := .transaction { t with lastChange := last } } } }).menu, status Sw.ok) := by
  unfold Device.actSignOutput
  simp only [hu, ho, if_true]
  by_cases h : o.type = .bip32
  · obtain ⟨q, hq⟩ := hb h
    exact ⟨q, fun d => by simp only [h, if_true, hq]⟩
  · exact ⟨[], fun d => by simp only [h, if_false]⟩

/-- One fitting command is served. -/
theorem serve_one {tr : List Obs} {d : Device} (h : Runs env nanoS key tr d) {S : SignSess}
    (hS : (know tr).sign = some S) (hL : Live tr) (ha : d.asks = none) {c : SignCmd}
    (hsub : 0x10 ≤ c.sub ∧ c.sub ≤ 0x1A) (hl : c.data.length ≤ 255)
    (hf : Fits env key (describe S.log) c.sub c.data) :
    ∃ new d' L, Served S.id c new ∧ Runs env nanoS key (new ++ tr) d' ∧
      (know (new ++ tr)).sign = some { S with log := S.log ++ L } ∧ Live (new ++ tr) ∧
      d'.asks = none ∧
      (describe (S.log ++ L)).forget = ((describe S.log).step (.cmd c.sub c.data)).forget := by
  obtain ⟨sub, data, rnd⟩ := c
  simp only at hsub hl hf
  obtain ⟨h1, h2⟩ := hsub
  obtain ⟨hb, hc, hk, x, hx, hap, hid, hid0, hnf, h0, hR⟩ := ready_sign h hS hL ha
  obtain ⟨p, ho⟩ := (signOp_fits hR hnf (got_pos h hS) hl key h1 h2).2 hf
  have hR' := signOp_rel hR ho h1 h2
  have hst : d.step env nanoS (.apdu 0xE0 0x21 sub S.id data rnd) = _ :=
    sign_step hb hc hx hap hid hid0 hl (.inl ⟨h1, h2⟩)
  rw [signSub_eq hc hx hap h1 h2, hk, ho] at hst
  have hne1 : ¬ sub = 0x01 := by
    rintro rfl; exact absurd h1 (by decide)
  have hne2 : ¬ sub = 0x20 := by
    rintro rfl; exact absurd h2 (by decide)
  have plain : ∀ d', d.step env nanoS (.apdu 0xE0 0x21 sub S.id data rnd) = (d', status Sw.ok) →
      d'.screen = d.screen →
      ∃ new d' L, Served S.id ⟨sub, data, rnd⟩ new ∧ Runs env nanoS key (new ++ tr) d' ∧
      (know (new ++ tr)).sign = some { S with log := S.log ++ L } ∧ Live (new ++ tr) ∧
      d'.asks = none ∧
      (describe (S.log ++ L)).forget = ((describe S.log).step (.cmd sub data)).forget := by
    intro d' hst hsc
    refine ⟨[_], d', [.cmd sub data], .inl ⟨_, _, rfl⟩, h.next hst (by simp [status]) (by simp [status]),
      ?_, hL.cons (by simp), ?_, ?_⟩
    · show ((know tr).log (.cmd sub data)).sign = _
      simp [Ghost.log, hS]
    · unfold Device.asks; rw [hsc]; exact ha
    · rw [describe_append]
  split at hst
  · exact plain _ hst rfl
  simp only [Device.signShow] at hst
  cases hsh : p.shouldShow with
  | none => exact absurd hsh (shouldShow_some hR')
  | some v =>
    rw [hsh] at hst
    cases v with
    | false => exact plain _ hst rfl
    | true =>
      obtain ⟨⟨tx, out, lc⟩, oi, o, os, hu, hout, hD, hO, hT, _⟩ := shouldShow_true hR' hsh
      simp only at hout
      subst hout
      simp only [hu] at hst
      obtain ⟨last, hlast⟩ := actOutput_ok (x := ⟨x.approved, x.session,
          { p with u := .transaction ⟨tx, some oi, []⟩ }⟩) rfl rfl (fun hb =>
        let ⟨q, _, hq⟩ := hO.ofBip32 hb
        ⟨q, hq⟩)
      obtain ⟨l, hA, hr⟩ := approving (d2 := ⟨d.connectedApp, d.sessionKey, d.command, false,
          .sign ⟨x.approved, x.session, { p with u := .transaction ⟨tx, some oi, last⟩ }⟩, none⟩)
        h hst rfl (fun f => hlast _) (by simp [status]) (by simp [status])
      obtain ⟨a, b, b1, b2, rfl⟩ := id hA
      refine ⟨_, _, [.cmd sub data, .approve], .inr hA, hr, ?_, ?_, ?_, ?_⟩
      · show (((((know tr).next ⟨a, b, .apdu 0xE0 0x21 sub S.id data rnd, .wait⟩)).log .approve).sign) = _
        simp [Ghost.next, Ghost.onWait, hne1, hne2, Ghost.log, hS]
      · refine Live.cons (Live.cons (Live.cons (hL.cons ?_) ?_) ?_) ?_ <;> simp
      · rfl
      · rw [show S.log ++ [Entry.cmd sub data, Entry.approve] =
          (S.log ++ [.cmd sub data]) ++ [.approve] by simp, describe_append, describe_append,
          forget_approve]

/-- Fitting commands are served. -/
theorem serve_all (cs : List SignCmd) {tr : List Obs} {d : Device} (h : Runs env nanoS key tr d)
    {S : SignSess} (hS : (know tr).sign = some S) (hL : Live tr) (ha : d.asks = none)
    (hf : FitsAll env key (describe S.log) cs) :
    ∃ new d' L, ServedAll S.id cs new ∧ Runs env nanoS key (new ++ tr) d' ∧
      (know (new ++ tr)).sign = some { S with log := S.log ++ L } ∧ Live (new ++ tr) ∧
      d'.asks = none ∧ (describe (S.log ++ L)).forget = ((describe S.log).after cs).forget := by
  induction cs generalizing tr d S with
  | nil => exact ⟨[], d, [], rfl, h, by simpa using hS, hL, ha, by simp [TxDesc.after]⟩
  | cons c cs ih =>
    obtain ⟨f1, f2, f3, f4⟩ := hf
    obtain ⟨n1, d1, L1, s1, s2, s3, s4, s5, s6⟩ := serve_one h hS hL ha f1 f2 f3
    obtain ⟨n2, d2, L2, t1, t2, t3, t4, t5, t6⟩ := ih s2 s3 s4 s5 (forget_fitsAll _ _ s6.symm _ f4)
    refine ⟨n2 ++ n1, d2, L1 ++ L2, ⟨n1, n2, rfl, s1, t1⟩, ?_, ?_, ?_, t5, ?_⟩
    · simpa using t2
    · simpa using t3
    · simpa using t4
    · rw [← List.append_assoc]
      exact t6.trans (forget_after _ _ s6 cs)

/-- The confirmation of a whole transaction is asked and, when approved, gives a signature, unless the
first 24 bytes of the hash are zero. -/
theorem serve_confirm {tr : List Obs} {d : Device} (h : Runs env nanoS key tr d)
    {S : SignSess} (hS : (know tr).sign = some S) (hL : Live tr) (ha : d.asks = none)
    (hw : Whole (describe S.log)) (hwf : env.WF) {data : Bytes} (hl : data.length ≤ 255) (rnd : Rnd) :
    ∃ secret j pk w r l d', env.genPrivate (pathOf (S.start.data.drop 1)) = some secret ∧
      env.mulG secret = some pk ∧ env.mulG (S.start.rnd.keys j) = some w ∧
      Approving .approveSigning (.apdu 0xE0 0x21 0x20 S.id data rnd) r l ∧
      Runs env nanoS key (l ++ tr) d' ∧ d'.asks = none ∧
      let c := (env.blake (commitBytes pk w ++ txBytesSoFar env.keyOf (describe S.log))).take 24
      (be c ≠ 0 ∧ (∃ z, r = .sw 0x9000 (c ++ z) ∧ z.length = 32 ∧
        be z = (be (S.start.rnd.keys j) + be c * be secret) % groupOrder) ∨ be c = 0 ∧ r = .sw 0xE017 []) := by
  obtain ⟨hb, hc, hk, x, hx, hap, hid, hid0, hnf, h0, hR⟩ := ready_sign h hS hL ha
  have hst := (finished_iff hR hnf).2 hw
  have hstep : d.step env nanoS (.apdu 0xE0 0x21 0x20 S.id data rnd) = _ :=
    sign_step hb hc hx hap hid hid0 hl (.inr rfl)
  have e3 : d.signSub env 0x20 x.session data = d.signConfirm x := by
    unfold Device.signSub
    rw [if_neg (by simp [hc]), hx]
    dsimp only
    rw [if_neg (by simp), if_neg (by simp [hap])]
    rfl
  rw [e3] at hstep
  unfold Device.signConfirm at hstep
  rw [if_neg (by simp [hst])] at hstep
  simp only at hstep
  have hq : AsksOutput d = False := by
    rw [eq_iff_iff]
    refine iff_of_false ?_ id
    rintro ⟨s, hs, _⟩
    rw [asks_none h.inv ha] at hs
    cases hs
  obtain ⟨network, path, token, p0, i1, i2, i3, i4, i5, i6, i7, _⟩ :=
    signRel_confirm S x (hq ▸ sign_rel h hx hap hS) hst
  obtain ⟨_, _, secret, h0', k, j1, j2, rfl⟩ := p2pkInit_ok i2
  obtain ⟨_, j3, _⟩ := parseSignInit_some i1
  obtain ⟨j, pk, w, e1, e2, e3, e4, _, _⟩ := schnorrInitLoop_some env secret _ _ _ _ _ j2
  have e4' : h0' = commitBytes pk w := by
    rw [e4]; rfl
  subst e4'
  have hfin := (i6.final rfl).1
  simp only at hfin i3 i5
  rw [e1] at e3
  refine ⟨secret, j, pk, w, ?_⟩
  have hact : ∀ d1 : Device, d1.actSignTx env
      { x with p := { x.p with state := .finalized, u := .uiConfirm } } true =
      ((d1.setCommand .none).menu, match schnorrFinish env x.p.hash secret k with
        | some sig => .sw Sw.ok sig
        | none => status Sw.schnorrSigningFailed) := by
    intro d1
    unfold Device.actSignTx P2pk.sendResponse
    simp only [if_true, ne_eq, not_true_eq_false, if_false, i3, j1, i5]
    cases schnorrFinish env x.p.hash secret k <;> rfl
  obtain ⟨l, hA, hr⟩ := approving (d2 := ⟨d.connectedApp, d.sessionKey, .none, false, .zeroed, none⟩)
    h hstep rfl (fun f => hact _) (by cases schnorrFinish env x.p.hash secret k <;> simp [status])
      (by cases schnorrFinish env x.p.hash secret k <;> simp [status])
  refine ⟨_, l, _, by rw [j3]; exact j1, e2, e3, hA, hr, rfl, ?_⟩
  rw [← hfin]
  intro c
  have hce : beNat c = be c := beNat_eq c
  have hcl : c.length = 24 := by simp [c, hwf.blake_len]
  by_cases hz : be c = 0
  · right
    refine ⟨hz, ?_⟩
    have : schnorrFinish env x.p.hash secret k = none := by
      unfold schnorrFinish
      simp only
      rw [if_pos (hce.trans hz)]
    rw [this]; rfl
  · left
    refine ⟨hz, ?_⟩
    cases hs : schnorrFinish env x.p.hash secret k with
    | none =>
      unfold schnorrFinish at hs
      simp only at hs
      rw [if_neg (by rw [hce]; exact hz)] at hs
      cases hs
    | some sig =>
      obtain ⟨g1, g2, g3⟩ := schnorrFinish_eq hs hwf.blake_len
      refine ⟨sig.drop 24, ?_, ?_, ?_⟩
      · show Reply.sw Sw.ok sig = _
        have : c = sig.take 24 := g1.symm
        rw [this, List.take_append_drop]; rfl
      · rw [List.length_drop, g2]
      · have : c = sig.take 24 := g1.symm
        rw [← e1, this]; exact g3

/-- The start of a signing session is asked and approved. -/
theorem serve_start {tr : List Obs} {d : Device} (h : Runs env nanoS key tr d) (hwf : env.WF)
    (ha : d.asks = none) {a : Request} (hi : a.ins = 0x21) (hp1 : a.p1 = 1)
    (hp2 : a.p2 = 1 ∨ a.p2 = 2) (hl : a.data.length ≤ 255) (hg : a.Good env) (hid : a.IdDrawn)
    (hsh : a.Showable) :
    ∃ id l d', Starting a id l ∧ Runs env nanoS key (l ++ tr) d' ∧
      (know (l ++ tr)).sign = some ⟨a, id, []⟩ ∧ Live (l ++ tr) ∧ d'.asks = none := by
  have hb := idle_notBusy h.inv ha
  have hs : starts a.ins a.p1 a.p2 = true := by
    rw [hi, hp1]
    rcases hp2 with e | e <;> rw [e] <;> rfl
  have hr := start_reply (nanoS := nanoS) hwf hb hl hs
  have hat : ¬ a.AtOnce d.connectedApp := by
    unfold Request.AtOnce
    rw [hi]
    simp
  have hw : (d.step env nanoS a.event).2 = .wait := by
    rcases hr with hr | hr | hr | hr
    · exact absurd hr.2.2.2 hat
    · exact hr.1
    · exact absurd hid hr.2.2
    · rcases hr.2 with h1 | h1
      · exact absurd hg h1
      · exact absurd hsh h1.2.2
  have hst := start_step (env := env) (nanoS := nanoS) hb hl hs
  rw [if_neg (by rw [hi]; decide), if_neg (by rw [hi]; decide), if_neg (by rw [hi]; decide)] at hst
  rw [hst] at hw
  unfold Device.signStart at hst hw
  cases h1 : parseSignInit a.data (a.p2 = 2) with
  | error e => rw [h1] at hw; cases hw
  | ok q =>
    obtain ⟨network, path, token⟩ := q
    simp only [h1] at hw hst
    cases h2 : p2pkInit env path network a.rnd.keys with
    | err e => rw [h2] at hw; cases hw
    | ub => rw [h2] at hw; cases hw
    | ok p =>
      simp only [h2] at hw hst
      cases h3 : newSession 0 a.rnd.u8s with
      | none => rw [h3] at hw; cases hw
      | some s =>
        simp only [h3] at hw hst
        cases h4 : pathFormat path bip32StrLen with
        | none => rw [h4] at hw; cases hw
        | some t =>
          simp only [h4] at hst
          have hr1 := h.next hst (by simp) (by simp)
          have hst2 : Device.step env nanoS (d.step env nanoS a.event).1 .both =
              (⟨token, d.sessionKey, .signTransaction, false,
                .sign ⟨true, s, { p with u := .uiApprove token }⟩, none⟩, .sw Sw.ok [s]) := by
            rw [hst]; rfl
          rw [hst] at hst2
          have hr2 := hr1.next hst2 (by simp) (by simp)
          refine ⟨s, _, _, ⟨_, _, _, rfl⟩, hr2, ?_, .inl ⟨rfl, rfl, _, rfl⟩, rfl⟩
          obtain ⟨ins, p1, p2, data, rnd⟩ := a
          simp only at hi hp1
          subst hi hp1
          rfl

/-- From the start to the signature. -/
theorem serve_signed {tr : List Obs} {d : Device} (h : Runs env nanoS key tr d) (hwf : env.WF)
    (ha : d.asks = none) {a : Request} (hi : a.ins = 0x21) (hp1 : a.p1 = 1)
    (hp2 : a.p2 = 1 ∨ a.p2 = 2) (hl : a.data.length ≤ 255) (hg : a.Good env) (hid : a.IdDrawn)
    (hsh : a.Showable) {cs : List SignCmd} (hf : FitsAll env key TxDesc.empty cs)
    (hw : Whole (TxDesc.empty.after cs)) {data : Bytes} (hl2 : data.length ≤ 255) (rnd : Rnd) :
    ∃ id l1 l2 l3 r d' secret j pk w, Starting a id l1 ∧ ServedAll id cs l2 ∧
      Approving .approveSigning (.apdu 0xE0 0x21 0x20 id data rnd) r l3 ∧
      Runs env nanoS key (l3 ++ l2 ++ l1 ++ tr) d' ∧ d'.asks = none ∧
      env.genPrivate a.path = some secret ∧ env.mulG secret = some pk ∧
      env.mulG (a.rnd.keys j) = some w ∧
      let c := (env.blake (commitBytes pk w ++ txBytesSoFar env.keyOf (TxDesc.empty.after cs))).take 24
      (be c ≠ 0 ∧ (∃ z, r = .sw 0x9000 (c ++ z) ∧ z.length = 32 ∧
        be z = (be (a.rnd.keys j) + be c * be secret) % groupOrder) ∨ be c = 0 ∧ r = .sw 0xE017 []) := by
  obtain ⟨id, l1, d1, s1, s2, s3, s4, s5⟩ := serve_start h hwf ha hi hp1 hp2 hl hg hid hsh
  obtain ⟨l2, d2, L, t1, t2, t3, t4, t5, t6⟩ := serve_all cs s2 s3 s4 s5 hf
  have hw' : Whole (describe ([] ++ L)) := by
    rw [← forget_whole, t6, forget_whole]; exact hw
  obtain ⟨secret, j, pk, w, r, l3, d3, u1, u2, u3, u4, u5, u6, u7⟩ :=
    serve_confirm t2 t3 t4 t5 hw' hwf hl2 rnd
  have e : txBytesSoFar env.keyOf (describe ([] ++ L)) =
      txBytesSoFar env.keyOf (TxDesc.empty.after cs) := by
    rw [← forget_sofar, t6, forget_sofar]
    rfl
  have hpath : a.path = pathOf (a.data.drop 1) := by
    unfold Request.path
    rw [if_neg (by rw [hi]; decide)]
  simp only [e] at u7
  refine ⟨id, l1, l2, l3, r, d3, secret, j, pk, w, s1, t1, u4, ?_, u6, by rw [hpath]; exact u1, u2, u3, u7⟩
  simpa using u5

end Ergo
