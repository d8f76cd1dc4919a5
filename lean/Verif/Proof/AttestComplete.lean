import Verif.Proof.AttestFits
import Verif.Proof.Complete

/-! # Fitting attestation commands are served to the end -/

namespace Ergo
open Spec

variable {env : Env} {nanoS : Bool} {key : Bytes}

theorem LiveAttest.cons {o : Obs} {tr : List Obs} (h : LiveAttest tr)
    (hn : ∀ cla p2 data rnd, o.event ≠ .apdu cla 0x20 0x01 p2 data rnd) : LiveAttest (o :: tr) := by
  right
  refine ⟨h, ?_⟩
  rintro ⟨cla, p2, data, rnd, out, he, _⟩
  exact hn _ _ _ _ he

theorem attestFits_sub {o : BoxDesc Bytes} {sub : UInt8} {data : Bytes} (h : AttestFits o sub data) :
    sub = 2 ∨ sub = 3 ∨ sub = 4 ∨ sub = 5 := by
  by_contra hn
  simp only [not_or] at hn
  unfold AttestFits at h
  rw [if_neg hn.1, if_neg hn.2.1, if_neg hn.2.2.1, if_neg hn.2.2.2] at h
  exact h

theorem here_none {d : Device} (h : d.screen = none) : d.asks = none ∧ d.here = none := by
  simp [Device.asks, Device.here, h]

/-- Fitting commands of an attestation are served. -/
theorem attest_serve (cs : List SignCmd) {tr : List Obs} {d : Device} (h : Runs env nanoS key tr d)
    {S : AttestSess} (hS : (know tr).attest = some S) (hL : LiveAttest tr)
    (hf : AttestFitsAll S.box cs) :
    ∃ new d', AttestServed env key S cs new ∧ Runs env nanoS key (new ++ tr) d' ∧
      (know (new ++ tr)).attest = some { S with log := S.log ++ cs.map (fun c => (c.sub, c.data)) } ∧
      LiveAttest (new ++ tr) ∧ d'.asks = none ∧ (know (new ++ tr)).app = (know tr).app := by
  induction cs generalizing tr d S with
  | nil =>
    obtain ⟨_, _, hs, _⟩ := ready_attest h hS hL
    exact ⟨[], d, rfl, h, by simpa using hS, hL, (here_none hs).1, rfl⟩
  | cons c cs ih =>
    obtain ⟨f1, f2, f3⟩ := hf
    obtain ⟨sub, data, rnd⟩ := c
    simp only at f1 f2 f3
    have hsub := attestFits_sub f2
    have hne : ¬ sub = 0x01 := by rcases hsub with rfl | rfl | rfl | rfl <;> decide
    obtain ⟨_, _, hs, _⟩ := ready_attest h hS hL
    obtain ⟨a1, a2⟩ := here_none hs
    rcases attest_reply h hS hL f1 hsub rnd rfl with ⟨_, hr⟩ | ⟨hn, _⟩
    swap
    · exact absurd f2 hn
    have hst : d.step env nanoS (.apdu 0xE0 0x20 sub S.id data rnd) =
        ((d.step env nanoS (.apdu 0xE0 0x20 sub S.id data rnd)).1,
          .sw 0x9000 (S.answer env key sub data)) := by
      rw [← hr]
    have h1 := h.next hst (by simp) (by simp)
    rw [a1, a2] at h1
    have e1 : know (⟨none, none, .apdu 0xE0 0x20 sub S.id data rnd,
        .sw 0x9000 (S.answer env key sub data)⟩ :: tr) =
        { know tr with attest := (know tr).attest.map (fun s => { s with log := s.log ++ [(sub, data)] }) } := by
      show (if sub = 0x01 then _ else _) = _
      rw [if_neg hne]
    have hS1 : (know (⟨none, none, .apdu 0xE0 0x20 sub S.id data rnd,
        .sw 0x9000 (S.answer env key sub data)⟩ :: tr)).attest = some (S.with ⟨sub, data, rnd⟩) := by
      rw [e1]
      simp only [hS]
      rfl
    have hL1 : LiveAttest (⟨none, none, .apdu 0xE0 0x20 sub S.id data rnd,
        .sw 0x9000 (S.answer env key sub data)⟩ :: tr) :=
      LiveAttest.cons hL (by intro _ _ _ _ he; simp only [Event.apdu.injEq] at he; exact hne he.2.2.1)
    have hbox : (S.with ⟨sub, data, rnd⟩).box = attestStep S.box (sub, data) := by
      simp [AttestSess.box, AttestSess.with]
    obtain ⟨n2, d2, t1, t2, t3, t4, t5, t6⟩ := ih h1 hS1 hL1 (by rw [hbox]; exact f3)
    refine ⟨n2 ++ [_], d2, ⟨n2, t1, rfl⟩, ?_, ?_, ?_, t5, ?_⟩
    · simpa using t2
    · rw [List.append_assoc]
      refine t3.trans ?_
      simp [AttestSess.with]
    · simpa using t4
    · rw [List.append_assoc]
      refine t6.trans ?_
      rw [e1]

/-- From the first screen of a question with fixed screens left twice to Approve. -/
theorem static_approve {tr : List Obs} {d : Device} (h : Runs env nanoS key tr d)
    {t : Title} {v : Shown} {ps : List FlowStep} {cb : Callback}
    (hs : d.screen = some ⟨Flow.static (.info ⟨t, v⟩ :: ps), cb⟩) :
    ∃ b1 b2 f, f.here = .approve ∧ f.steps = (Flow.static (.info ⟨t, v⟩ :: ps)).steps ∧
      Runs env nanoS key (⟨some t, b2, .left, .wait⟩ :: ⟨some t, b1, .left, .wait⟩ :: tr)
        { d with screen := some ⟨f, cb⟩ } := by
  obtain ⟨fl, hfl⟩ : ∃ fl, fl = Flow.static (.info ⟨t, v⟩ :: ps) := ⟨_, rfl⟩
  rw [← hfl] at hs ⊢
  have hlen : fl.steps.length = ps.length + 3 := by rw [hfl]; simp [Flow.static]
  have g1 : fl.steps.getD (ps.length + 2) .reject = .reject := by
    rw [hfl]; simp [Flow.static]
  have g2 : fl.steps.getD (ps.length + 1) .reject = .approve := by
    rw [hfl]; simp [Flow.static]
  have hidx : fl.idx = 0 := by rw [hfl]; rfl
  have a1 : d.asks = some t := by simp [Device.asks, hs, hfl, Flow.static, FlowStep.page?]
  have m1 : fl.left = ⟨{ fl with idx := ps.length + 2 }, none⟩ := by
    unfold Flow.left Flow.arrive Flow.here
    simp only [hidx, if_true, hlen, Nat.add_succ_sub_one, g1]
  have e1 : d.step env nanoS .left =
      ({ d with screen := some ⟨{ fl with idx := ps.length + 2 }, cb⟩ }, .wait) := by
    simp only [Device.step, hs, Device.move, m1]
  have h1 := h.next e1 (by simp) (by simp)
  have m2 : Flow.left { fl with idx := ps.length + 2 } =
      ⟨{ fl with idx := ps.length + 1 }, none⟩ := by
    unfold Flow.left Flow.arrive Flow.here
    simp only [Nat.add_eq_zero_iff, OfNat.ofNat_ne_zero, and_false, if_false, Nat.add_succ_sub_one, g2]
  have e2 : Device.step env nanoS { d with screen := some ⟨{ fl with idx := ps.length + 2 }, cb⟩ } .left =
      ({ d with screen := some ⟨{ fl with idx := ps.length + 1 }, cb⟩ }, .wait) := by
    simp only [Device.step, Device.move, m2]
  have h2 := h1.next e2 (by simp) (by simp)
  have a2 : Device.asks { d with screen := some ⟨{ fl with idx := ps.length + 2 }, cb⟩ } = some t := by
    simp [Device.asks, hfl, Flow.static, FlowStep.page?]
  rw [a1, a2] at h2
  exact ⟨_, _, { fl with idx := ps.length + 1 }, g2, rfl, h2⟩

/-- An attestation can be opened. -/
theorem attest_open {tr : List Obs} {d : Device} (h : Runs env nanoS key tr d) (hwf : env.WF)
    (ha : d.asks = none) {a : Request} (hi : a.ins = 0x20) (hp1 : a.p1 = 1)
    (hp2 : a.p2 = 1 ∨ a.p2 = 2) (hl : a.data.length ≤ 255) (hg : a.Good env) (hid : a.IdDrawn) :
    ∃ id l d' asked, AttestStarting a (a.AtOnce (know tr).app) id l ∧
      Runs env nanoS key (l ++ tr) d' ∧
      (know (l ++ tr)).attest = some ⟨a, id, asked, (know tr).app, []⟩ ∧ LiveAttest (l ++ tr) ∧
      d'.asks = none := by
  have hb := idle_notBusy h.inv ha
  have hs : starts a.ins a.p1 a.p2 = true := by
    rw [hi, hp1]
    rcases hp2 with e | e <;> rw [e] <;> rfl
  have happ : (know tr).app = d.connectedApp := h.inv.app.symm
  have hr := start_reply (nanoS := nanoS) hwf hb hl hs
  have hst := start_step (env := env) (nanoS := nanoS) hb hl hs
  rw [if_neg (by rw [hi]; decide), if_neg (by rw [hi]; decide), if_pos hi] at hst
  have hsc := asks_none h.inv ha
  obtain ⟨a1, a2⟩ := here_none hsc
  have hsh : a.Showable := .inl hi
  have hne : ¬ (d.step env nanoS a.event).2 = .hang ∧ ¬ IsError (d.step env nanoS a.event).2 := by
    rcases hr with hr | hr | hr | hr
    · obtain ⟨⟨out, hr⟩, _⟩ := hr
      rw [hr]
      exact ⟨by simp, by rintro ⟨sw, h1, h2⟩; simp at h2; exact h1 h2.1.symm⟩
    · rw [hr.1]
      exact ⟨by simp, by rintro ⟨sw, h1, h2⟩; simp [status] at h2⟩
    · exact absurd hid hr.2.2
    · rcases hr.2 with h1 | h1
      · exact absurd hg h1
      · exact absurd hsh h1.2.2
  rw [hst] at hne
  unfold Device.attestStart at hst hne
  simp only at hst hne
  cases h1 : attestInit a.data (a.p2 = 2) 0 with
  | error e =>
    rw [h1] at hne
    exact absurd (isError_of (attestInit_err h1)) hne.2
  | ok x =>
    simp only [h1] at hne hst
    cases h3 : newSession 0 a.rnd.u8s with
    | none => rw [h3] at hne; exact absurd rfl hne.1
    | some s =>
      simp only [h3] at hst
      by_cases hk : isKnown (d.setCommand .attestInput).connectedApp x.token = true
      · rw [if_pos hk] at hst
        have hat : a.AtOnce (know tr).app := by
          rw [happ]
          rcases hr with hr | hr | hr | hr
          · exact hr.2.2.2
          · rw [hst] at hr; cases hr.1
          · exact absurd hid hr.2.2
          · rcases hr.2 with h1 | h1
            · exact absurd hg h1
            · exact absurd hsh h1.2.2
        have hr1 := h.next hst (by simp) (by simp)
        rw [a1, a2] at hr1
        refine ⟨s, [_], _, false, .inl ⟨hat, rfl⟩, hr1, ?_, .inl ⟨⟨_, rfl⟩, .inr ?_⟩, ?_⟩
        · obtain ⟨ins, p1, p2, data, rnd⟩ := a
          simp only at hi hp1
          subst hi hp1
          rfl
        · obtain ⟨ins, p1, p2, data, rnd⟩ := a
          simp only at hi hp1
          subst hi hp1
          exact ⟨_, _, _, _, rfl⟩
        · exact ha
      · rw [if_neg hk] at hst
        have hat : ¬ a.AtOnce (know tr).app := by
          rw [happ]
          rcases hr with hr | hr | hr | hr
          · rw [hst] at hr; obtain ⟨⟨out, hr⟩, _⟩ := hr; cases hr
          · exact hr.2.2.2.1
          · exact absurd hid hr.2.2
          · rcases hr.2 with h1 | h1
            · exact absurd hg h1
            · exact absurd hsh h1.2.2
        have hr1 := h.next hst (by simp) (by simp)
        obtain ⟨b1, b2, f, hf1, hf2, hr2⟩ := static_approve hr1 rfl
        have e1 : ∀ d1 : Device, Device.asks { d1 with screen := some ⟨f, .attest⟩ } =
            some .confirmAttest := by
          intro d1
          simp [Device.asks, hf2, Flow.static, FlowStep.page?]
        have e2 : ∀ d1 : Device, Device.here { d1 with screen := some ⟨f, .attest⟩ } =
            some .approve := by
          intro d1
          simp [Device.here, hf1]
        have hst2 : Device.step env nanoS (Device.mk d.connectedApp d.sessionKey .attestInput true
            (.attest { x with session := s }) (some ⟨f, .attest⟩)) .both =
            (⟨x.token, d.sessionKey, .attestInput, false,
              .attest { x with session := s, state := .approved }, none⟩, .sw Sw.ok [s]) := by
          simp only [Device.step, Device.both, hf1]
          rfl
        have hr3 := hr2.next hst2 (by simp) (by simp)
        rw [e1, e2] at hr3
        refine ⟨s, _, _, true, .inr ⟨hat, _, _, _, _, rfl⟩, hr3, ?_, .inl ⟨⟨_, rfl⟩, .inl ⟨rfl, rfl⟩⟩, rfl⟩
        obtain ⟨ins, p1, p2, data, rnd⟩ := a
        simp only at hi hp1
        subst hi hp1
        rfl

/-- The commands that fetch the frames `i, …, i + n - 1`. -/
theorem fetch_fits {o : BoxDesc Bytes} (hc : o.complete) (rnd : Rnd) (n i : Nat)
    (hn : i + n ≤ framesFor o.nTokens) (hf : framesFor o.nTokens ≤ 255) :
    AttestFitsAll o ((List.range' i n).map (fun j => ⟨0x05, [UInt8.ofNat j], rnd⟩)) := by
  induction n generalizing i with
  | zero => trivial
  | succ n ih =>
    rw [List.range'_succ, List.map_cons]
    refine ⟨by simp, ⟨hc, _, rfl, ?_⟩, ih (i + 1) (by omega)⟩
    rw [UInt8.toNat_ofNat_of_lt' (by show _ < 256; omega)]
    omega

theorem fetch_served (rnd : Rnd) {S : AttestSess} (n i : Nat) (hi : i + n ≤ 255) {l : List Obs}
    (h : AttestServed env key S ((List.range' i n).map (fun j => ⟨0x05, [UInt8.ofNat j], rnd⟩)) l) :
    l = ((List.range' i n).map (fun j => ⟨none, none, .apdu 0xE0 0x20 0x05 S.id [UInt8.ofNat j] rnd,
      .sw 0x9000 (S.frame env key j)⟩)).reverse := by
  induction n generalizing i l S with
  | zero => exact h
  | succ n ih =>
    rw [List.range'_succ, List.map_cons] at h ⊢
    obtain ⟨q, h1, rfl⟩ := h
    have e := ih (i + 1) (by omega) h1
    have hfr : ∀ c : SignCmd, c.sub = 0x05 → (S.with c).frame env key = S.frame env key := by
      rintro ⟨sub, data, rnd⟩ hc
      simp only at hc
      subst hc
      have hb : (S.with ⟨0x05, data, rnd⟩).box = S.box := by
        simp [AttestSess.box, AttestSess.with, attestStep]
      funext j
      unfold AttestSess.frame AttestSess.boxId
      rw [hb]
      rfl
    rw [hfr _ rfl] at e
    rw [List.reverse_cons, e]
    have hj : field [UInt8.ofNat i] 0 1 = i := by
      have : field [UInt8.ofNat i] 0 1 = (UInt8.ofNat i).toNat := by simp [field, be]
      rw [this, UInt8.toNat_ofNat_of_lt' (by show _ < 256; omega)]
    have ha : S.answer env key 0x05 [UInt8.ofNat i] = S.frame env key i := by
      show S.frame env key (field [UInt8.ofNat i] 0 1) = _
      rw [hj]
    rw [ha]
    rfl

/-- Of a complete box all frames can be fetched. -/
theorem attest_fetch {tr : List Obs} {d : Device} (h : Runs env nanoS key tr d)
    {S : AttestSess} (hS : (know tr).attest = some S) (hL : LiveAttest tr)
    (hc : S.box.complete) (hn : S.box.nTokens ≤ 20) (rnd : Rnd) :
    ∃ d', Runs env nanoS key (((List.range (framesFor S.box.nTokens)).map (fun j =>
      ⟨none, none, .apdu 0xE0 0x20 0x05 S.id [UInt8.ofNat j] rnd,
        .sw 0x9000 (S.frame env key j)⟩)).reverse ++ tr) d' ∧ d'.asks = none := by
  have hf : framesFor S.box.nTokens ≤ 255 := by unfold framesFor; split <;> omega
  obtain ⟨new, d', h1, h2, _, _, h5, _⟩ := attest_serve _ h hS hL
    (fetch_fits hc rnd (framesFor S.box.nTokens) 0 (by omega) hf)
  rw [fetch_served rnd _ 0 (by omega) h1] at h2
  rw [List.range_eq_range']
  exact ⟨d', h2, h5⟩

end Ergo
