import Verif.Proof.SignRel
/-!
# The entries of a session's log in terms of the trace
-/
namespace Ergo
open Spec

/-- Every entry of the log of a session comes from one observation, made when the log was just the
entries before it. -/
theorem log_entry : ∀ {tr : List Obs} {S : SignSess} {l1 : List Entry} {e : Entry} {l2 : List Entry},
    (know tr).sign = some S → S.log = l1 ++ e :: l2 →
    ∃ tr2 o tr1, tr = tr2 ++ o :: tr1 ∧ signEntry o = some e ∧
      (know tr1).sign = some { S with log := l1 } ∧ ¬ OpensSign o
  | [], S, l1, e, l2, h, _ => by simp [know, Ghost.start] at h
  | o :: tr, S, l1, e, l2, h, hl => by
    rcases next_sign h with ⟨h1, h2, h3, h4⟩ | ⟨S0, h0, rfl, h1, h2, h3, h4⟩
    · rw [h3] at hl; simp at hl
    · simp only at hl
      have go : ∀ l2', S0.log = l1 ++ e :: l2' → ∃ tr2 o' tr1, o :: tr = tr2 ++ o' :: tr1 ∧
          signEntry o' = some e ∧ (know tr1).sign = some { S0 with log := l1 } ∧ ¬ OpensSign o' := by
        intro l2' hl'
        obtain ⟨tr2, o', tr1, rfl, p1, p2, p3⟩ := log_entry h0 hl'
        exact ⟨o :: tr2, o', tr1, rfl, p1, p2, p3⟩
      cases hh : signEntry o with
      | none =>
        rw [hh] at hl
        exact go l2 (by simpa using hl)
      | some e' =>
        rw [hh] at hl
        simp only [Option.toList_some] at hl
        rcases List.eq_nil_or_concat l2 with rfl | ⟨l3, b, rfl⟩
        · have hl' : S0.log ++ [e'] = l1 ++ [e] := hl
          have := List.append_inj' hl' rfl
          obtain ⟨h5, h6⟩ := this
          simp only [List.cons.injEq, and_true] at h6
          subst h6
          refine ⟨[], o, tr, rfl, hh, ?_, h3⟩
          rw [h0, ← h5]
        · rw [List.concat_eq_append, ← List.cons_append, ← List.append_assoc] at hl
          have := List.append_inj' hl rfl
          exact go l3 this.1

/-- The entry of a transition. -/
theorem entry_of {env : Env} {nanoS : Bool} {key : Bytes} {tr : List Obs} {d : Device}
    (h : Runs env nanoS key tr d) {e : Event} {S : SignSess} {en : Entry}
    (hS : (know tr).sign = some S) (hen : signEntry (d.observe env nanoS e) = some en)
    (hno : ¬ OpensSign (d.observe env nanoS e)) :
    (∃ x sub data p, en = .cmd sub data ∧ d.ctx = .sign x ∧ x.approved = true ∧
      signOp env key x.p sub data = .ok p ∧ 0x10 ≤ sub ∧ sub ≤ 0x1A ∧ ¬ AsksOutput d ∧
      data.length ≤ 255 ∧ (∃ p2 rnd, e = .apdu 0xE0 0x21 sub p2 data rnd)) ∨
    (∃ x, en = .approve ∧ d.ctx = .sign x ∧ x.approved = true ∧ AsksOutput d ∧ e = .both ∧
      Approval (d.observe env nanoS e) ∧ d.asks = some .confirmOutput) := by
  have hI := h.inv
  obtain ⟨d', r, hst, hT⟩ := step_cases env nanoS d e
  rw [observe_eq hst] at hen hno ⊢
  have quiet : d.busy = false → ¬ AsksOutput d := by
    intro hb ⟨s, hs, _⟩
    have := hI.busy
    rw [hb, hs] at this
    simp at this
  have title : ∀ {s : Screen} {c : Callback}, d.screen = some s → s.cb = c → AsksFor c d.asks := by
    intro s c hs hc
    rw [← hc]; exact hI.asks hs
  cases hT with
  | neutral hn =>
    simp only [signEntry, status] at hen
    have := (neutral_ghost hn).1
    rw [if_neg (by rintro ⟨_, h⟩; exact this h)] at hen
    simp at hen
  | abort hb hsw hi =>
    simp only [signEntry, status] at hen
    rw [if_neg (by rintro ⟨_, h⟩; exact hsw h)] at hen
    simp at hen
  | signOk hb hl hsub hc hx hs ha ho hn =>
    left
    rw [hI.key] at ho
    simp only [signEntry, status, Sw.ok, and_self, if_true, Option.some.injEq] at hen
    exact ⟨_, _, _, _, hen.symm, hx, ha, ho, hsub.1, hsub.2, quiet hb, hl, _, _, rfl⟩
  | @signShow sub p2 data rnd x p t o hb hl hsub hc hx hs ha ho hn hu hout =>
    left
    rw [hI.key] at ho
    have h1 : (0x10 : UInt8) ≤ sub := by
      have := hsub.1
      rw [UInt8.le_iff_toNat_le] at this ⊢
      have h2 : (0x10 : UInt8).toNat ≤ (0x16 : UInt8).toNat := by decide
      omega
    have hne : ¬ sub = 0x01 := by
      rintro rfl; exact absurd hsub.1 (by decide)
    have hne' : ¬ sub = 0x20 := by
      rintro rfl; exact absurd hsub.2 (by decide)
    simp only [signEntry] at hen
    rw [if_pos ⟨trivial, hne, hne'⟩] at hen
    simp only [Option.some.injEq] at hen
    exact ⟨_, _, _, _, hen.symm, hx, ha, ho, h1, hsub.2, quiet hb, hl, _, _, rfl⟩
  | signAsk hb h2 hp hi hs hf => simp [signEntry] at hen
  | signConfirm hb hl hc hx hs ha hp => simp [signEntry] at hen
  | @okSignOutput s x t o last hs h1 hcb hx hu hout hl =>
    right
    have hq := title hs hcb
    simp only [AsksFor] at hq
    simp only [signEntry, status, Sw.ok, hq, and_self, if_true, Option.some.injEq] at hen
    obtain ⟨a, f0, p1, p2, p3⟩ := hI.asking _ hs
    rw [hcb] at p3
    obtain ⟨_, _, _, _, y, S', t', o', q1, q2, q3, _⟩ := p3
    rw [hx] at q1
    cases q1
    refine ⟨_, hen.symm, hx, q3.approved, ⟨s, hs, hcb⟩, rfl, ⟨rfl, ?_⟩, hq⟩
    simp only [Device.here, hs, Option.map_some, Option.some.injEq]
    exact h1
  | okEpk hs h1 hcb hx =>
    have := title hs hcb
    simp only [AsksFor] at this
    simp [signEntry, this] at hen
  | okDa hs h1 hcb hx =>
    have := title hs hcb
    simp only [AsksFor] at this
    rcases this with this | this <;> simp [signEntry, this] at hen
  | okAttest hs h1 hcb hx =>
    have := title hs hcb
    simp only [AsksFor] at this
    simp [signEntry, this] at hen
  | okSignInit hs h1 hcb hx hu =>
    have := title hs hcb
    simp only [AsksFor] at this
    simp [signEntry, this] at hen
  | okSignTx hs h1 hcb hx hsig =>
    have := title hs hcb
    simp only [AsksFor] at this
    simp [signEntry, this] at hen
  | failSignTx hs h1 hcb hx hsig =>
    have := title hs hcb
    simp only [AsksFor] at this
    simp [signEntry, status, this] at hen
  | reject hs h1 => simp [signEntry, status, Sw.deny] at hen
  | moveErr he hs hm hk =>
    rcases he with ⟨rfl, _⟩ | ⟨rfl, _⟩ <;> simp [signEntry, status] at hen
  | moveUb he => rcases he with ⟨rfl, _⟩ | ⟨rfl, _⟩ <;> simp [signEntry] at hen
  | move he => rcases he with ⟨rfl, _⟩ | ⟨rfl, _⟩ <;> simp [signEntry] at hen
  | idle he => rcases he with rfl | rfl | rfl <;> simp [signEntry] at hen
  | attestHang => simp [signEntry] at hen
  | signHang => simp [signEntry] at hen
  | _ => simp [signEntry, status] at hen

/-- An accepted command of a session. -/
theorem cmd_accepted {env : Env} {nanoS : Bool} {key : Bytes} {tr : List Obs} {d : Device}
    (h : Runs env nanoS key tr d) {S : SignSess} (hS : (know tr).sign = some S)
    {l1 l2 : List Entry} {sub : UInt8} {data : Bytes} (hl : S.log = l1 ++ .cmd sub data :: l2) :
    ∃ tr2 d1 tr1 x p p2 rnd, tr = tr2 ++ d1.observe env nanoS (.apdu 0xE0 0x21 sub p2 data rnd) :: tr1 ∧
      Runs env nanoS key tr1 d1 ∧ d1.ctx = .sign x ∧ x.approved = true ∧
      (know tr1).sign = some { S with log := l1 } ∧
      SignRel env False { S with log := l1 } x ∧
      signOp env key x.p sub data = .ok p ∧ 0x10 ≤ sub ∧ sub ≤ 0x1A ∧ data.length ≤ 255 := by
  obtain ⟨tr2, o, tr1, rfl, h1, h2, h3⟩ := log_entry hS hl
  obtain ⟨d1, e, hd1, rfl⟩ := h.split
  rcases entry_of hd1 h2 h1 h3 with ⟨x, sub', data', p, h4, hx, ha, ho, hs1, hs2, hno, hl2, p2, rnd, rfl⟩ |
    ⟨x, h4, _⟩
  · cases h4
    have hr := sign_rel hd1 hx ha h2
    rw [eq_false hno] at hr
    exact ⟨tr2, d1, tr1, x, p, p2, rnd, rfl, hd1, hx, ha, h2, hr, ho, hs1, hs2, hl2⟩
  · simp at h4

/-- An approved output of a session. -/
theorem approve_accepted {env : Env} {nanoS : Bool} {key : Bytes} {tr : List Obs} {d : Device}
    (h : Runs env nanoS key tr d) {S : SignSess} (hS : (know tr).sign = some S)
    {l1 l2 : List Entry} (hl : S.log = l1 ++ .approve :: l2) :
    ∃ tr2 d1 tr1 x, tr = tr2 ++ d1.observe env nanoS .both :: tr1 ∧
      Runs env nanoS key tr1 d1 ∧ d1.ctx = .sign x ∧ x.approved = true ∧
      (know tr1).sign = some { S with log := l1 } ∧
      SignRel env True { S with log := l1 } x ∧
      Approval (d1.observe env nanoS .both) ∧ d1.asks = some .confirmOutput := by
  obtain ⟨tr2, o, tr1, rfl, h1, h2, h3⟩ := log_entry hS hl
  obtain ⟨d1, e, hd1, rfl⟩ := h.split
  rcases entry_of hd1 h2 h1 h3 with ⟨x, sub', data', p, h4, _⟩ | ⟨x, h4, hx, ha, hw, rfl, hap, hq⟩
  · simp at h4
  · have hr := sign_rel hd1 hx ha h2
    rw [eq_true hw] at hr
    exact ⟨tr2, d1, tr1, x, rfl, hd1, hx, ha, h2, hr, hap, hq⟩

/-- A command between start and confirmation that is not refused. -/
theorem accepted_op {env : Env} {nanoS : Bool} {key : Bytes} {tr : List Obs} {d : Device}
    (h : Runs env nanoS key tr d) {cla sub p2 : UInt8} {data out : Bytes} {rnd : Rnd}
    (h1 : 0x10 ≤ sub) (h2 : sub ≤ 0x1A)
    (hr : (d.step env nanoS (.apdu cla 0x21 sub p2 data rnd)).2 = .sw 0x9000 out ∨
      (d.step env nanoS (.apdu cla 0x21 sub p2 data rnd)).2 = .wait) :
    ∃ S x p, (know tr).sign = some S ∧ d.ctx = .sign x ∧ x.approved = true ∧ SignRel env False S x ∧
      signOp env key x.p sub data = .ok p ∧ data.length ≤ 255 ∧ p2 = S.id ∧
      (know (d.observe env nanoS (.apdu cla 0x21 sub p2 data rnd) :: tr)).sign =
        some { S with log := S.log ++ [.cmd sub data] } := by
  have hI := h.inv
  have hne1 : ¬ sub = 0x01 := by rintro rfl; exact absurd h1 (by decide)
  have hne2 : ¬ sub = 0x20 := by rintro rfl; exact absurd h2 (by decide)
  generalize he : Event.apdu cla 0x21 sub p2 data rnd = e at hr
  obtain ⟨d', r, hst, hT⟩ := step_cases env nanoS d e
  rw [hst] at hr
  simp only at hr
  have fin : ∀ {x : SignCtx} {p : P2pk}, d.busy = false → d.command = .signTransaction →
      d.ctx = .sign x → x.approved = true → p2 = x.session → signOp env d.sessionKey x.p sub data = .ok p →
      data.length ≤ 255 → e = .apdu cla 0x21 sub p2 data rnd →
      (r = .wait ∨ r = .sw 0x9000 []) →
      ∃ S x p, (know tr).sign = some S ∧ d.ctx = .sign x ∧ x.approved = true ∧
      SignRel env False S x ∧ signOp env key x.p sub data = .ok p ∧ data.length ≤ 255 ∧ p2 = S.id ∧
      (know (d.observe env nanoS e :: tr)).sign =
        some { S with log := S.log ++ [.cmd sub data] } := by
    intro x p hb hc hx ha hs ho hl hee hrr
    have hsc := idle_of hI hb
    have hid := hI.idle hsc
    unfold Idle at hid
    rw [hc] at hid
    obtain ⟨y, S, hy, hS, hB⟩ := hid
    rw [hx] at hy
    cases hy
    rw [hI.key] at ho
    have hrel := sign_rel h hx ha hS
    have hno : ¬ AsksOutput d := by rintro ⟨s, hs, _⟩; rw [hsc] at hs; cases hs
    rw [eq_false hno] at hrel
    refine ⟨S, x, p, hS, hx, ha, hrel, ho, hl, by rw [hB.id, hs], ?_⟩
    show ((know tr).next _).sign = _
    rw [observe_eq hst, hee]
    rcases hrr with rfl | rfl
    · simp [Ghost.next, Ghost.onWait, Ghost.log, hne1, hne2, hS]
    · simp [Ghost.next, Ghost.onOk, Ghost.log, hS]
  cases hT with
  | signOk hb hl hsub hc hx hs ha ho hn =>
    cases he
    exact fin hb hc hx ha hs ho hl rfl (.inr rfl)
  | signShow hb hl hsub hc hx hs ha ho hn hu hout =>
    cases he
    exact fin hb hc hx ha hs ho hl rfl (.inl rfl)
  | neutral hn =>
    exfalso
    have := (neutral_ghost hn).1
    rcases hr with hr | hr
    · simp only [status, Reply.sw.injEq] at hr; exact this hr.1
    · simp [status] at hr
  | abort hb hsw hi =>
    exfalso
    rcases hr with hr | hr
    · simp only [status, Reply.sw.injEq] at hr; exact hsw hr.1
    · simp [status] at hr
  | idle hx => exfalso; subst he; simp at hx
  | move hx => exfalso; subst he; simp at hx
  | moveErr hx => exfalso; subst he; simp at hx
  | _ => first | (cases he; done) | (rcases hr with hr | hr <;> cases hr; done) |
      (cases he; exact absurd rfl hne1) | (cases he; exact absurd rfl hne2)

end Ergo
