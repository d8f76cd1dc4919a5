import Verif.Spec.Recovery
import Verif.Props.MacFaults
import Verif.Props.Wallet
import Verif.Props.Refuse
import Verif.Proof.Demo
/-! # C89: failures are temporary -/
namespace Ergo
open Spec

theorem runs_same {env : Env} {nanoS : Bool} {key : Bytes} : ∀ {tr : List Obs} {d d' : Device},
    Runs env nanoS key tr d → Runs env nanoS key tr d' → d = d'
  | [], _, _, h, h' => by cases h; cases h'; rfl
  | _ :: _, _, _, h, h' => by
    generalize ht : _ :: _ = t at h h'
    cases h with
    | boot => exact absurd ht (by simp)
    | step e h hh hu =>
      injection ht with h1 h2
      subst h1 h2
      generalize ht : Device.observe .. :: _ = t at h'
      cases h' with
      | boot => exact absurd ht (by simp)
      | step e' h' hh' hu' =>
        injection ht with h3 h4
        subst h4
        have := runs_same h h'
        subst this
        have : e = e' := congrArg Obs.event h3
        subst this
        rfl

theorem step_working {env : Env} {nanoS : Bool} {key : Bytes} {tr : List Obs} {d : Device}
    (h : Runs env nanoS key tr d) (e : Event) :
    (d.stepF env (fun _ => true) nanoS e 0).1 = d.step env nanoS e :=
  (Device.yields_step (ok := fun _ => true) (env := env) (idle_of h.inv) nanoS e).works 0 (fun _ _ _ => rfl)

theorem works_of_runs {env : Env} {nanoS : Bool} {key : Bytes} {tr : List Obs} {d : Device}
    (h : Runs env nanoS key tr d) : ∀ (l : List Obs) {d' : Device}, Runs env nanoS key (l ++ tr) d' →
    Works env nanoS d l d'
  | [], _, h' => by
    rw [runs_same h' h]
    exact .start
  | o :: l, _, h' => by
    generalize ht : o :: l ++ tr = t at h'
    cases h' with
    | boot => exact absurd ht (by simp)
    | @step t d1 e h' hh hu =>
      injection ht with h1 h2
      subst h1
      subst h2
      have hw := works_of_runs h l h'
      have he := step_working h' e
      have := hw.step e (by rw [he]; exact hh) (by rw [he]; exact hu)
      simp only [observeCalls, he] at this
      exact this

/-- C89: whatever failed before, and if nothing is asked and the calls work from now on, every
transaction within the limits can be signed (C55). -/
theorem C89_signed {env : Env} (hwf : env.WF) {nanoS : Bool} {key : Bytes} {tr : List Obs} {d : Device}
    (h : MacRuns env nanoS key tr d)
    (ha : d.asks = none) (t : WalletTx) (ht : t.Within env) (a : Request) (hi : a.ins = 0x21)
    (hp1 : a.p1 = 1) (hp2 : a.p2 = 1 ∨ a.p2 = 2) (hl : a.data.length ≤ 255) (hg : a.Good env)
    (hsh : a.Showable) (hid : a.IdDrawn) (rnd : Rnd) (hid2 : ∃ i ∈ rnd.u8s, i ≠ 0) :
    ∃ l0 id l1 l2 l3 r d' secret j pk w,
      (∀ s ∈ t.inputs, ∀ i, i < framesFor s.coin.tokens.length →
        SentFrame l0 (s.coin.frame env key i)) ∧
      Starting a id l1 ∧ ServedAll id (t.cmds env key rnd) l2 ∧
      Approving .approveSigning (.apdu 0xE0 0x21 0x20 id [] rnd) r l3 ∧
      Works env nanoS d (l3 ++ l2 ++ l1 ++ l0) d' ∧ d'.asks = none ∧
      env.genPrivate a.path = some secret ∧ env.mulG secret = some pk ∧
      env.mulG (a.rnd.keys j) = some w ∧
      let c := (env.blake (commitBytes pk w ++ t.bytes env)).take 24
      (be c ≠ 0 ∧ (∃ z, r = .sw 0x9000 (c ++ z) ∧ z.length = 32 ∧
        be z = (be (a.rnd.keys j) + be c * be secret) % groupOrder) ∨
      be c = 0 ∧ r = .sw 0xE017 []) := by
  obtain ⟨tr1, h1, _⟩ := C87_run_partial hwf h
  obtain ⟨tr2, h2, _, _⟩ := C75_mirror h1
  obtain ⟨l0, id, l1, l2, l3, r, d', secret, j, pk, w, k1, k2, k3, k4, k5, k⟩ :=
    C55_signed hwf h2 ha t ht a hi hp1 hp2 hl hg hsh hid rnd hid2
  exact ⟨l0, id, l1, l2, l3, r, d', secret, j, pk, w, k1, k2, k3, k4,
    works_of_runs h2 _ (by rw [← List.append_assoc] at k5; exact k5), k⟩

/-- Commands received while a question is on display make no call. -/
theorem busy_calls {env : Env} {ok : Nat → Bool} {nanoS : Bool} {d : Device} (hb : d.busy = true)
    (cla ins p1 p2 : UInt8) (data : Bytes) (rnd : Rnd) :
    (d.stepF env ok nanoS (.apdu cla ins p1 p2 data rnd) 0).1.1 = d := by
  simp only [Device.stepF, Device.dispatchF, Device.extPubKeyF, Device.deriveAddressF,
    Device.attestInputF, Device.signTransactionF, hb, if_true]
  split_ifs <;> rfl

/-- A refusal makes no call. -/
theorem reject_calls {env : Env} {ok : Nat → Bool} {nanoS : Bool} {d : Device}
    (hh : d.here = some .reject) : (d.stepF env ok nanoS .both 0).1 = d.step env nanoS .both := by
  unfold Device.here at hh
  cases hs : d.screen with
  | none => rw [hs] at hh; simp at hh
  | some s =>
    rw [hs] at hh
    simp only [Option.map_some, Option.some.injEq] at hh
    simp only [Device.stepF, Device.step, hs, Device.bothF, Device.both, hh]
    unfold Device.actF
    cases hc : s.cb <;> cases hx : d.ctx <;>
      simp only [Device.actSignTxF, Device.actSignTx, Device.act, hx, Calls.ret, if_false, Bool.false_eq_true]

theorem blank_step {env : Env} {nanoS : Bool} {d d' : Device} {b : Event} (hbt : b = .left ∨ b = .right)
    (hs : d.step env nanoS b = (d', .wait)) : blank d' = blank d := by
  have hk := step_sessionKey (env := env) nanoS d b
  have hT := step_cases env nanoS d b
  rw [hs] at hT hk
  obtain ⟨e1, r1, he, hT⟩ := hT
  cases he
  have ha : d'.connectedApp = d.connectedApp := by
    generalize hw : Reply.wait = w at hT
    cases hT <;> first | rfl | (simp at hbt; done) | (simp [status] at hw; done)
  simp only [blank, ha]
  rw [show d'.sessionKey = d.sessionKey from hk]

theorem watch_run {env : Env} {nanoS : Bool} : ∀ (es : List Event) (tr : List Obs) (d : Device),
    (d.watch env nanoS tr es).2 = (d.run env nanoS es).1
  | [], _, _ => rfl
  | e :: es, tr, d => by simp only [Device.watch, Device.run, watch_run es]

/-- Presses with failing calls, and with commands in between, lead to the same place, or a call fails
and the question is answered with an error. -/
theorem Presses.trouble {env : Env} {nanoS : Bool} {key : Bytes} {d' : Device} : ∀ (es : Trouble)
    (bs : List Event) (tr : List Obs) (d : Device), Runs env nanoS key tr d → Presses env nanoS d bs d' →
    (es.map (·.1)).filter isPress = bs →
    trouble env nanoS d es = d' ∨
      ∃ es1 e g ok es2 code, es = es1 ++ (e, g, ok) :: es2 ∧
        (code = 0xE00F ∨ code = 0xE013 ∨ code = 0xE016 ∨ code = 0xE017) ∧
        ((Spec.trouble env nanoS d es1).stepF (garbled env g) ok nanoS e 0).1 = (blank d, .sw code [])
  | [], bs, tr, d, _, h, hf => by
    subst hf
    cases h
    exact .inl rfl
  | (e, g, ok) :: es, bs, tr, d, hr, h, hf => by
    rw [List.map_cons] at hf
    by_cases he : isPress e = true
    · rw [List.filter_cons_of_pos he] at hf
      subst hf
      cases h with
      | @cons _ d1 _ _ _ hb hbt hs hp =>
        have hsame : d.step (garbled env g) nanoS e = d.step env nanoS e :=
          garbled_same nanoS g d (by rcases hbt with rfl | rfl <;> simp)
            (by rcases hbt with rfl | rfl <;> simp)
        have hy := Device.yields_step (ok := ok) (env := garbled env g) (idle_of hr.inv) nanoS e
        by_cases hw : ∀ j, 0 ≤ j → j < (d.stepF (garbled env g) ok nanoS e 0).2 → ok j = true
        · have hq := hy.works 0 hw
          rw [hsame, hs] at hq
          have hr1 := hr.step e (by rw [hs]; simp) (by rw [hs]; simp)
          rw [hs] at hr1
          rcases Presses.trouble es _ _ _ hr1 hp rfl with h1 | ⟨es1, e1, g1, ok1, es2, code, h1, h2, h3⟩
          · left
            simp only [Spec.trouble, hq, h1]
          · right
            refine ⟨(e, g, ok) :: es1, e1, g1, ok1, es2, code, by rw [h1]; rfl, h2, ?_⟩
            simp only [Spec.trouble, hq, h3, blank_step hbt hs]
        · obtain ⟨j, hj⟩ := Classical.not_forall.1 hw
          obtain ⟨_, hj⟩ := Classical.not_imp.1 hj
          obtain ⟨hj, hk⟩ := Classical.not_imp.1 hj
          have hf := hy.fails 0 j (Nat.zero_le _) hj (by simpa using hk)
          right
          rcases hf with ⟨code, hc, he⟩ | ⟨_, _, _, _, rfl, _⟩ | ⟨_, _, _, _, rfl, _⟩
          · exact ⟨[], e, g, ok, es, code, rfl, hc, he⟩
          · simp at hbt
          · simp at hbt
    · rw [List.filter_cons_of_neg he] at hf
      cases e with
      | apdu cla ins p1 p2 data rnd =>
        have h1 := busy_calls (env := garbled env g) (ok := ok) (nanoS := nanoS) h.busy cla ins p1 p2 data rnd
        rcases Presses.trouble es _ _ _ hr h hf with h2 | ⟨es1, e1, g1, ok1, es2, code, h2, h3, h4⟩
        · left
          simp only [Spec.trouble, h1, h2]
        · right
          refine ⟨_ :: es1, e1, g1, ok1, es2, code, by rw [h2]; rfl, h3, ?_⟩
          simp only [Spec.trouble, h1, h4]
      | _ => simp [isPress] at he

/-- C89: whatever failed before and whatever fails now, a question can be refused: after at most 44
presses, known in advance, pressing both buttons answers 0x6985 and leaves nothing but the application
token and the session key — unless a call fails while a page is being drawn, and then the question has
been answered with an error and nothing more is left either. -/
theorem C89_refuse {env : Env} (hwf : env.WF) {nanoS : Bool} {key : Bytes} {tr : List Obs} {d : Device}
    (h : MacRuns env nanoS key tr d) (hq : d.asks.isSome) :
    ∃ bs : List Event, bs.length ≤ 44 ∧ (∀ b ∈ bs, b = .left ∨ b = .right) ∧
      ∀ es : Trouble, (es.map (·.1)).filter isPress = bs →
        (∀ g ok, ((trouble env nanoS d es).stepF (garbled env g) ok nanoS .both 0).1 =
          (⟨d.connectedApp, key, .none, false, .zeroed, none⟩, .sw 0x6985 [])) ∨
        ∃ es1 e g ok es2 code, es = es1 ++ (e, g, ok) :: es2 ∧
          (code = 0xE00F ∨ code = 0xE013 ∨ code = 0xE016 ∨ code = 0xE017) ∧
          ((trouble env nanoS d es1).stepF (garbled env g) ok nanoS e 0).1 =
            (⟨d.connectedApp, key, .none, false, .zeroed, none⟩, .sw code []) := by
  obtain ⟨tr1, h1, _⟩ := C87_run_partial hwf h
  obtain ⟨tr2, h2, _, _⟩ := C75_mirror h1
  have hq' := hq
  rw [asks_screen h2] at hq'
  obtain ⟨s, hs⟩ := Option.isSome_iff_exists.1 hq'
  obtain ⟨bs, d', k1, k2, k3⟩ := h2.wayOut hs
  have hkey : d.sessionKey = key := h2.inv.key
  refine ⟨bs, k1, k2.buttons, fun es he => ?_⟩
  rcases k2.trouble es bs tr2 d h2 he with h3 | ⟨es1, e, g, ok, es2, code, h3, h4, h5⟩
  · left
    intro g ok
    rw [h3, reject_calls k3, garbled_same nanoS g d' (by simp) (by simp)]
    obtain ⟨e1, e2⟩ := k2.run bs bs d (List.filter_eq_self.2 fun b hb => by
      rcases k2.buttons b hb with rfl | rfl <;> rfl)
    have hr := runs_watch bs tr2 d h2 e2
    rw [watch_run, e1] at hr
    rw [C23_reject hr k3, k2.app]
  · right
    refine ⟨es1, e, g, ok, es2, code, h3, h4, ?_⟩
    rw [h5, blank, hkey]

/-- A question about an output: with a failing checksum the first press to the right answers 0xE016;
otherwise one press to the left and both buttons refuse, whatever fails at the refusal. -/
example : let d := after (demoOpen ++ demoTx.take 4)
    d.asks = some .confirmOutput ∧
    (d.stepF toyEnv (fun _ => false) false .right 0).1.2 = .sw 0xE016 [] ∧
    ((trouble toyEnv false d [(.left, none, fun _ => true)]).stepF toyEnv (fun _ => false) false .both 0).1.2 =
      .sw 0x6985 [] := by
  decide +kernel

/-- The session breaks off when the checksum fails; the whole session again, with working calls, ends with
a signature of 56 bytes. -/
example : ∃ d tr l d', MacRuns toyEnv false [1] tr d ∧ (tr.map (·.reply)).head? = some (.sw 0xE016 []) ∧
    Works toyEnv false d l d' ∧
    ((l.head?.map (·.reply)).casesOn none
      (fun r => r.casesOn none (fun c b => some (c, b.length)) none none) : Option (UInt16 × Nat)) =
      some (0x9000, 56) := by
  have h := macRuns_watch (env := toyEnv) (nanoS := false) (key := [1])
    ((demoOpen ++ demoTx.take 4).map (·, none)) [] _ .boot (by decide +kernel) (by decide +kernel)
  have h1 := h.step none (by simp) (fun _ => false) .right (by decide +kernel) (by decide +kernel)
  have hw : ∀ (es : List Event) (d0 : Device) (l : List Obs) (d : Device), Works toyEnv false d0 l d →
      (repliesCalls toyEnv false d (es.map (·, none))).all (fun r => r != .hang && r != .ub) = true →
      Works toyEnv false d0 (watchCalls toyEnv false l d (es.map (·, none))).1
        (watchCalls toyEnv false l d (es.map (·, none))).2 := by
    intro es
    induction es with
    | nil => exact fun _ _ _ h _ => h
    | cons e es ih =>
      intro d0 l d h hr
      simp only [List.map_cons, repliesCalls, List.all_cons, Bool.and_eq_true, bne_iff_ne, ne_eq,
        reduceCtorEq, not_false_eq_true, decide_true] at hr
      have := ih d0 _ _ (h.step e hr.1.1 hr.1.2) hr.2
      simpa only [List.map_cons, watchCalls, ne_eq, reduceCtorEq, not_false_eq_true, decide_true] using this
  exact ⟨_, _, _, _, h1, by decide +kernel,
    hw (demoOpen ++ demoTx ++ demoConfirm) _ _ _ .start (by decide +kernel), by decide +kernel⟩

end Ergo
