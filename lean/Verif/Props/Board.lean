import Verif.Proof.Board
import Verif.Spec.Board
import Verif.Proof.Toy
/-!
# C68: whatever is pressed at a question, it can still be approved or refused
-/
namespace Ergo
open Spec

theorem Matches.here {env : Env} {nanoS : Bool} {key : Bytes} {tr : List Obs} {d : Device}
    (h : Runs env nanoS key tr d) {b : Board} (hm : Matches b d) : b.here = d.here.map .screen := by
  unfold Matches at hm
  unfold Board.here Device.here
  cases hs : d.screen with
  | none => simp only [hs] at hm; subst hm; rfl
  | some s =>
    simp only [hs] at hm
    obtain ⟨a, f0, _, hok, _⟩ := h.inv.asking _ hs
    simp [hm.1, ofFlow_here hok.idx]

theorem Matches.dev {b : Board} {d : Device} (hm : Matches b d) :
    b.dev = { d with screen := b.dev.screen } ∧ b.dev.asks = d.asks := by
  unfold Matches at hm
  cases hs : d.screen with
  | none => simp only [hs] at hm; subst hm; exact ⟨rfl, rfl⟩
  | some s =>
    simp only [hs] at hm
    obtain ⟨_, f, h1, h2⟩ := hm
    rw [h2]
    exact ⟨rfl, by simp [Device.asks, hs, h1]⟩

/-- The page "Path" belongs to the questions about exports and addresses. -/
theorem path_page {env : Env} {nanoS : Bool} {key : Bytes} {tr : List Obs} {d : Device}
    (h : Runs env nanoS key tr d) {t : Shown} (hh : d.here = some (.info ⟨.path, t⟩)) :
    ∃ q, d.asks = some q ∧ showsPath q := by
  unfold Device.here at hh
  cases hs : d.screen with
  | none => rw [hs] at hh; simp at hh
  | some s =>
    rw [hs] at hh
    simp only [Option.map_some, Option.some.injEq] at hh
    obtain ⟨a, f0, _, hok, ha⟩ := h.inv.asking _ hs
    have hmem : (FlowStep.info ⟨.path, t⟩) ∈ f0.steps := by
      rw [← hh, ← hok.steps]
      unfold Flow.here
      rw [List.getD_eq_getElem?_getD, List.getElem?_eq_getElem hok.idx]
      exact List.getElem_mem _
    have hq : d.asks = f0.title := by simp only [Device.asks, hs, Flow.title, hok.steps]
    rw [hq]
    cases hc : s.cb <;> rw [hc] at ha <;> simp only [Asking] at ha
    · obtain ⟨_, _, _, _, _, _, _, _, _, _, _, _, rfl, _⟩ := ha
      exact ⟨.extPubKeyExport, rfl, .inl rfl⟩
    · obtain ⟨_, _, _, _, _, _, _, _, _, _, _, _, _, _, _, _, _, ha⟩ := ha
      rcases ha with ⟨_, rfl, _⟩ | ⟨_, _, _, _, rfl, _⟩
      · exact ⟨.confirmSendAddress, rfl, .inr (.inr rfl)⟩
      · exact ⟨.confirmAddress, rfl, .inr (.inl rfl)⟩
    · obtain ⟨_, _, _, _, x, _, _, _, _, rfl, _⟩ := ha
      by_cases h0 : x.token = 0 <;> simp [Flow.static, attestSteps, appIdPage, h0] at hmem
    · obtain ⟨_, _, _, _, _, _, token, _, _, _, _, _, _, _, _, rfl, _⟩ := ha
      by_cases h0 : isKnown d.connectedApp token <;>
        simp [Flow.static, signInitSteps, appIdPage, h0] at hmem
    · obtain ⟨_, _, _, _, _, _, _, _, _, _, _, _, _, rfl⟩ := ha
      simp [Flow.dynamic] at hmem
    · obtain ⟨_, _, _, _, _, _, _, _, _, _, rfl⟩ := ha
      simp [Flow.dynamic] at hmem

/-- The state after both buttons on the page "Path". -/
theorem press_stuck {env : Env} {nanoS : Bool} {key : Bytes} {tr : List Obs} {d : Device}
    (h : Runs env nanoS key tr d) {b : Board} (hm : Matches b d) {t : Shown}
    (hh : d.here = some (.info ⟨.path, t⟩)) :
    (b.step env nanoS .both).2 = .wait ∧ (b.step env nanoS .both).1.dev = b.dev ∧ b.dev.busy = true ∧
      ∃ n c, (b.step env nanoS .both).1.eng = some ⟨[.check .pathNoCallback], 0, n, c⟩ ∧
        ∃ s, b.dev.screen = some s := by
  unfold Device.here at hh
  cases hs : d.screen with
  | none => rw [hs] at hh; simp at hh
  | some s =>
    rw [hs] at hh
    simp only [Option.map_some, Option.some.injEq] at hh
    have hb : d.busy = true := by rw [h.inv.busy, hs]; rfl
    obtain ⟨a, f0, _, hok, _⟩ := h.inv.asking _ hs
    simp only [Matches, hs] at hm
    obtain ⟨m1, f, _, m2⟩ := hm
    have hbs : b.dev.screen = some ⟨f, s.cb⟩ := by rw [m2]
    have hv : s.flow.here.validation = some .pathNoCallback := by rw [hh]; rfl
    simp only [Board.step, m1, hbs, validate_here _ hok, hv, Board.after]
    exact ⟨trivial, trivial, by rw [m2]; exact hb, _, _, rfl, _, rfl⟩

theorem stuck_step {env : Env} {nanoS : Bool} {b : Board} {n : Nat} {c : Option Nat} {s : Screen}
    (hg : b.eng = some ⟨[.check .pathNoCallback], 0, n, c⟩) (hs : b.dev.screen = some s)
    (hb : b.dev.busy = true) (e : Event) : (b.step env nanoS e).1 = b ∧
      ((e = .left ∨ e = .right ∨ e = .both) → (b.step env nanoS e).2 = .wait) := by
  obtain ⟨d, g⟩ := b
  simp only at hg hs hb
  subst hg
  cases e with
  | apdu cla ins p1 p2 data rnd =>
    refine ⟨?_, by simp⟩
    simp only [Board.step, (busy_apdu (env := env) (nanoS := nanoS) hb cla ins p1 p2 data rnd).1]
  | left => simp [Board.step, hs, Engine.prev, Engine.before, Board.after]
  | right => simp [Board.step, hs, Engine.next, Engine.after, Board.after]
  | both => simp [Board.step, hs, Engine.validate, Engine.here, Board.after]

theorem stuck_run {env : Env} {nanoS : Bool} {b : Board} {n : Nat} {c : Option Nat} {s : Screen}
    (hg : b.eng = some ⟨[.check .pathNoCallback], 0, n, c⟩) (hs : b.dev.screen = some s)
    (hb : b.dev.busy = true) : ∀ es, (b.run env nanoS es).1 = b
  | [] => rfl
  | e :: es => by
    simp only [Board.run]
    rw [(stuck_step hg hs hb e).1]
    exact stuck_run hg hs hb es

theorem board_same {env : Env} {nanoS : Bool} {key : Bytes} {tr : List BoardObs} {b : Board}
    (h : BoardRuns env nanoS key tr b) (hp : ∀ o ∈ tr, ¬ PathPressed o) :
    ∃ tr' d, Runs env nanoS key tr' d ∧ tr = tr'.map boardView ∧ Matches b d := by
  induction h with
  | boot => exact ⟨[], _, .boot, rfl, rfl⟩
  | @step tr b e h hh hu ih =>
    obtain ⟨tr', d, hr, rfl, hm⟩ := ih (fun o ho => hp o (List.mem_cons_of_mem _ ho))
    have h1 := hm.here hr
    have hpp : ¬ PathPress d.here e := by
      rintro ⟨rfl, t, ht⟩
      exact hp _ List.mem_cons_self ⟨rfl, t, by rw [h1, ht]; rfl⟩
    obtain ⟨h2, h3⟩ := hm.step hr e hpp
    rw [h2] at hh hu
    refine ⟨_, _, .step e hr hh hu, ?_, h3 hu⟩
    simp [boardView, Device.observe, h1, h2]

theorem board_back {env : Env} {nanoS : Bool} {key : Bytes} {tr : List Obs} {d : Device}
    (h : Runs env nanoS key tr d) (hp : ∀ o ∈ tr, ¬ PathPressed (boardView o)) :
    ∃ b, BoardRuns env nanoS key (tr.map boardView) b ∧ Matches b d := by
  induction h with
  | boot => exact ⟨_, .boot, rfl⟩
  | @step tr d e h hh hu ih =>
    obtain ⟨b, hr, hm⟩ := ih (fun o ho => hp o (List.mem_cons_of_mem _ ho))
    have h1 := hm.here h
    have hpp : ¬ PathPress d.here e := by
      rintro ⟨rfl, t, ht⟩
      exact hp _ List.mem_cons_self ⟨rfl, t, by simp [boardView, Device.observe, ht]⟩
    obtain ⟨h2, h3⟩ := hm.step h e hpp
    refine ⟨_, ?_, h3 hu⟩
    have := BoardRuns.step e hr (by rw [h2]; exact hh) (by rw [h2]; exact hu)
    rw [h1, h2] at this
    simpa [boardView, Device.observe] using this

/-- C68 (what holds): executions of the device with the engine in which both buttons are never pressed
on a page "Path" are those of the device of Model/Device, with the same step on display at every event and
the same replies, and lead to the same state. -/
theorem C68_same {env : Env} {nanoS : Bool} {key : Bytes} {tr : List BoardObs} {b : Board}
    (h : BoardRuns env nanoS key tr b) (hp : ∀ o ∈ tr, ¬ PathPressed o) :
    ∃ tr' d, Runs env nanoS key tr' d ∧ tr = tr'.map boardView ∧ b.here = d.here.map .screen ∧
      b.dev = { d with screen := b.dev.screen } ∧ b.dev.asks = d.asks := by
  obtain ⟨tr', d, h1, h2, h3⟩ := board_same h hp
  exact ⟨tr', d, h1, h2, h3.here h1, h3.dev⟩

/-- C68 (what holds): conversely every execution of the device of Model/Device without such a press is
one of the device with the engine. -/
theorem C68_back {env : Env} {nanoS : Bool} {key : Bytes} {tr : List Obs} {d : Device}
    (h : Runs env nanoS key tr d) (hp : ∀ o ∈ tr, ¬ PathPressed (boardView o)) :
    ∃ b, BoardRuns env nanoS key (tr.map boardView) b ∧ b.here = d.here.map .screen ∧
      b.dev = { d with screen := b.dev.screen } ∧ b.dev.asks = d.asks := by
  obtain ⟨b, h1, h2⟩ := board_back h hp
  exact ⟨b, h1, h2.here h, h2.dev⟩

/-- Every execution ends either in a state of Model/Device or, if both buttons were pressed on a page
"Path", in the validation flow of that page. -/
theorem board_cases {env : Env} {nanoS : Bool} {key : Bytes} {tr : List BoardObs} {b : Board}
    (h : BoardRuns env nanoS key tr b) :
    ((∀ o ∈ tr, ¬ PathPressed o) ∧ ∃ tr' d, Runs env nanoS key tr' d ∧ Matches b d) ∨
      (∃ o ∈ tr, PathPressed o) ∧ b.dev.busy = true ∧ (∃ q, b.dev.asks = some q ∧ showsPath q) ∧
        ∃ n c s, b.eng = some ⟨[.check .pathNoCallback], 0, n, c⟩ ∧ b.dev.screen = some s := by
  induction h with
  | boot => exact .inl ⟨by simp, [], _, .boot, rfl⟩
  | @step tr b e h hh hu ih =>
    rcases ih with ⟨hp, tr', d, hr, hm⟩ | ⟨⟨o, ho, hp⟩, hb, hq, n, c, s, hg, hs⟩
    · have h1 := hm.here hr
      by_cases hpp : PathPress d.here e
      · obtain ⟨rfl, t, ht⟩ := hpp
        obtain ⟨k1, k2, k3, n, c, k4, s, k5⟩ := press_stuck hr hm ht
        refine .inr ⟨⟨_, List.mem_cons_self, rfl, t, by rw [h1, ht]; rfl⟩, ?_, ?_, n, c, s, k4, ?_⟩
        · rw [k2]; exact k3
        · rw [k2, hm.dev.2]; exact path_page hr ht
        · rw [k2]; exact k5
      · obtain ⟨h2, h3⟩ := hm.step hr e hpp
        rw [h2] at hh hu
        refine .inl ⟨fun o ho => ?_, _, _, .step e hr hh hu, h3 hu⟩
        rcases List.mem_cons.1 ho with rfl | ho
        · rintro ⟨rfl, t, ht⟩
          refine hpp ⟨rfl, t, ?_⟩
          rw [h1] at ht
          simpa using ht
        · exact hp o ho
    · rw [(stuck_step hg hs hb e).1]
      exact .inr ⟨⟨o, List.mem_cons_of_mem _ ho, hp⟩, hb, hq, n, c, s, hg, hs⟩

/-- Events other than both buttons, from corresponding states. -/
theorem Matches.run {env : Env} {nanoS : Bool} {key : Bytes} : ∀ (es : List Event) {tr : List Obs}
    {d : Device} {b : Board}, Runs env nanoS key tr d → Matches b d → (∀ e ∈ es, e ≠ .both) →
    (d.run env nanoS es).2.all (fun r => r != .hang && r != .ub) = true →
    (b.run env nanoS es).2 = (d.run env nanoS es).2 ∧
      Matches (b.run env nanoS es).1 (d.run env nanoS es).1 ∧
      ∃ tr', Runs env nanoS key tr' (d.run env nanoS es).1
  | [], tr, d, b, h, hm, _, _ => ⟨rfl, hm, tr, h⟩
  | e :: es, tr, d, b, h, hm, he, hf => by
    simp only [Device.run, List.all_cons, Bool.and_eq_true, bne_iff_ne, ne_eq] at hf
    obtain ⟨h1, h2⟩ := hm.step h e (fun hp => he e List.mem_cons_self hp.1)
    obtain ⟨h3, h4, h5⟩ := Matches.run es (.step e h hf.1.1 hf.1.2) (h2 hf.1.2)
      (fun e h => he e (List.mem_cons_of_mem _ h)) hf.2
    simp only [Board.run, Device.run]
    exact ⟨by rw [h1, h3], h4, h5⟩

/-- Refusing, from a state that corresponds to one of Model/Device. -/
theorem Matches.refuse {env : Env} {nanoS : Bool} {key : Bytes} {tr : List Obs} {d : Device}
    (h : Runs env nanoS key tr d) {b : Board} (hm : Matches b d) (hq : b.dev.asks.isSome) :
    ∃ bs : List Event, bs.length ≤ 44 ∧ (∀ e ∈ bs, e = .left ∨ e = .right) ∧
      ∀ es : List Event, es.filter isPress = bs →
        ((b.run env nanoS es).1).step env nanoS .both =
          (⟨⟨b.dev.connectedApp, key, .none, false, .zeroed, none⟩, none⟩, .sw 0x6985 []) := by
  obtain ⟨g1, g2⟩ := hm.dev
  rw [g2, asks_screen h] at hq
  obtain ⟨s, hs⟩ := Option.isSome_iff_exists.1 hq
  obtain ⟨bs, d', h1, h2, h3⟩ := h.wayOut hs
  refine ⟨bs, h1, h2.buttons, fun es he => ?_⟩
  obtain ⟨e1, e2⟩ := h2.run es bs d he
  have hnb : ∀ e ∈ es, e ≠ .both := by
    rintro e hm rfl
    have : Event.both ∈ bs := by rw [← he]; exact List.mem_filter.2 ⟨hm, rfl⟩
    simpa using h2.buttons _ this
  obtain ⟨_, r2, tr', r3⟩ := Matches.run es h hm hnb e2
  rw [e1] at r2 r3
  obtain ⟨k1, k2⟩ := r2.step r3 .both (by rw [h3]; rintro ⟨_, t, ht⟩; simp at ht)
  have hrej := C23_reject r3 h3
  rw [hrej, h2.app] at k1 k2
  have k3 := k2 (by simp)
  simp only [Matches] at k3
  have happ : b.dev.connectedApp = d.connectedApp := by rw [g1]
  rw [happ]
  exact Prod.ext k3 k1

/-- The whole signing session, on the device and with the engine: same replies, and nothing on display in
the end. -/
example : ((Board.boot [1]).run toyEnv false (demoOpen ++ demoTx ++ demoConfirm)).2 =
    ((Device.boot [1]).run toyEnv false (demoOpen ++ demoTx ++ demoConfirm)).2 ∧
    ((Board.boot [1]).run toyEnv false (demoOpen ++ demoTx ++ demoConfirm)).1.eng = none ∧
    ∀ o ∈ seen (demoOpen ++ demoTx ++ demoConfirm), ¬ PathPressed (boardView o) := by
  refine ⟨by decide +kernel, by decide +kernel, ?_⟩
  have : (seen (demoOpen ++ demoTx ++ demoConfirm)).all (fun o => match o.event, o.here with
      | .both, some (.info ⟨.path, _⟩) => false
      | _, _ => true) = true := by decide +kernel
  intro o ho ⟨h1, t, h2⟩
  have := List.all_eq_true.1 this o ho
  simp only [boardView] at h1 h2
  cases h : o.here with
  | none => rw [h] at h2; simp at h2
  | some x =>
    rw [h] at h2
    simp only [Option.map_some, Option.some.injEq, UxStep.screen.injEq] at h2
    subst h2
    simp [h1, h] at this

/-- Step and dynamic screen on display after these presses at the question "Approve Signing". -/
def demoAt (es : List Event) : Option (Nat × Option Nat) :=
  ((Board.boot [1]).run toyEnv false (demoOpen ++ demoTx ++ [cmd 0x21 0x20 7 []] ++ es)).1.eng.map
    (fun g => (g.index, g.cur))

/-- The right button leads to dynamic screen 0, then 1; the left button from there back, and from the
first page to Reject. -/
example : demoAt [] = some (0, none) ∧ demoAt [.right] = some (2, some 0) ∧ demoAt [.right, .right] = some (2, some 1) ∧
      demoAt [.right, .right, .right] = some (2, some 2) ∧ demoAt [.right, .right, .right, .right] = some (4, none) ∧
      demoAt [.right, .right, .left] = some (2, some 0) ∧ demoAt [.right, .left] = some (0, none) ∧
      demoAt [.left] = some (5, none) ∧ demoAt [.left, .left, .left] = some (2, some 2) := by
  decide +kernel

/-- C68: both buttons on a page "Path" leave the device with a question that nothing answers, in every
execution, and there is no other way to such a state. -/
theorem C68_stuck {env : Env} {nanoS : Bool} {key : Bytes} {tr : List BoardObs} {b : Board}
    (h : BoardRuns env nanoS key tr b) : (∃ o ∈ tr, PathPressed o) ↔ Stuck env nanoS b := by
  rcases board_cases h with ⟨hp, tr', d, hr, hm⟩ | ⟨hp, hb, ⟨q, hq, _⟩, n, c, s, hg, hs⟩
  · refine ⟨fun ⟨o, ho, h⟩ => absurd h (hp o ho), fun hst => ?_⟩
    obtain ⟨h1, h2, h3, h4⟩ := hst
    obtain ⟨bs, _, hbs, hes⟩ := hm.refuse hr h2
    have := hes bs (List.filter_eq_self.2 fun e he => by rcases hbs e he with rfl | rfl <;> rfl)
    rw [h3 bs] at this
    have h5 := h4 .both (by simp)
    rw [this] at h5
    simp at h5
  · exact ⟨fun _ => ⟨hb, by simp [hq], stuck_run hg hs hb, fun e he => (stuck_step hg hs hb e).2 he⟩, fun _ => hp⟩

/-- C68 (what holds): as long as both buttons were not pressed on a page "Path", every question can be
refused: there are at most 44 presses of the left and right buttons after which both buttons answer it
with 0x6985, whatever commands the host sends in between. -/
theorem C68_refuse_partial {env : Env} {nanoS : Bool} {key : Bytes} {tr : List BoardObs} {b : Board}
    (h : BoardRuns env nanoS key tr b) (hp : ∀ o ∈ tr, ¬ PathPressed o) (hq : b.dev.asks.isSome) :
    ∃ bs : List Event, bs.length ≤ 44 ∧ (∀ e ∈ bs, e = .left ∨ e = .right) ∧
      ∀ es : List Event, es.filter isPress = bs →
        ((b.run env nanoS es).1).step env nanoS .both =
          (⟨⟨b.dev.connectedApp, key, .none, false, .zeroed, none⟩, none⟩, .sw 0x6985 []) := by
  rcases board_cases h with ⟨_, tr', d, hr, hm⟩ | ⟨⟨o, ho, h⟩, _⟩
  · exact hm.refuse hr hq
  · exact absurd h (hp o ho)

/-- C68 (what holds): the questions about attestations and signing can always be refused, whatever was
pressed. -/
theorem C68_sessions_partial {env : Env} {nanoS : Bool} {key : Bytes} {tr : List BoardObs} {b : Board}
    (h : BoardRuns env nanoS key tr b) {q : Title} (hq : b.dev.asks = some q)
    (hn : q ≠ .extPubKeyExport ∧ q ≠ .confirmAddress ∧ q ≠ .confirmSendAddress) :
    ∃ bs : List Event, bs.length ≤ 44 ∧ (∀ e ∈ bs, e = .left ∨ e = .right) ∧
      ∀ es : List Event, es.filter isPress = bs →
        ((b.run env nanoS es).1).step env nanoS .both =
          (⟨⟨b.dev.connectedApp, key, .none, false, .zeroed, none⟩, none⟩, .sw 0x6985 []) := by
  rcases board_cases h with ⟨_, tr', d, hr, hm⟩ | ⟨_, _, ⟨q', hq', hs⟩, _⟩
  · exact hm.refuse hr (by simp [hq])
  · rw [hq] at hq'
    cases hq'
    rcases hs with rfl | rfl | rfl <;> simp at hn

theorem board_runs {env : Env} {nanoS : Bool} {key : Bytes} : ∀ (es : List Event) {tr : List BoardObs}
    {b : Board}, BoardRuns env nanoS key tr b →
    (b.run env nanoS es).2.all (fun r => r != .hang && r != .ub) = true →
    ∃ tr', BoardRuns env nanoS key tr' (b.run env nanoS es).1
  | [], tr, _, h, _ => ⟨tr, h⟩
  | e :: es, tr, b, h, hf => by
    simp only [Board.run, List.all_cons, Bool.and_eq_true, bne_iff_ne, ne_eq] at hf
    exact board_runs es (.step e h hf.1.1 hf.1.2) hf.2

/-- The request for an extended public key, the page after the first, and both buttons. -/
def demoPathPress : List Event := [cmd 0x10 1 0 demoPath3, .right, .both]

/-- After it, Reject is out of reach; without it, three presses refuse. -/
example : ((Board.boot [1]).run toyEnv false (demoPathPress ++ [.left, .left, .both, .right, .right, .both,
      cmd 0x10 1 0 demoPath3])).2.drop 2 = [.wait, .wait, .wait, .wait, .wait, .wait, .wait, .sw 0xB000 []] ∧
    ((Board.boot [1]).run toyEnv false [cmd 0x10 1 0 demoPath3, .right, .left, .left, .both]).2.getLast? =
      some (.sw 0x6985 []) := by
  decide +kernel

/-- Both buttons on the path of a signing session approve, as before. -/
example : ((Board.boot [1]).run toyEnv false demoOpen).2.getLast? = some (.sw 0x9000 [7]) ∧
    ((Board.boot [1]).run toyEnv false (demoOpen.take 1)).1.dev.asks = some .p2pkSigning := by
  decide +kernel

/-- C68 does not hold: after an export request, the right button and both buttons, the question can
neither be approved nor refused, whatever comes. -/
theorem C68_negation : ¬ ∀ (env : Env), env.WF → ∀ (nanoS : Bool) (key : Bytes) (tr : List BoardObs) (b : Board),
    BoardRuns env nanoS key tr b → b.dev.asks.isSome →
    ∃ es, ((b.run env nanoS es).1).dev.asks = none := by
  intro hall
  obtain ⟨tr, hr⟩ := board_runs (env := toyEnv) (nanoS := false) demoPathPress (.boot (key := [1])) (by decide +kernel)
  obtain ⟨es, he⟩ := hall toyEnv toyEnv_wf false [1] tr _ hr (by decide +kernel)
  have hg : ((Board.boot [1]).run toyEnv false demoPathPress).1.eng = some ⟨[.check .pathNoCallback], 0, 0, none⟩ := by
    decide +kernel
  have hb : ((Board.boot [1]).run toyEnv false demoPathPress).1.dev.busy = true := by decide +kernel
  have hs : ((Board.boot [1]).run toyEnv false demoPathPress).1.dev.screen.isSome := by decide +kernel
  have ha : ((Board.boot [1]).run toyEnv false demoPathPress).1.dev.asks.isSome := by decide +kernel
  obtain ⟨s, hs⟩ := Option.isSome_iff_exists.1 hs
  rw [stuck_run hg hs hb] at he
  rw [he] at ha
  simp at ha

end Ergo
