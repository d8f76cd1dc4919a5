import Verif.Proof.Engine
/-!
# The device with the engine against the device of Model/Device
-/
namespace Ergo

/-- The state of the device with the engine that corresponds to a state of the device. -/
def Matches (b : Board) (d : Device) : Prop :=
  match d.screen with
  | none => b = ⟨d, none⟩
  | some s => b.eng = some (.ofFlow s.flow) ∧ ∃ f : Flow, f.steps = s.flow.steps ∧ b.dev = { d with screen := some ⟨f, s.cb⟩ }

/-- An answer leads to the menu, whatever is on display. -/
theorem board_act (env : Env) (d : Device) (x : Option Screen) (cb : Callback) (a : Bool) :
    (d.act env cb a).2 = .ub ∧ (Device.act env { d with screen := x } cb a).2 = .ub ∨
      Device.act env { d with screen := x } cb a = d.act env cb a ∧ (d.act env cb a).1.screen = none := by
  obtain ⟨d1, d2, d3, d4, d5, d6⟩ := d
  unfold Device.act
  simp only
  split
  · right; unfold Device.actExtPubKey; split <;> exact ⟨rfl, rfl⟩
  · right; unfold Device.actDerive; split <;> exact ⟨rfl, rfl⟩
  · right; unfold Device.actAttest; split <;> exact ⟨rfl, rfl⟩
  · unfold Device.actSignInit; split
    · right; split <;> exact ⟨rfl, rfl⟩
    · left; exact ⟨rfl, rfl⟩
  · unfold Device.actSignOutput; split
    · split
      · left; exact ⟨rfl, rfl⟩
      · split
        · split
          · left; exact ⟨rfl, rfl⟩
          · right; exact ⟨rfl, rfl⟩
        · right; exact ⟨rfl, rfl⟩
    · left; exact ⟨rfl, rfl⟩
  · right; unfold Device.actSignTx; split
    · split <;> exact ⟨rfl, rfl⟩
    · exact ⟨rfl, rfl⟩
  · left; exact ⟨rfl, rfl⟩

/-- The reply to a command received while a question is on display does not depend on the question. -/
theorem board_busy_reply {env : Env} {nanoS : Bool} {d : Device} (hb : d.busy = true) (x : Option Screen)
    (cla ins p1 p2 : UInt8) (data : Bytes) (rnd : Rnd) :
    (Device.step env nanoS { d with screen := x } (.apdu cla ins p1 p2 data rnd)).2 =
      (d.step env nanoS (.apdu cla ins p1 p2 data rnd)).2 := by
  have hb' : ({ d with screen := x } : Device).busy = true := hb
  simp only [Device.step, Device.dispatch, Device.extPubKey, Device.deriveAddress, Device.attestInput,
    Device.signTransaction, hb, if_true]
  repeat' split
  all_goals rfl

/-- A question asked by a command starts at its first page. -/
theorem ask_start {env : Env} {nanoS : Bool} {d : Device} (hd : d.screen = none) (cla ins p1 p2 : UInt8)
    (data : Bytes) (rnd : Rnd) {s : Screen}
    (hs : (d.step env nanoS (.apdu cla ins p1 p2 data rnd)).1.screen = some s) :
    ∃ p rest, s.flow.steps = p :: rest ∧ (FlowStep.page? p).isSome ∧ s.flow.idx = 0 ∧ s.flow.cur = none := by
  obtain ⟨d', r, hst, hT⟩ := step_cases env nanoS d (.apdu cla ins p1 p2 data rnd)
  rw [hst] at hs
  generalize he : Event.apdu cla ins p1 p2 data rnd = e at hT
  cases hT <;> first
    | (simp [Device.setCommand, hd] at hs; done)
    | (simp only [Device.display, Option.some.injEq] at hs; subst hs; exact ⟨_, _, rfl, rfl, rfl, rfl⟩)
    | (subst he; simp at *; done)
    | simp_all [Device.setCommand, Device.menu]

theorem init_flow {ok : Nat → Bool} {f : Flow} {p : FlowStep} {rest : List FlowStep}
    (hs : f.steps = p :: rest) (hp : (FlowStep.page? p).isSome) (hi : f.idx = 0) (hc : f.cur = none) :
    (Engine.init ok (Engine.ofFlow f).steps f.count none).1 = Engine.ofFlow f := by
  obtain ⟨steps, idx, count, cur⟩ := f
  simp only at hs hi hc
  subst hs hi hc
  cases p <;> first | (simp [FlowStep.page?] at hp; done) | rfl

/-- Both buttons on the page with the path in a question that has no callback for it. -/
def PathPress (here : Option FlowStep) (e : Event) : Prop :=
  e = .both ∧ ∃ t, here = some (.info ⟨.path, t⟩)

theorem validation_none {s : FlowStep} (h : s.validation = none) :
    s ≠ .approve ∧ s ≠ .reject ∧ ∀ p, s ≠ .pathApprove p := by
  refine ⟨?_, ?_, fun p => ?_⟩ <;> rintro rfl <;> simp [FlowStep.validation] at h

theorem validation_some {s : FlowStep} {v : Validation} (h : s.validation = some v) :
    v = .approve ∧ s = .approve ∨ v = .reject ∧ s = .reject ∨ v = .path ∧ (∃ p, s = .pathApprove p) ∨
      v = .pathNoCallback ∧ ∃ t, s = .info ⟨.path, t⟩ := by
  unfold FlowStep.validation at h
  split at h <;> simp at h <;> subst h <;> simp

theorem Matches.move {env : Env} {nanoS : Bool} {b : Board} {d : Device} {s : Screen} {f : Flow}
    {r : Engine × Effect} {m : Move} (hs : d.screen = some s)
    (hf : b.dev = { d with screen := some ⟨f, s.cb⟩ }) (hst : f.steps = m.flow.steps)
    (ha : EngAgrees (b.draws env nanoS s.cb) r m) :
    (b.after env nanoS s.cb r).2 = (d.move env nanoS s m).2 ∧
      ((d.move env nanoS s m).2 ≠ .ub → Matches (b.after env nanoS s.cb r).1 (d.move env nanoS s m).1) := by
  have hshow : ∀ k, b.dev.show env nanoS s.cb k = d.show env nanoS s.cb k := fun k => by
    rw [hf]; exact show_screen ..
  unfold EngAgrees at ha
  unfold Device.move
  cases hd : m.draw with
  | none =>
    simp only [hd] at ha
    subst ha
    exact ⟨rfl, fun _ => ⟨rfl, f, hst, by simp only [hf, Board.after]⟩⟩
  | some k =>
    simp only [hd] at ha
    unfold Board.draws at ha
    rw [hshow] at ha
    cases hk : d.show env nanoS s.cb k with
    | page p =>
      simp only [hk, if_true] at ha
      subst ha
      simp only [hk]
      exact ⟨rfl, fun _ => ⟨rfl, f, hst, by simp only [hf, Board.after]⟩⟩
    | err sw =>
      simp only [hk] at ha
      obtain ⟨g, x⟩ := r
      simp at ha
      subst ha
      simp only [Board.after, hshow, hk, true_and]
      intro _
      simp only [Matches, Device.menu, hf, Device.setCommand]
    | ub =>
      simp only [hk] at ha
      obtain ⟨g, x⟩ := r
      simp at ha
      subst ha
      simp only [Board.after, hshow, hk, true_and]
      intro h
      exact absurd rfl h

/-- One event: same reply, and the states still correspond, unless it is a press of both buttons on the
page with the path. -/
theorem Matches.step {env : Env} {nanoS : Bool} {key : Bytes} {tr : List Obs} {d : Device}
    (h : Runs env nanoS key tr d) {b : Board} (hm : Matches b d) (e : Event)
    (hp : ¬ PathPress d.here e) :
    (b.step env nanoS e).2 = (d.step env nanoS e).2 ∧
      ((d.step env nanoS e).2 ≠ .ub → Matches (b.step env nanoS e).1 (d.step env nanoS e).1) := by
  cases hs : d.screen with
  | none =>
    simp only [Matches, hs] at hm
    subst hm
    cases e with
    | apdu cla ins p1 p2 data rnd =>
      refine ⟨rfl, fun _ => ?_⟩
      simp only [Board.step, Matches]
      split
      · rename_i hq; rw [hq]
      · rename_i s hq
        rw [hq]
        obtain ⟨p, rest, g1, g2, g3, g4⟩ := ask_start hs _ _ _ _ _ _ hq
        refine ⟨?_, s.flow, rfl, ?_⟩
        · simp only [init_flow g1 g2 g3 g4]
        · generalize (d.step env nanoS (.apdu cla ins p1 p2 data rnd)).1 = d' at hq
          cases d'; cases s; simp only at hq; subst hq; rfl
    | left => simp [Board.step, Device.step, hs, Matches]
    | right => simp [Board.step, Device.step, hs, Matches]
    | both => simp [Board.step, Device.step, hs, Matches]
  | some s =>
    have hb : d.busy = true := by rw [h.inv.busy, hs]; rfl
    obtain ⟨a, f0, _, hok, _⟩ := h.inv.asking _ hs
    have hm' := hm
    simp only [Matches, hs] at hm'
    obtain ⟨m1, f, m3, m2⟩ := hm'
    have hbs : b.dev.screen = some ⟨f, s.cb⟩ := by rw [m2]
    cases e with
    | apdu cla ins p1 p2 data rnd =>
      have hb' : b.dev.busy = true := by rw [m2]; exact hb
      have k1 := (busy_apdu (env := env) (nanoS := nanoS) hb cla ins p1 p2 data rnd).1
      have k2 := (busy_apdu (env := env) (nanoS := nanoS) hb' cla ins p1 p2 data rnd).1
      have k3 : (b.step env nanoS (.apdu cla ins p1 p2 data rnd)).1 = b := by
        simp only [Board.step, k2, m1]
        cases b; simp only at m1; subst m1; rfl
      refine ⟨?_, fun _ => ?_⟩
      · simp only [Board.step]
        rw [m2]
        exact board_busy_reply hb ..
      · rw [k1, k3]; exact hm
    | left =>
      simp only [Board.step, Device.step, m1, hs, hbs]
      exact Matches.move hs m2 (by rw [m3, hok.steps, hok.left.1.steps]) (prev_agrees _ hok)
    | right =>
      simp only [Board.step, Device.step, m1, hs, hbs]
      exact Matches.move hs m2 (by rw [m3, hok.steps, hok.right.1.steps]) (next_agrees _ hok)
    | both =>
      simp only [Board.step, Device.step, m1, hs, hbs, validate_here _ hok]
      have hact : ∀ a g, ((b.after env nanoS s.cb (g, .answer a)).2 = (d.act env s.cb a).2 ∧
          ((d.act env s.cb a).2 ≠ .ub → Matches (b.after env nanoS s.cb (g, .answer a)).1 (d.act env s.cb a).1)) := by
        intro a g
        simp only [Board.after, m2]
        rcases board_act env d (some ⟨f, s.cb⟩) s.cb a with ⟨q1, q2⟩ | ⟨q1, q2⟩
        · rw [q1, q2]
          exact ⟨rfl, fun h => absurd rfl h⟩
        · rw [q1]
          refine ⟨rfl, fun _ => ?_⟩
          simp [Matches, q2]
      cases hv : s.flow.here.validation with
      | none =>
        obtain ⟨v1, v2, v3⟩ := validation_none hv
        have e2 : d.both env s = (d, .wait) := by
          unfold Device.both
          split
          · rename_i h; exact absurd h v1
          · rename_i h; exact absurd h v2
          · rename_i h; exact absurd h (v3 _)
          · rfl
        rw [e2]
        simp only [Board.after]
        refine ⟨trivial, fun _ => ?_⟩
        simp only [Matches, hs]
        exact ⟨trivial, f, m3, m2⟩
      | some v =>
        rcases validation_some hv with ⟨rfl, hh⟩ | ⟨rfl, hh⟩ | ⟨rfl, p, hh⟩ | ⟨rfl, t, hh⟩
        · simp only [Device.both, hh]; exact hact _ _
        · simp only [Device.both, hh]; exact hact _ _
        · simp only [Device.both, hh]; exact hact _ _
        · exact absurd ⟨rfl, t, by simp [Device.here, hs, hh]⟩ hp

end Ergo
