import Verif.Proof.Panel
/-!
# Executions of the device with its array of screens
-/
namespace Ergo
open Spec

theorem fine_nil : Fine [] := by intro r h; simp at h
theorem fine_cons {r : Reply} {rs : List Reply} : Fine (r :: rs) ↔ (r ≠ .hang ∧ r ≠ .ub) ∧ Fine rs := by
  simp [Fine]
theorem fine_append {a b : List Reply} : Fine (a ++ b) ↔ Fine a ∧ Fine b := by
  simp only [Fine, List.mem_append]
  constructor
  · intro h; exact ⟨fun r hr => h r (.inl hr), fun r hr => h r (.inr hr)⟩
  · rintro ⟨h1, h2⟩ r (hr | hr)
    · exact h1 r hr
    · exact h2 r hr

section
variable {order : Bool} {env : Env} {nanoS : Bool} {key : Bytes}

theorem Device.run_append' (d : Device) : ∀ (a b : List Event),
    d.run env nanoS (a ++ b) = (((d.run env nanoS a).1.run env nanoS b).1,
      (d.run env nanoS a).2 ++ ((d.run env nanoS a).1.run env nanoS b).2)
  | [], b => rfl
  | e :: a, b => by
    simp only [List.cons_append, Device.run]
    rw [Device.run_append' (d.step env nanoS e).1 a b]

theorem Device.tell_append (d : Device) : ∀ (a b : List Event),
    d.tell env nanoS (a ++ b) = d.tell env nanoS a ++ (d.run env nanoS a).1.tell env nanoS b
  | [], b => rfl
  | e :: a, b => by
    simp only [List.cons_append, Device.tell, Device.run, List.append_assoc]
    rw [Device.tell_append (d.step env nanoS e).1 a b]

theorem Panel.run_append (p : Panel) : ∀ (a b : List Event),
    p.run order env nanoS (a ++ b) = (((p.run order env nanoS a).1.run order env nanoS b).1,
      (p.run order env nanoS a).2 ++ ((p.run order env nanoS a).1.run order env nanoS b).2)
  | [], b => rfl
  | e :: a, b => by
    simp only [List.cons_append, Panel.run]
    rw [Panel.run_append (p.step order env nanoS e).1 a b]

theorem Panel.tell_append (p : Panel) : ∀ (a b : List Event),
    p.tell order env nanoS (a ++ b) =
      p.tell order env nanoS a ++ (p.run order env nanoS a).1.tell order env nanoS b
  | [], b => rfl
  | e :: a, b => by
    simp only [List.cons_append, Panel.tell, Panel.run, List.append_assoc]
    rw [Panel.tell_append (p.step order env nanoS e).1 a b]

theorem runs_run : ∀ (es : List Event) {tr : List Obs} {d : Device}, Runs env nanoS key tr d →
    Fine (d.run env nanoS es).2 → ∃ tr', Runs env nanoS key tr' (d.run env nanoS es).1
  | [], tr, d, h, _ => ⟨tr, h⟩
  | e :: es, tr, d, h, hf => by
    simp only [Device.run, fine_cons] at hf
    exact runs_run es (.step e h hf.1.1 hf.1.2) hf.2

theorem idle_heard {d : Device} (hs : d.screen = none) {e : Event} (he : isPress e) :
    heard env nanoS d e d .wait = [] := by
  have hp : d.page env nanoS = none := by simp [Device.page, hs]
  cases e with
  | apdu => simp [isPress] at he
  | _ => simp [heard, seenAfter, hp]

theorem fine_step {d : Device} {e : Event} (hh : (d.step env nanoS e).2 ≠ .hang)
    (hu : (d.step env nanoS e).2 ≠ .ub) : Fine (d.run env nanoS [e]).2 := by
  simp only [Device.run, fine_cons]
  exact ⟨⟨hh, hu⟩, fine_nil⟩

theorem step_press {p : Panel} (hoff : p.off = false) (hs : p.dev.screen.isSome) {e : Event}
    (he : isPress e) : p.step order env nanoS e = p.press env nanoS e := by
  unfold Panel.step
  rw [if_neg (by simp [hoff])]
  cases e with
  | apdu => simp [isPress] at he
  | _ => simp only [hs, if_true]

theorem step_browse {p : Panel} (hoff : p.off = false) (hs : p.dev.screen = none) {e : Event}
    (he : isPress e) : p.step order env nanoS e = p.browse e := by
  unfold Panel.step
  rw [if_neg (by simp [hoff])]
  cases e with
  | apdu => simp [isPress] at he
  | _ => simp [hs]

theorem btn_press (b : Bool) : isPress (btn b) = true := by cases b <;> rfl

theorem press_cases {e : Event} (he : isPress e) : e = .both ∨ ∃ b, e = btn b := by
  cases e with
  | apdu => simp [isPress] at he
  | left => exact .inr ⟨false, rfl⟩
  | right => exact .inr ⟨true, rfl⟩
  | both => exact .inl rfl

/-- One event on the panel, seen on the device. -/
theorem forward {tr : List Obs} {d : Device} {p : Panel} (hwf : env.WF) (h : Runs env nanoS key tr d)
    (hm : Match order p d) (hoff : p.off = false) (e : Event)
    (hh : (p.step order env nanoS e).2 ≠ .hang) (hu : (p.step order env nanoS e).2 ≠ .ub) :
    ∃ es, Fine (d.run env nanoS es).2 ∧
      Match order (p.step order env nanoS e).1 (d.run env nanoS es).1 ∧
      d.tell env nanoS es =
        heard env nanoS p.dev e (p.step order env nanoS e).1.dev (p.step order env nanoS e).2 := by
  have one : (p.step order env nanoS e).2 = (d.step env nanoS e).2 →
      Match order (p.step order env nanoS e).1 (d.step env nanoS e).1 →
      (d.step env nanoS e).2 ≠ .hang → (d.step env nanoS e).2 ≠ .ub →
      ∃ es, Fine (d.run env nanoS es).2 ∧
        Match order (p.step order env nanoS e).1 (d.run env nanoS es).1 ∧
        d.tell env nanoS es =
          heard env nanoS p.dev e (p.step order env nanoS e).1.dev (p.step order env nanoS e).2 := by
    intro h1 h2 h3 h4
    refine ⟨[e], fine_step h3 h4, h2, ?_⟩
    simp only [Device.tell, List.append_nil]
    rw [h2.dev, hm.dev, h1, turn_heard h (.step e h h3 h4)]
  by_cases he : isPress e = true
  · cases hs : d.screen with
    | none =>
      have hps : p.dev.screen = none := by rw [hm.dev]; simp [Device.turn, hs]
      rw [step_browse hoff hps he]
      obtain ⟨g1, g2, g3⟩ := hm.browse hs he
      refine ⟨[], fine_nil, g3, ?_⟩
      rw [g1, g2, idle_heard hps he]
      rfl
    | some s =>
      have hps := hm.screen hs
      have hps' : p.dev.screen.isSome := by rw [hps]; rfl
      rcases press_cases he with rfl | ⟨b, rfl⟩
      · rw [step_press hoff hps' rfl] at *
        obtain ⟨g1, g2, g3⟩ := hm.both h hs
        rw [g1] at hh hu
        exact one g1 (g3 hu) hh hu
      · rw [step_press hoff hps' (btn_press b)] at *
        obtain ⟨a, f0, _, hf, _⟩ := h.inv.asking _ hs
        obtain ⟨m, hn, hgo⟩ := near_unturn hf order b
        have e1 : p.dev.step env nanoS (btn b) = (d.turn order).move env nanoS
            { s with flow := s.flow.turn order } ⟨m.flow.turn order, m.draw⟩ := by
          rw [step_btn hps b, hgo, hm.dev]
        obtain ⟨t1, t2⟩ := move_turn (order := order) (env := env) (nanoS := nanoS) d s m
        have hr := (press_reply (env := env) (nanoS := nanoS) hm.len (btn b)).1
        rw [e1, t1] at hr
        rw [hr] at hu
        obtain ⟨t3, t4⟩ := t2 hu
        obtain ⟨es, _, _, r1, r2, r3⟩ := run_near hs hn hu b
        have hM : Match order (p.press env nanoS (btn b)).1 (d.run env nanoS es).1 := by
          rw [r1]
          refine press_match hm hs (by rw [e1, t3]) ?_
          rcases t4 with t4 | t4
          · exact .inl t4
          · exact .inr ⟨_, t4, near_steps hn⟩
        refine ⟨es, r2, hM, ?_⟩
        obtain ⟨tr', h'⟩ := runs_run es h r2
        rw [hM.dev, hr, r1, r3, hm.dev]
        rw [r1] at h'
        exact (turn_heard h h' _ _).symm
  · cases e with
    | apdu cla ins p1 p2 data rnd =>
      have e0 : p.step order env nanoS (.apdu cla ins p1 p2 data rnd) =
          p.command order env nanoS cla ins p1 p2 data rnd := by simp [Panel.step, hoff]
      obtain ⟨g1, g2, g3⟩ := hm.command hwf h cla ins p1 p2 data rnd
      rw [← e0] at g1 g2 g3
      rw [g1] at hh hu
      exact one g1 (g3 hh hu) hh hu
    | _ => simp [isPress] at he

/-- One event on the device, brought about on the panel. -/
theorem backward {tr : List Obs} {d : Device} {p : Panel} (hwf : env.WF) (h : Runs env nanoS key tr d)
    (hm : Match order p d) (hoff : p.off = false) (e : Event)
    (hh : (d.step env nanoS e).2 ≠ .hang) (hu : (d.step env nanoS e).2 ≠ .ub) :
    ∃ es, Fine (p.run order env nanoS es).2 ∧
      Match order (p.run order env nanoS es).1 (d.step env nanoS e).1 ∧
      (p.run order env nanoS es).1.off = false ∧
      p.tell order env nanoS es = heard env nanoS d e (d.step env nanoS e).1 (d.step env nanoS e).2 := by
  have one : (p.step order env nanoS e).2 = (d.step env nanoS e).2 →
      (p.step order env nanoS e).1.off = p.off →
      Match order (p.step order env nanoS e).1 (d.step env nanoS e).1 →
      ∃ es, Fine (p.run order env nanoS es).2 ∧
        Match order (p.run order env nanoS es).1 (d.step env nanoS e).1 ∧
        (p.run order env nanoS es).1.off = false ∧
        p.tell order env nanoS es =
          heard env nanoS d e (d.step env nanoS e).1 (d.step env nanoS e).2 := by
    intro h1 h0 h2
    refine ⟨[e], ?_, h2, by rw [← hoff, ← h0]; rfl, ?_⟩
    · simp only [Panel.run, fine_cons, h1]
      exact ⟨⟨hh, hu⟩, fine_nil⟩
    · rw [tell_on hoff]
      simp only [Panel.tell, List.append_nil]
      rw [h2.dev, hm.dev, h1, turn_heard h (.step e h hh hu)]
  by_cases he : isPress e = true
  · cases hs : d.screen with
    | none =>
      refine ⟨[], fine_nil, ?_, hoff, ?_⟩
      · have : (d.step env nanoS e).1 = d := by
          cases e with
          | apdu => simp [isPress] at he
          | _ => simp [Device.step, hs]
        rw [this]
        exact hm
      · have : d.step env nanoS e = (d, .wait) := by
          cases e with
          | apdu => simp [isPress] at he
          | _ => simp [Device.step, hs]
        rw [this, idle_heard hs he]
        rfl
    | some s =>
      have hps := hm.screen hs
      have hps' : p.dev.screen.isSome := by rw [hps]; rfl
      rcases press_cases he with rfl | ⟨b, rfl⟩
      · obtain ⟨g1, g2, g3⟩ := hm.both h hs
        rw [← step_press hoff hps' rfl] at g1 g2 g3
        exact one g1 g2 (g3 hu)
      · obtain ⟨a, f0, _, hf, _⟩ := h.inv.asking _ hs
        have hn := near_turn hf order b
        obtain ⟨t1, t2⟩ := move_turn (order := order) (env := env) (nanoS := nanoS) d s (s.flow.go b)
        rw [← step_btn hs] at t1 t2
        obtain ⟨t3, t4⟩ := t2 hu
        rw [← hm.dev] at t1 t3
        obtain ⟨es, k1, k2, r1, r2, r3⟩ := run_near (env := env) (nanoS := nanoS) hps hn
          (by rw [t1]; exact hu) b
        obtain ⟨l1, l2, l3⟩ := lift_held (order := order) (env := env) (nanoS := nanoS) (p := p)
          hm.len hoff es p.dev hps' k1 k2
        have ep : ({ p with dev := p.dev } : Panel) = p := rfl
        rw [ep] at l1 l2 l3
        refine ⟨es, by rw [l1]; exact r2, ?_, by rw [l3, settle_off, hoff], ?_⟩
        · rw [l3, r1, t3]
          refine settle_match hm hs ?_
          rcases t4 with t4 | t4
          · exact .inl t4
          · exact .inr ⟨_, t4, go_steps _ _⟩
        · rw [l2, r3, t1, t3, hm.dev]
          exact turn_heard h (.step (btn b) h hh hu) _ _
  · cases e with
    | apdu cla ins p1 p2 data rnd =>
      have e0 : p.step order env nanoS (.apdu cla ins p1 p2 data rnd) =
          p.command order env nanoS cla ins p1 p2 data rnd := by simp [Panel.step, hoff]
      obtain ⟨g1, g2, g3⟩ := hm.command hwf h cla ins p1 p2 data rnd
      rw [← e0] at g1 g2 g3
      exact one g1 g2 (g3 hh hu)
    | _ => simp [isPress] at he

theorem off_stays {p : Panel} (hoff : p.off = true) : ∀ es : List Event,
    (p.run order env nanoS es).1 = p ∧ p.tell order env nanoS es = []
  | [] => ⟨rfl, rfl⟩
  | e :: es => by
    have e1 : p.step order env nanoS e = (p, .wait) := by simp [Panel.step, hoff]
    simp only [Panel.run, Panel.tell, e1, hoff, if_true, List.nil_append]
    exact off_stays hoff es

theorem forward_run (hwf : env.WF) : ∀ (es : List Event) {tr : List Obs} {d : Device} {p : Panel},
    Runs env nanoS key tr d → Match order p d → Fine (p.run order env nanoS es).2 →
    ∃ es', Fine (d.run env nanoS es').2 ∧
      Match order (p.run order env nanoS es).1 (d.run env nanoS es').1 ∧
      d.tell env nanoS es' = p.tell order env nanoS es
  | [], _, _, _, _, hm, _ => ⟨[], fine_nil, hm, rfl⟩
  | e :: es, tr, d, p, h, hm, hf => by
    cases hoff : p.off with
    | true =>
      obtain ⟨g1, g2⟩ := off_stays (order := order) (env := env) (nanoS := nanoS) hoff (e :: es)
      rw [g1, g2]
      exact ⟨[], fine_nil, hm, rfl⟩
    | false =>
      simp only [Panel.run, fine_cons] at hf
      obtain ⟨a, a1, a2, a3⟩ := forward hwf h hm hoff e hf.1.1 hf.1.2
      obtain ⟨tr', h'⟩ := runs_run a h a1
      obtain ⟨b, b1, b2, b3⟩ := forward_run hwf es h' a2 hf.2
      refine ⟨a ++ b, ?_, ?_, ?_⟩
      · rw [Device.run_append']; exact fine_append.2 ⟨a1, b1⟩
      · rw [Device.run_append']; exact b2
      · rw [Device.tell_append, tell_on hoff, a3, b3]

theorem backward_run (hwf : env.WF) : ∀ (es : List Event) {tr : List Obs} {d : Device} {p : Panel},
    Runs env nanoS key tr d → Match order p d → p.off = false → Fine (d.run env nanoS es).2 →
    ∃ es', Fine (p.run order env nanoS es').2 ∧
      Match order (p.run order env nanoS es').1 (d.run env nanoS es).1 ∧
      p.tell order env nanoS es' = d.tell env nanoS es
  | [], _, _, _, _, hm, _, _ => ⟨[], fine_nil, hm, rfl⟩
  | e :: es, tr, d, p, h, hm, hoff, hf => by
    simp only [Device.run, fine_cons] at hf
    obtain ⟨a, a1, a2, a0, a3⟩ := backward hwf h hm hoff e hf.1.1 hf.1.2
    obtain ⟨b, b1, b2, b3⟩ := backward_run hwf es (.step e h hf.1.1 hf.1.2) a2 a0 hf.2
    refine ⟨a ++ b, ?_, ?_, ?_⟩
    · rw [Panel.run_append]; exact fine_append.2 ⟨a1, b1⟩
    · rw [Panel.run_append]; exact b2
    · rw [Panel.tell_append, a3, b3]; rfl

end
end Ergo

namespace Ergo
open Spec
section
variable {order : Bool} {env : Env} {nanoS : Bool} {key : Bytes}

/-- A panel that shows what a device shows that was run from power-on. -/
def Reached (order : Bool) (env : Env) (nanoS : Bool) (key : Bytes) (p : Panel) : Prop :=
  ∃ tr d, Runs env nanoS key tr d ∧ Match order p d

theorem reached_boot : Reached order env nanoS key (.boot key) :=
  ⟨_, _, .boot, .boot order key⟩

theorem reached_run (hwf : env.WF) {p : Panel} (hp : Reached order env nanoS key p) {es : List Event}
    (hf : Fine (p.run order env nanoS es).2) :
    Reached order env nanoS key (p.run order env nanoS es).1 := by
  obtain ⟨tr, d, h, hm⟩ := hp
  obtain ⟨es', g1, g2, _⟩ := forward_run hwf es h hm hf
  obtain ⟨tr', h'⟩ := runs_run es' h g1
  exact ⟨tr', _, h', g2⟩

theorem reached_step (hwf : env.WF) {p : Panel} (hp : Reached order env nanoS key p) {e : Event}
    (hh : (p.step order env nanoS e).2 ≠ .hang) (hu : (p.step order env nanoS e).2 ≠ .ub) :
    Reached order env nanoS key (p.step order env nanoS e).1 :=
  reached_run hwf hp (es := [e]) (by simp only [Panel.run, fine_cons]; exact ⟨⟨hh, hu⟩, fine_nil⟩)

/-- The steps of the flow with the answers exchanged. -/
theorem turn_steps {f0 f : Flow} (hf : FlowOk f0 f) {l : List FlowStep}
    (hl : f.steps = l ++ [.approve, .reject]) : (f.turn order).steps = l ++ answersIn order := by
  cases order with
  | true => exact hl
  | false =>
    have hs := hf.steps
    rw [hl] at hs
    have hmap : l.map FlowStep.other = l := by
      rcases hf.kind with ⟨⟨l', rfl, hl'⟩, _⟩ | ⟨⟨pg, n, hn, rfl⟩, _⟩
      · have : l = l' := by
          simp only [Flow.static] at hs
          exact (List.append_inj' hs rfl).1
        subst this
        exact other_map hl'
      · have : l = [.info pg, .upper, .dyn, .lower] :=
          (List.append_inj' (show l ++ [FlowStep.approve, .reject] =
            [.info pg, .upper, .dyn, .lower] ++ [.approve, .reject] from hs) rfl).1
        subst this
        rfl
    simp [Flow.turn, hl, hmap, answersIn, FlowStep.other]

/-- What became of the question of a command. -/
theorem paint_out (hwf : env.WF) {p : Panel} (hp : Reached order env nanoS key p)
    (cla ins p1 p2 : UInt8) (data : Bytes) (rnd : Rnd) :
    (∃ n, (p.dev.paint order env cla ins p1 p2 data rnd p.slots).out = .shown n) ∨
      (p.dev.paint order env cla ins p1 p2 data rnd p.slots).out = .none := by
  obtain ⟨tr, d, h, hm⟩ := hp
  cases hs : d.screen with
  | some s =>
    have hb' : p.dev.busy = true := by rw [hm.dev]; exact h.asking_busy hs
    rw [busy_paint hb']
    exact .inr rfl
  | none =>
    have hd : p.dev = d := by rw [hm.dev, Device.turn_idle hs]
    have hc : ∀ s, (d.step env nanoS (.apdu cla ins p1 p2 data rnd)).1.screen = some s →
        d.busy = false → s.flow.count < 255 := by
      intro s hs' _
      by_cases hw : (d.step env nanoS (.apdu cla ins p1 p2 data rnd)).2 = .wait
      · obtain ⟨tr', h'⟩ := step_runs h (e := .apdu cla ins p1 p2 data rnd) (by rw [hw]; simp)
          (by rw [hw]; simp)
        have := (C40_slots h' hs').2.2.2.1
        omega
      · rw [apdu_screen hw, hs] at hs'; simp at hs'
    rcases paint_puts (order := order) (nanoS := nanoS) hwf hm.len cla ins p1 p2 data rnd hc with
      ⟨ho, _⟩ | ⟨_, f, _, _, _, _, _, ho, _⟩
    · rw [hd]; exact .inr ho
    · rw [hd]; exact .inl ⟨_, ho⟩

/-- A press while a question is asked: the reply of the device. -/
theorem same_step {tr : List Obs} {d : Device} {p : Panel} (hwf : env.WF)
    (h : Runs env nanoS key tr d) (hm : Match true p d) (hoff : p.off = false) (e : Event) :
    (p.step true env nanoS e).2 = (d.step env nanoS e).2 ∧
    ((d.step env nanoS e).2 ≠ .hang → (d.step env nanoS e).2 ≠ .ub →
      Match true (p.step true env nanoS e).1 (d.step env nanoS e).1) := by
  by_cases he : isPress e = true
  · cases hs : d.screen with
    | none =>
      have hps : p.dev.screen = none := by rw [hm.dev]; simp [Device.turn, hs]
      obtain ⟨g1, g2, g3⟩ := hm.browse hs he
      have e1 : d.step env nanoS e = (d, .wait) := by
        cases e with
        | apdu => simp [isPress] at he
        | _ => simp [Device.step, hs]
      rw [step_browse hoff hps he, e1]
      exact ⟨g1, fun _ _ => g3⟩
    | some s =>
      have hps' : p.dev.screen.isSome := by rw [hm.screen hs]; rfl
      rcases press_cases he with rfl | ⟨b, rfl⟩
      · obtain ⟨g1, g2, g3⟩ := hm.both h hs
        rw [step_press hoff hps' rfl]
        exact ⟨g1, fun _ => g3⟩
      · rw [step_press hoff hps' (btn_press b)]
        have hd : p.dev = d := by rw [hm.dev, Device.turn_true]
        have hr := (press_reply (env := env) (nanoS := nanoS) hm.len (btn b)).1
        rw [hd] at hr
        refine ⟨hr, fun _ hu => ?_⟩
        obtain ⟨_, t2⟩ := move_turn (order := true) (env := env) (nanoS := nanoS) d s (s.flow.go b)
        rw [← step_btn hs] at t2
        obtain ⟨_, t4⟩ := t2 hu
        refine press_match hm hs (by rw [hd, Device.turn_true]) ?_
        rcases t4 with t4 | t4
        · exact .inl t4
        · exact .inr ⟨_, t4, go_steps _ _⟩
  · cases e with
    | apdu cla ins p1 p2 data rnd =>
      have e0 : p.step true env nanoS (.apdu cla ins p1 p2 data rnd) =
          p.command true env nanoS cla ins p1 p2 data rnd := by simp [Panel.step, hoff]
      obtain ⟨g1, g2, g3⟩ := hm.command hwf h cla ins p1 p2 data rnd
      rw [e0]
      exact ⟨g1, g3⟩
    | _ => simp [isPress] at he

theorem same_run (hwf : env.WF) : ∀ (es : List Event) {tr : List Obs} {d : Device} {p : Panel},
    Runs env nanoS key tr d → Match true p d → (p.run true env nanoS es).1.off = false →
    Fine (d.run env nanoS es).2 →
    (p.run true env nanoS es).2 = (d.run env nanoS es).2 ∧
      Match true (p.run true env nanoS es).1 (d.run env nanoS es).1
  | [], _, _, _, _, hm, _, _ => ⟨rfl, hm⟩
  | e :: es, tr, d, p, h, hm, hend, hf => by
    have hoff : p.off = false := by
      cases hoff : p.off with
      | false => rfl
      | true => rw [(off_stays hoff (e :: es)).1, hoff] at hend; simp at hend
    simp only [Device.run, fine_cons] at hf
    obtain ⟨g1, g2⟩ := same_step hwf h hm hoff e
    obtain ⟨k1, k2⟩ := same_run hwf es (.step e h hf.1.1 hf.1.2) (g2 hf.1.1 hf.1.2) hend hf.2
    refine ⟨?_, k2⟩
    simp only [Panel.run, Device.run, g1, k1]

/-! ## The menu -/

/-- The menu with the right first entry. -/
def Tidy (p : Panel) : Prop := p.dev.screen = none →
  p.slots.take 5 = [.ready, .about, .quit, .loop, .stop] ∨
  p.slots.take 5 = [.info, .version, .back, .loop, .stop]

theorem tidy_boot : Tidy (.boot key) := fun _ => .inl rfl

theorem paintMain_take {a b : List Slot} (hl : a.length = 9) (h : paintMain a = some b) :
    b.take 5 = [.ready, .about, .quit, .loop, .stop] := by
  obtain ⟨rest, _, e⟩ := paintMenu_eq hl .ready .about .quit
  rw [show paintMain a = _ from e] at h
  cases h
  rfl

theorem paintAbout_take {a b : List Slot} (hl : a.length = 9) (h : paintAbout a = some b) :
    b.take 5 = [.info, .version, .back, .loop, .stop] := by
  obtain ⟨rest, _, e⟩ := paintMenu_eq hl .info .version .back
  rw [show paintAbout a = _ from e] at h
  cases h
  rfl

theorem settle_tidy {p : Panel} (hl : p.slots.length = 9) (d' : Device) : Tidy (p.settle d') := by
  intro hn
  rw [settle_dev] at hn
  unfold Panel.settle
  rw [hn]
  obtain ⟨b, hb, _⟩ := paintMain_ok hl
  simp only [hb, Option.getD_some]
  exact .inl (paintMain_take hl hb)

theorem browse_tidy {p : Panel} (hl : p.slots.length = 9) (ht : Tidy p) (e : Event) :
    Tidy (p.browse e).1 := by
  obtain ⟨b, hb, _⟩ := paintMain_ok hl
  obtain ⟨c, hc, _⟩ := paintAbout_ok hl
  cases e with
  | both =>
    unfold Panel.browse
    simp only [hb, hc]
    split
    · exact fun _ => .inr (paintAbout_take hl hc)
    · exact fun _ => .inl (paintMain_take hl hb)
    · exact ht
    · exact ht
  | _ => exact ht

theorem tidy_step (hwf : env.WF) {p : Panel} (hp : Reached order env nanoS key p) (ht : Tidy p)
    (e : Event) (hr : (p.step order env nanoS e).2 ≠ status Sw.bip32FormattingFailed) :
    Tidy (p.step order env nanoS e).1 := by
  obtain ⟨tr, d, h, hm⟩ := hp
  cases hoff : p.off with
  | true => rw [show p.step order env nanoS e = (p, .wait) by simp [Panel.step, hoff]]; exact ht
  | false =>
  by_cases he : isPress e = true
  · cases hs : p.dev.screen with
    | none => rw [step_browse hoff hs he]; exact browse_tidy hm.len ht e
    | some s =>
      rw [step_press hoff (by rw [hs]; rfl) he, press_eq hm.len]
      exact settle_tidy hm.len _
  · cases e with
    | apdu cla ins p1 p2 data rnd =>
      have e0 : p.step order env nanoS (.apdu cla ins p1 p2 data rnd) =
          p.command order env nanoS cla ins p1 p2 data rnd := by simp [Panel.step, hoff]
      rw [e0] at hr ⊢
      cases hs : d.screen with
      | some s =>
        have hb' : p.dev.busy = true := by rw [hm.dev]; exact h.asking_busy hs
        unfold Panel.command
        rw [busy_paint hb']
        simp only
        rw [(busy_apdu (nanoS := nanoS) (env := env) hb' cla ins p1 p2 data rnd).1]
        exact ht
      | none =>
        have hd : p.dev = d := by rw [hm.dev, Device.turn_idle hs]
        have hc : ∀ s, (d.step env nanoS (.apdu cla ins p1 p2 data rnd)).1.screen = some s →
            d.busy = false → s.flow.count < 255 := by
          intro s hs' _
          by_cases hw : (d.step env nanoS (.apdu cla ins p1 p2 data rnd)).2 = .wait
          · obtain ⟨tr', h'⟩ := step_runs h (e := .apdu cla ins p1 p2 data rnd) (by rw [hw]; simp)
              (by rw [hw]; simp)
            have := (C40_slots h' hs').2.2.2.1
            omega
          · rw [apdu_screen hw, hs] at hs'; simp at hs'
        have hP := paint_puts (order := order) (nanoS := nanoS) hwf hm.len cla ins p1 p2 data rnd hc
        unfold Panel.command at hr ⊢
        rw [hd] at hr ⊢
        rcases hP with ⟨ho, hw, hl, htl, hx⟩ | ⟨hw, f, cb, l, hsc, hi, hcur, ho, hl, hst, ha⟩
        · simp only [ho] at hr ⊢
          rcases hx with hx | ⟨hx, _⟩
          · intro _
            simp only [hx]
            exact ht (by rw [hd]; exact hs)
          · exact absurd hx hr
        · simp only [ho]
          intro hn
          simp [hsc] at hn
    | _ => simp [isPress] at he

theorem tidy_run (hwf : env.WF) : ∀ (es : List Event) {p : Panel}, Reached order env nanoS key p →
    Tidy p → Fine (p.run order env nanoS es).2 →
    status Sw.bip32FormattingFailed ∉ (p.run order env nanoS es).2 →
    Tidy (p.run order env nanoS es).1
  | [], _, _, ht, _, _ => ht
  | e :: es, p, hp, ht, hf, hno => by
    simp only [Panel.run, fine_cons, List.mem_cons, not_or] at hf hno
    exact tidy_run hwf es (reached_step hwf hp hf.1.1 hf.1.2)
      (tidy_step hwf hp ht e (fun h => hno.1 h.symm)) hf.2 hno.2

end
end Ergo
