import Verif.Spec.Panel
import Verif.Proof.Paint
import Verif.Proof.Turn
import Verif.Props.Pages
import Verif.Props.Refuse
/-!
# The device with its array of screens simulates, and is simulated by, the device
-/
namespace Ergo
open Spec

/-- The device with the two answers exchanged if `order` is false. -/
def Device.turn (order : Bool) (d : Device) : Device :=
  { d with screen := d.screen.map (fun s => { s with flow := s.flow.turn order }) }

theorem Device.turn_true (d : Device) : d.turn true = d := by
  obtain ⟨_, _, _, _, _, s⟩ := d
  cases s <;> rfl

theorem Device.turn_idle {d : Device} (h : d.screen = none) (order : Bool) : d.turn order = d := by
  obtain ⟨_, _, _, _, _, s⟩ := d
  cases h
  rfl

/-- A first screen left behind by a question that was not put. -/
def Stray (x : Slot) : Prop := ∃ t, (t = Title.extPubKeyExport ∨ t = .confirmSendAddress ∨
  t = .confirmAddress) ∧ x = .step (.info ⟨t, .nothing⟩)

/-- The array holds one of the two menus, except perhaps for its first entry. -/
def MenuOk (a : List Slot) : Prop := ∃ x rest, a = x :: rest ∧
  (rest.take 4 = [.about, .quit, .loop, .stop] ∧ (x = .ready ∨ Stray x) ∨
   rest.take 4 = [.version, .back, .loop, .stop] ∧ (x = .info ∨ Stray x))

/-- The array holds the question of a flow. -/
def Holds (order : Bool) (a : List Slot) (f : Flow) : Prop :=
  ∃ l, f.steps = l ++ [.approve, .reject] ∧
    a.take (l.length + 4) = (l ++ answersIn order).map .step ++ [.loop, .stop]

/-- A panel showing what the device shows. -/
structure Match (order : Bool) (p : Panel) (d : Device) : Prop where
  dev : p.dev = d.turn order
  len : p.slots.length = 9
  asking : ∀ s, d.screen = some s → Holds order p.slots s.flow
  menu : d.screen = none → p.menu < 3 ∧ MenuOk p.slots

theorem paintMenu_eq {a : List Slot} (h : a.length = 9) (s t u : Slot) :
    ∃ rest, a.drop 5 = rest ∧ paintMenu s t u a = some ([s, t, u, .loop, .stop] ++ rest) := by
  obtain ⟨a0, a1, a2, a3, a4, a5, a6, a7, a8, rfl⟩ := nine h
  exact ⟨_, rfl, rfl⟩

theorem paintMain_ok {a : List Slot} (h : a.length = 9) :
    ∃ b, paintMain a = some b ∧ b.length = 9 ∧ MenuOk b := by
  obtain ⟨rest, hr, e⟩ := paintMenu_eq h .ready .about .quit
  refine ⟨_, e, ?_, _, _, rfl, .inl ⟨rfl, .inl rfl⟩⟩
  rw [← hr]; simp [h]

theorem paintAbout_ok {a : List Slot} (h : a.length = 9) :
    ∃ b, paintAbout a = some b ∧ b.length = 9 ∧ MenuOk b := by
  obtain ⟨rest, hr, e⟩ := paintMenu_eq h .info .version .back
  refine ⟨_, e, ?_, _, _, rfl, .inr ⟨rfl, .inl rfl⟩⟩
  rw [← hr]; simp [h]

theorem Match.boot (order : Bool) (key : Bytes) : Match order (.boot key) (.boot key) := by
  refine ⟨rfl, rfl, by intro s h; simp [Device.boot] at h, fun _ => ⟨Nat.zero_lt_succ 2, _, _, rfl, .inl ⟨rfl, .inl rfl⟩⟩⟩

theorem flowOf_menu {a : List Slot} (h : MenuOk a) : (flowOf a).length = 3 := by
  obtain ⟨x, rest, rfl, h⟩ := h
  have hx : x ≠ .loop ∧ x ≠ .stop := by
    rcases h with ⟨_, rfl | ⟨t, _, rfl⟩⟩ | ⟨_, rfl | ⟨t, _, rfl⟩⟩ <;> simp
  have hr : ∃ y z r', rest = y :: z :: .loop :: r' ∧ y ≠ .loop ∧ y ≠ .stop ∧ z ≠ .loop ∧ z ≠ .stop := by
    match rest, h with
    | y :: z :: u :: v :: r, h =>
      rcases h with ⟨h, _⟩ | ⟨h, _⟩
      · simp at h; obtain ⟨rfl, rfl, rfl, rfl⟩ := h; exact ⟨_, _, _, rfl, by simp⟩
      · simp at h; obtain ⟨rfl, rfl, rfl, rfl⟩ := h; exact ⟨_, _, _, rfl, by simp⟩
    | [], h => simp at h
    | [_], h => simp at h
    | [_, _], h => simp at h
    | [_, _, _], h => simp at h
  obtain ⟨y, z, r', rfl, h1, h2, h3, h4⟩ := hr
  simp [flowOf, hx, h1, h2, h3, h4]

theorem flowOf_holds {a : List Slot} {steps : List FlowStep}
    (h : a.take (steps.length + 2) = steps.map .step ++ [.loop, .stop]) :
    (flowOf a).filterMap Slot.step? = steps := by
  have e : a = (steps.map .step ++ [.loop, .stop]) ++ a.drop (steps.length + 2) := by
    rw [← h, List.take_append_drop]
  rw [e, flowOf, List.append_assoc, List.takeWhile_append_of_pos]
  · simp [List.filterMap_append, List.filterMap_map, Function.comp_def, Slot.step?]
  · intro s hs
    obtain ⟨t, _, rfl⟩ := List.mem_map.1 hs
    rfl

section
variable {order : Bool} {env : Env} {nanoS : Bool} {key : Bytes} {tr : List Obs} {d : Device} {p : Panel}

theorem step_runs (h : Runs env nanoS key tr d) {e : Event} (hh : (d.step env nanoS e).2 ≠ .hang)
    (hu : (d.step env nanoS e).2 ≠ .ub) : ∃ tr', Runs env nanoS key tr' (d.step env nanoS e).1 :=
  ⟨_, .step e h hh hu⟩

theorem apdu_screen {cla ins p1 p2 : UInt8} {data : Bytes} {rnd : Rnd}
    (hw : (d.step env nanoS (.apdu cla ins p1 p2 data rnd)).2 ≠ .wait) :
    (d.step env nanoS (.apdu cla ins p1 p2 data rnd)).1.screen = d.screen := by
  obtain ⟨d', r, hst, hT⟩ := step_cases env nanoS d (.apdu cla ins p1 p2 data rnd)
  rw [hst] at hw ⊢
  generalize he : Event.apdu cla ins p1 p2 data rnd = e at hT
  cases hT <;> first | rfl | exact absurd rfl hw | (subst he; simp at *; done) | (cases he; done)

/-- Commands while a question is on display: nothing is written and the replies do not depend on it. -/
theorem busy_paint (hb : d.busy = true) (cla ins p1 p2 : UInt8) (data : Bytes) (rnd : Rnd)
    (a : List Slot) : d.paint order env cla ins p1 p2 data rnd a = ⟨a, .none⟩ := by
  unfold Device.paint Device.paintExtPubKey Device.paintDerive Device.paintAttestInput Device.paintSign
  simp only [hb, if_true, ite_self]

theorem busy_reply {d1 d2 : Device} (h1 : d1.busy = true) (h2 : d2.busy = true) (cla ins p1 p2 : UInt8)
    (data : Bytes) (rnd : Rnd) : (d1.step env nanoS (.apdu cla ins p1 p2 data rnd)).2 =
      (d2.step env nanoS (.apdu cla ins p1 p2 data rnd)).2 := by
  unfold Device.step Device.dispatch Device.extPubKey Device.deriveAddress Device.attestInput
    Device.signTransaction
  simp only [h1, h2, if_true]
  by_cases g0 : data.length > 255
  · simp only [g0, if_true]
  simp only [g0, if_false]
  by_cases g1 : cla ≠ 0xE0
  · simp only [if_pos g1]
  simp only [if_neg g1]
  split_ifs <;> rfl

theorem Runs.asking_busy (h : Runs env nanoS key tr d) {s : Screen} (hs : d.screen = some s) :
    d.busy = true := by
  rw [h.inv.busy, hs]; rfl

theorem Runs.idle_busy (h : Runs env nanoS key tr d) (hs : d.screen = none) :
    d.busy = false := by
  rw [h.inv.busy, hs]; rfl

theorem turn_busy (order : Bool) (d : Device) : (d.turn order).busy = d.busy := rfl

/-- The flow read back from the array is the flow of the device in the order of the array. -/
theorem read_back {f : Flow} {a : List Slot} (hH : Holds order a f) (hi : f.idx = 0)
    (hc : f.cur = none) (hk : ∃ f0, FlowOk f0 f) (ht : f.title.isSome) :
    (⟨(flowOf a).filterMap Slot.step?, 0, f.count, none⟩ : Flow) = f.turn order := by
  obtain ⟨l, hl, ha⟩ := hH
  have e1 : (flowOf a).filterMap Slot.step? = l ++ answersIn order := by
    apply flowOf_holds
    rw [← ha]
    cases order <;> simp [answersIn]
  rw [e1]
  obtain ⟨steps, idx, count, cur⟩ := f
  simp only at hi hc hl
  subst hi hc hl
  obtain ⟨f0, hf⟩ := hk
  cases order with
  | true => rfl
  | false =>
    have hpg : l.map FlowStep.other = l ∧ l ≠ [] := by
      have hs := hf.steps
      simp only at hs
      rcases hf.kind with ⟨⟨l', rfl, hl'⟩, _⟩ | ⟨⟨pg, n, hn, rfl⟩, _⟩
      · have : l = l' := by
          simp only [Flow.static] at hs
          exact (List.append_inj' hs rfl).1
        subst this
        refine ⟨other_map hl', ?_⟩
        rintro rfl
        simp [Flow.title, FlowStep.page?] at ht
      · have : l = [.info pg, .upper, .dyn, .lower] :=
          (List.append_inj' (show l ++ [FlowStep.approve, .reject] =
            [.info pg, .upper, .dyn, .lower] ++ [.approve, .reject] from hs) rfl).1
        subst this
        exact ⟨rfl, by simp⟩
    have hlen : l.length ≠ 0 := by simpa using hpg.2
    simp only [Flow.turn, Bool.false_eq_true, if_false, List.map_append, hpg.1, List.length_append,
      answersIn, List.map_cons, List.map_nil, FlowStep.other, List.length_cons, List.length_nil]
    unfold turnIdx
    rw [if_neg (by omega), if_neg (by omega)]

/-- A command on the panel is the command on the device. -/
theorem Match.command (hwf : env.WF) (h : Runs env nanoS key tr d) (hm : Match order p d)
    (cla ins p1 p2 : UInt8) (data : Bytes) (rnd : Rnd) :
    (p.command order env nanoS cla ins p1 p2 data rnd).2 =
      (d.step env nanoS (.apdu cla ins p1 p2 data rnd)).2 ∧
    (p.command order env nanoS cla ins p1 p2 data rnd).1.off = p.off ∧
    ((d.step env nanoS (.apdu cla ins p1 p2 data rnd)).2 ≠ .hang →
      (d.step env nanoS (.apdu cla ins p1 p2 data rnd)).2 ≠ .ub →
      Match order (p.command order env nanoS cla ins p1 p2 data rnd).1
        (d.step env nanoS (.apdu cla ins p1 p2 data rnd)).1) := by
  cases hs : d.screen with
  | some s =>
    have hb := h.asking_busy hs
    have hb' : p.dev.busy = true := by rw [hm.dev]; exact hb
    unfold Panel.command
    rw [busy_paint hb']
    simp only
    refine ⟨busy_reply hb' hb _ _ _ _ _ _, trivial, fun _ _ => ?_⟩
    have e1 := (busy_apdu (nanoS := nanoS) (env := env) hb' cla ins p1 p2 data rnd).1
    have e2 := (busy_apdu (nanoS := nanoS) (env := env) hb cla ins p1 p2 data rnd).1
    rw [e1, e2]
    exact hm
  | none =>
    have hb := h.idle_busy hs
    have hd : p.dev = d := by rw [hm.dev, Device.turn_idle hs]
    obtain ⟨hmenu, hM⟩ := hm.menu hs
    have hc : ∀ s, (d.step env nanoS (.apdu cla ins p1 p2 data rnd)).1.screen = some s →
        d.busy = false → s.flow.count < 255 := by
      intro s hs' _
      by_cases hw : (d.step env nanoS (.apdu cla ins p1 p2 data rnd)).2 = .wait
      · obtain ⟨tr', h'⟩ := step_runs h (e := .apdu cla ins p1 p2 data rnd) (by rw [hw]; simp) (by rw [hw]; simp)
        have := (C40_slots h' hs').2.2.2.1
        omega
      · rw [apdu_screen hw, hs] at hs'; simp at hs'
    have hP := paint_puts (order := order) (nanoS := nanoS) hwf hm.len cla ins p1 p2 data rnd hc
    unfold Panel.command
    rw [hd]
    rcases hP with ⟨ho, hw, hl, htl, hx⟩ | ⟨hw, f, cb, l, hsc, hi, hcur, ho, hl, hst, ha⟩
    · simp only [ho]
      refine ⟨trivial, trivial, fun _ _ => ?_⟩
      have hsc := apdu_screen hw
      rw [hs] at hsc
      refine ⟨(Device.turn_idle hsc order).symm, hl, ?_, fun _ => ⟨hmenu, ?_⟩⟩
      · intro s hs'; rw [hsc] at hs'; simp at hs'
      · rcases hx with hx | ⟨_, t, ht, hx⟩
        · rw [hx]; exact hM
        · obtain ⟨x, rest, e, hM⟩ := hM
          rw [hx, e]
          refine ⟨_, _, rfl, ?_⟩
          rcases hM with ⟨h1, _⟩ | ⟨h1, _⟩
          · exact .inl ⟨h1, .inr ⟨t, ht, rfl⟩⟩
          · exact .inr ⟨h1, .inr ⟨t, ht, rfl⟩⟩
    · simp only [ho]
      refine ⟨trivial, trivial, fun h1 h2 => ?_⟩
      obtain ⟨tr', h'⟩ := step_runs h h1 h2
      obtain ⟨a, f0, q1, q2, q3⟩ := h'.inv.asking _ hsc
      have hA := h'.inv.asks hsc
      have hH : Holds order (d.paint order env cla ins p1 p2 data rnd p.slots).slots f := ⟨l, hst, ha⟩
      have htitle : f.title.isSome := by
        have e : (d.step env nanoS (.apdu cla ins p1 p2 data rnd)).1.asks = f.title := by
          simp [Device.asks, hsc, Flow.title]
        rw [e] at hA
        cases cb <;> simp only [AsksFor] at hA <;> first | (rw [hA]; rfl) | (rcases hA with hA | hA <;> rw [hA] <;> rfl)
      refine ⟨?_, hl, ?_, ?_⟩
      · simp only [Device.turn, hsc, Option.map_some]
        rw [read_back hH hi hcur ⟨f0, q2⟩ htitle]
      · intro s hs'
        rw [hsc] at hs'
        cases hs'
        exact hH
      · intro hn; rw [hsc] at hn; simp at hn

/-! ## Buttons -/

/-- The answer to a question does not depend on the flow. -/
theorem act_screen (d : Device) (x : Option Screen) (cb : Callback) (b : Bool) :
    (({ d with screen := x }).act env cb b).2 = (d.act env cb b).2 ∧
    ((d.act env cb b).2 ≠ .ub → ({ d with screen := x }).act env cb b = d.act env cb b ∧
      (d.act env cb b).1.screen = none) := by
  obtain ⟨app, key, com, busy, ctx, sc⟩ := d
  unfold Device.act
  cases cb <;> cases ctx <;> simp only [] <;>
    first
    | exact ⟨trivial, fun h => absurd rfl h⟩
    | skip
  · unfold Device.actExtPubKey; split <;> exact ⟨rfl, fun _ => ⟨rfl, rfl⟩⟩
  · unfold Device.actDerive; split <;> exact ⟨rfl, fun _ => ⟨rfl, rfl⟩⟩
  · unfold Device.actAttest; split <;> exact ⟨rfl, fun _ => ⟨rfl, rfl⟩⟩
  · unfold Device.actSignInit
    split
    · split <;> exact ⟨rfl, fun _ => ⟨rfl, rfl⟩⟩
    · exact ⟨rfl, fun h => absurd rfl h⟩
  · unfold Device.actSignOutput
    split
    · split
      · exact ⟨rfl, fun h => absurd rfl h⟩
      · split
        · split
          · exact ⟨rfl, fun h => absurd rfl h⟩
          · exact ⟨rfl, fun _ => ⟨rfl, rfl⟩⟩
        · exact ⟨rfl, fun _ => ⟨rfl, rfl⟩⟩
    · exact ⟨rfl, fun h => absurd rfl h⟩
  · unfold Device.actSignTx
    split
    · split <;> exact ⟨rfl, fun _ => ⟨rfl, rfl⟩⟩
    · exact ⟨rfl, fun _ => ⟨rfl, rfl⟩⟩

/-- The panel after a press that leads to `d'`: the menu is written when the question is gone. -/
def Panel.settle (p : Panel) (d' : Device) : Panel :=
  match d'.screen with
  | some _ => { p with dev := d' }
  | none => { p with dev := d', slots := (paintMain p.slots).getD p.slots, menu := 0 }

theorem press_eq (hl : p.slots.length = 9) (e : Event) :
    p.press env nanoS e = (p.settle (p.dev.step env nanoS e).1, (p.dev.step env nanoS e).2) := by
  unfold Panel.press Panel.settle
  cases hs : (p.dev.step env nanoS e).1.screen with
  | some s => simp only [hs]
  | none =>
    obtain ⟨b, hb, _⟩ := paintMain_ok hl
    simp only [hs, hb, Option.getD_some]

theorem settle_off (p : Panel) (d' : Device) : (p.settle d').off = p.off := by
  unfold Panel.settle; split <;> rfl

theorem settle_dev (p : Panel) (d' : Device) : (p.settle d').dev = d' := by
  unfold Panel.settle; split <;> rfl

theorem press_reply (hl : p.slots.length = 9) (e : Event) :
    (p.press env nanoS e).2 = (p.dev.step env nanoS e).2 ∧ (p.press env nanoS e).1.off = p.off := by
  rw [press_eq hl]
  exact ⟨rfl, settle_off _ _⟩

theorem settle_match (hm : Match order p d) {s : Screen} (hs : d.screen = some s) {d' : Device}
    (hd' : d'.screen = none ∨ ∃ s', d'.screen = some s' ∧ s'.flow.steps = s.flow.steps) :
    Match order (p.settle (d'.turn order)) d' := by
  unfold Panel.settle
  rcases hd' with hn | ⟨s', hs', he⟩
  · obtain ⟨b, hb, hl, hM⟩ := paintMain_ok hm.len
    have hn' : (d'.turn order).screen = none := by simp [Device.turn, hn]
    simp only [hn', hb, Option.getD_some]
    exact ⟨rfl, hl, by intro s h; rw [hn] at h; simp at h, fun _ => ⟨Nat.zero_lt_succ 2, hM⟩⟩
  · have hn' : (d'.turn order).screen = some { s' with flow := s'.flow.turn order } := by
      simp [Device.turn, hs']
    simp only [hn']
    refine ⟨rfl, hm.len, ?_, by intro h; rw [hs'] at h; simp at h⟩
    intro s'' h
    rw [hs'] at h
    cases h
    obtain ⟨l, h1, h2⟩ := hm.asking s hs
    exact ⟨l, by rw [he, h1], h2⟩

theorem press_match (hm : Match order p d) {s : Screen} (hs : d.screen = some s) {e : Event}
    {d' : Device} (hst : (p.dev.step env nanoS e).1 = d'.turn order)
    (hd' : d'.screen = none ∨ ∃ s', d'.screen = some s' ∧ s'.flow.steps = s.flow.steps) :
    Match order (p.press env nanoS e).1 d' := by
  rw [press_eq hm.len, hst]
  exact settle_match hm hs hd'

theorem Match.screen (hm : Match order p d) {s : Screen} (hs : d.screen = some s) :
    p.dev.screen = some { s with flow := s.flow.turn order } := by
  rw [hm.dev]; simp [Device.turn, hs]

/-- Both buttons while a question is on display. -/
theorem Match.both (h : Runs env nanoS key tr d) (hm : Match order p d) {s : Screen}
    (hs : d.screen = some s) :
    (p.press env nanoS .both).2 = (d.step env nanoS .both).2 ∧
    (p.press env nanoS .both).1.off = p.off ∧
    ((d.step env nanoS .both).2 ≠ .ub → Match order (p.press env nanoS .both).1 (d.step env nanoS .both).1) := by
  obtain ⟨a, f0, _, hf, _⟩ := h.inv.asking _ hs
  have hps := hm.screen hs
  have hact : ∀ b, (p.dev.act env s.cb b).2 = (d.act env s.cb b).2 ∧
      ((d.act env s.cb b).2 ≠ .ub → (p.dev.act env s.cb b).1 = (d.act env s.cb b).1.turn order ∧
        (d.act env s.cb b).1.screen = none) := by
    intro b
    have := act_screen (env := env) d (d.screen.map (fun s => { s with flow := s.flow.turn order })) s.cb b
    rw [hm.dev]
    refine ⟨this.1, fun hu => ?_⟩
    obtain ⟨h1, h2⟩ := this.2 hu
    have h1' : (d.turn order).act env s.cb b = d.act env s.cb b := h1
    rw [h1', Device.turn_idle h2]
    exact ⟨rfl, h2⟩
  have e1 : d.step env nanoS .both = d.both env s := by simp [Device.step, hs]
  have e2 : p.dev.step env nanoS .both = p.dev.both env { s with flow := s.flow.turn order } := by
    simp [Device.step, hps]
  obtain ⟨r1, r2⟩ := press_reply (nanoS := nanoS) (env := env) hm.len .both
  rw [r1]
  have key : (p.dev.step env nanoS .both).2 = (d.step env nanoS .both).2 ∧
      ((d.step env nanoS .both).2 ≠ .ub →
        (p.dev.step env nanoS .both).1 = (d.step env nanoS .both).1.turn order ∧
        ((d.step env nanoS .both).1.screen = none ∨
          ∃ s', (d.step env nanoS .both).1.screen = some s' ∧ s'.flow.steps = s.flow.steps)) := by
    rw [e1, e2]
    unfold Device.both
    simp only [turn_here hf]
    cases s.flow.here with
    | approve => exact ⟨(hact true).1, fun hu => ⟨((hact true).2 hu).1, .inl ((hact true).2 hu).2⟩⟩
    | reject => exact ⟨(hact false).1, fun hu => ⟨((hact false).2 hu).1, .inl ((hact false).2 hu).2⟩⟩
    | pathApprove _ => exact ⟨(hact true).1, fun hu => ⟨((hact true).2 hu).1, .inl ((hact true).2 hu).2⟩⟩
    | _ => exact ⟨rfl, fun _ => ⟨hm.dev, .inr ⟨s, hs, rfl⟩⟩⟩
  exact ⟨key.1, r2, fun hu => press_match hm hs (key.2 hu).1 (key.2 hu).2⟩

/-- The press of one button. -/
def btn (b : Bool) : Event := if b then .right else .left

theorem step_btn {s : Screen} (hs : d.screen = some s) (b : Bool) :
    d.step env nanoS (btn b) = d.move env nanoS s (s.flow.go b) := by
  cases b <;> simp [btn, Device.step, hs, Flow.go]

theorem go_steps (f : Flow) (b : Bool) : (f.go b).flow.steps = f.steps := by
  have h : ∀ g : Flow, g.arrive.flow.steps = g.steps := by
    intro g
    unfold Flow.arrive Flow.stepLeft Flow.stepRight
    split
    · split <;> rfl
    · split
      · rfl
      · split <;> rfl
    · rfl
  cases b <;> simp [Flow.go, Flow.left, Flow.right, h]

theorem near_steps {f : Flow} {m : Move} (h : Near f m) : m.flow.steps = f.steps := by
  rcases h with ⟨b, rfl⟩ | ⟨b, b', _, _, rfl⟩
  · exact go_steps f b
  · rw [go_steps, go_steps]

/-- Moving does not depend on the flow on display before. -/
theorem move_screen (d : Device) (x : Option Screen) (s s' : Screen) (hcb : s.cb = s'.cb) (m : Move) :
    ({ d with screen := x }).move env nanoS s m = d.move env nanoS s' m ∨
    (({ d with screen := x }).move env nanoS s m).2 = .ub ∧ (d.move env nanoS s' m).2 = .ub := by
  unfold Device.move
  have e : ∀ k, ({ d with screen := x } : Device).show env nanoS s.cb k = d.show env nanoS s'.cb k := by
    intro k; rw [hcb]; rfl
  cases hd : m.draw with
  | none => left; simp only [hcb]
  | some k =>
    simp only [e]
    cases d.show env nanoS s'.cb k with
    | page pg => left; simp only [hcb]
    | err e => left; rfl
    | ub => right; exact ⟨rfl, rfl⟩

/-- Moving in the other order. -/
theorem move_turn (d : Device) (s : Screen) (m : Move) :
    ((d.turn order).move env nanoS { s with flow := s.flow.turn order } ⟨m.flow.turn order, m.draw⟩).2 =
      (d.move env nanoS s m).2 ∧
    ((d.move env nanoS s m).2 ≠ .ub →
      ((d.turn order).move env nanoS { s with flow := s.flow.turn order } ⟨m.flow.turn order, m.draw⟩).1 =
        (d.move env nanoS s m).1.turn order ∧
      ((d.move env nanoS s m).1.screen = none ∨
        (d.move env nanoS s m).1.screen = some { s with flow := m.flow })) := by
  unfold Device.move
  have e : ∀ k, (d.turn order).show env nanoS s.cb k = d.show env nanoS s.cb k := fun k => rfl
  cases hd : m.draw with
  | none => exact ⟨rfl, fun _ => ⟨rfl, .inr rfl⟩⟩
  | some k =>
    simp only [e]
    cases d.show env nanoS s.cb k with
    | page pg => exact ⟨rfl, fun _ => ⟨rfl, .inr rfl⟩⟩
    | err e => exact ⟨rfl, fun _ => ⟨rfl, .inl rfl⟩⟩
    | ub => exact ⟨rfl, fun h => absurd rfl h⟩

/-! ## What is noticed -/

theorem asks_title (hs : d.screen = some s) : d.asks = s.flow.title := by
  simp [Device.asks, hs, Flow.title]

theorem Runs.title (h : Runs env nanoS key tr d) {s : Screen} (hs : d.screen = some s) :
    ∃ f0, FlowOk f0 s.flow ∧ f0.title.isSome := by
  obtain ⟨a, f0, _, hf, _⟩ := h.inv.asking _ hs
  have hA := h.inv.asks hs
  rw [asks_title hs, hf.title] at hA
  refine ⟨f0, hf, ?_⟩
  cases hcb : s.cb <;> rw [hcb] at hA <;> simp only [AsksFor] at hA <;>
    first | (rw [hA]; rfl) | (rcases hA with hA | hA <;> rw [hA] <;> rfl)

theorem turn_asks (h : Runs env nanoS key tr d) : (d.turn order).asks = d.asks := by
  cases hs : d.screen with
  | none => rw [Device.turn_idle hs]
  | some s =>
    obtain ⟨f0, hf, ht⟩ := h.title hs
    rw [asks_title hs, asks_title (s := { s with flow := s.flow.turn order }) (by simp [Device.turn, hs])]
    exact turn_title hf order ht

theorem turn_here' (h : Runs env nanoS key tr d) : (d.turn order).here = d.here := by
  cases hs : d.screen with
  | none => rw [Device.turn_idle hs]
  | some s =>
    obtain ⟨f0, hf, ht⟩ := h.title hs
    simp [Device.here, Device.turn, hs, turn_here hf]

theorem turn_page (h : Runs env nanoS key tr d) : (d.turn order).page env nanoS = d.page env nanoS := by
  cases hs : d.screen with
  | none => rw [Device.turn_idle hs]
  | some s =>
    obtain ⟨f0, hf, ht⟩ := h.title hs
    have e1 : (d.turn order).screen = some { s with flow := s.flow.turn order } := by
      simp [Device.turn, hs]
    have e2 : (s.flow.turn order).cur = s.flow.cur := by
      cases order <;> rfl
    have e3 : ∀ cb k, (d.turn order).show env nanoS cb k = d.show env nanoS cb k := fun _ _ => rfl
    unfold Device.page
    rw [e1, hs]
    simp only [turn_here hf, e2, e3]

theorem turn_heard {tr' : List Obs} {d' : Device} (h : Runs env nanoS key tr d)
    (h' : Runs env nanoS key tr' d') (e : Event) (r : Reply) :
    heard env nanoS (d.turn order) e (d'.turn order) r = heard env nanoS d e d' r := by
  have hs : ∀ r, seenAfter env nanoS (d'.turn order) r = seenAfter env nanoS d' r := by
    intro r
    cases r <;> simp [seenAfter, turn_page h']
  unfold heard
  simp only [turn_asks h, turn_here' h, hs]

/-- What is noticed of the press of one button depends on the state before only by the question. -/
theorem heard_btn {d1 d2 d' : Device} (h : d1.asks = d2.asks) (b b' : Bool) (r : Reply) :
    heard env nanoS d1 (btn b) d' r = heard env nanoS d2 (btn b') d' r := by
  cases b <;> cases b' <;> cases r <;> simp [heard, btn, h]

/-- Presses made while a question is on display. -/
def Held (env : Env) (nanoS : Bool) : Device → List Event → Prop
  | d, [] => True
  | d, e :: es => d.screen.isSome ∧ isPress e ∧ Held env nanoS (d.step env nanoS e).1 es

/-- A move of one or two presses on the device. -/
theorem run_near {s : Screen} (hs : d.screen = some s) {m : Move} (hn : Near s.flow m)
    (hu : (d.move env nanoS s m).2 ≠ .ub) (b0 : Bool) :
    ∃ es, Held env nanoS d es ∧ es ≠ [] ∧ (d.run env nanoS es).1 = (d.move env nanoS s m).1 ∧ Fine (d.run env nanoS es).2 ∧
      d.tell env nanoS es = heard env nanoS d (btn b0) (d.move env nanoS s m).1 (d.move env nanoS s m).2 := by
  have hh : (d.move env nanoS s m).2 ≠ .hang := by
    unfold Device.move
    cases m.draw with
    | none => simp
    | some k => simp only []; split <;> simp [status]
  rcases hn with ⟨b, rfl⟩ | ⟨b, b', hd, ha, rfl⟩
  · refine ⟨[btn b], ⟨by simp [hs], by cases b <;> rfl, trivial⟩, by simp,
      by simp [Device.run, step_btn hs], ?_, ?_⟩
    · intro r hr
      simp only [Device.run, step_btn hs, List.mem_singleton] at hr
      subst hr
      exact ⟨hh, hu⟩
    · simp only [Device.tell, step_btn hs, List.append_nil]
      exact heard_btn rfl _ _ _
  · have e1 : d.move env nanoS s (s.flow.go b) = ({ d with screen := some { s with flow := (s.flow.go b).flow } }, .wait) := by
      simp [Device.move, hd]
    have e2 : ({ d with screen := some { s with flow := (s.flow.go b).flow } } : Device).move env nanoS
        { s with flow := (s.flow.go b).flow } ((s.flow.go b).flow.go b') =
        d.move env nanoS s ((s.flow.go b).flow.go b') := by
      rcases move_screen (env := env) (nanoS := nanoS) d (some { s with flow := (s.flow.go b).flow })
        { s with flow := (s.flow.go b).flow } s rfl ((s.flow.go b).flow.go b') with h | ⟨_, h⟩
      · exact h
      · exact absurd h hu
    have e3 : d.run env nanoS [btn b, btn b'] = ((d.move env nanoS s ((s.flow.go b).flow.go b')).1,
        [.wait, (d.move env nanoS s ((s.flow.go b).flow.go b')).2]) := by
      simp only [Device.run, step_btn hs, e1]
      rw [step_btn rfl, e2]
    refine ⟨[btn b, btn b'], ⟨by simp [hs], by cases b <;> rfl, ?_, by cases b' <;> rfl, trivial⟩, by simp,
      by rw [e3], ?_, ?_⟩
    · rw [step_btn hs, e1]; rfl
    · intro r hr
      rw [e3] at hr
      simp only [List.mem_cons, List.not_mem_nil, or_false] at hr
      rcases hr with rfl | rfl
      · simp
      · exact ⟨hh, hu⟩
    · simp only [Device.tell, step_btn hs, e1, List.append_nil]
      rw [step_btn rfl, e2]
      have e4 : heard env nanoS d (btn b) { d with screen := some { s with flow := (s.flow.go b).flow } }
          .wait = [] := by
        have : Device.page env nanoS { d with screen := some { s with flow := (s.flow.go b).flow } } = none := by
          unfold Device.page
          simp only
          rcases ha with ha | ha <;> rw [ha]
        cases b <;> simp [heard, btn, seenAfter, this]
      rw [e4, List.nil_append]
      apply heard_btn
      rw [asks_title hs, asks_title rfl]
      simp only [Flow.title, go_steps]

theorem tell_on (h : p.off = false) (e : Event) (es : List Event) :
    Panel.tell order env nanoS p (e :: es) =
      heard env nanoS p.dev e (p.step order env nanoS e).1.dev (p.step order env nanoS e).2 ++
        Panel.tell order env nanoS (p.step order env nanoS e).1 es := by
  simp [Panel.tell, h]

/-- Presses on the panel are presses on its device. -/
theorem lift_held (hl : p.slots.length = 9) (hoff : p.off = false) : ∀ (es : List Event) (d : Device),
    d.screen.isSome → Held env nanoS d es → es ≠ [] →
    (Panel.run order env nanoS { p with dev := d } es).2 = (d.run env nanoS es).2 ∧
    Panel.tell order env nanoS { p with dev := d } es = d.tell env nanoS es ∧
    (Panel.run order env nanoS { p with dev := d } es).1 = p.settle (d.run env nanoS es).1
  | [], _, _, _, h => absurd rfl h
  | e :: es, d, hd, ⟨h1, h2, h3⟩, _ => by
    have e1 : Panel.step order env nanoS { p with dev := d } e =
        (p.settle (d.step env nanoS e).1, (d.step env nanoS e).2) := by
      unfold Panel.step
      rw [if_neg (by simp [hoff])]
      have := press_eq (env := env) (nanoS := nanoS) (p := { p with dev := d }) hl e
      cases e with
      | apdu => simp [isPress] at h2
      | _ => simp only [hd, if_true]; exact this
    cases es with
    | nil =>
      rw [tell_on (by exact hoff)]
      simp only [Panel.run, Device.run, Device.tell, e1, settle_dev]
      exact ⟨trivial, rfl, trivial⟩
    | cons e' es =>
      have h4 := h3.1
      have e2 : p.settle (d.step env nanoS e).1 = { p with dev := (d.step env nanoS e).1 } := by
        unfold Panel.settle
        cases hs : (d.step env nanoS e).1.screen with
        | none => rw [hs] at h4; simp at h4
        | some s => rfl
      obtain ⟨g1, g2, g3⟩ := lift_held hl hoff (e' :: es) (d.step env nanoS e).1 h4 h3 (by simp)
      rw [Panel.run, Device.run, tell_on (by exact hoff), Device.tell, e1]
      simp only [e2]
      exact ⟨by rw [g1], by rw [g2], g3⟩

/-- Buttons in the menu change neither the device nor anything else but what the menu shows. -/
theorem Match.browse (hm : Match order p d) (hs : d.screen = none) {e : Event} (he : isPress e) :
    (p.browse e).2 = .wait ∧ (p.browse e).1.dev = p.dev ∧ Match order (p.browse e).1 d := by
  obtain ⟨hmenu, hM⟩ := hm.menu hs
  have h3 := flowOf_menu hM
  cases e with
  | apdu => simp [isPress] at he
  | left =>
    refine ⟨rfl, rfl, hm.dev, hm.len, hm.asking, fun _ => ⟨?_, hM⟩⟩
    simp only [Panel.browse, h3]
    split <;> omega
  | right =>
    refine ⟨rfl, rfl, hm.dev, hm.len, hm.asking, fun _ => ⟨?_, hM⟩⟩
    simp only [Panel.browse, h3]
    split <;> omega
  | both =>
    obtain ⟨a, ha, hal, haM⟩ := paintAbout_ok hm.len
    obtain ⟨b, hb, hbl, hbM⟩ := paintMain_ok hm.len
    have no : ∀ s, d.screen = some s → ∀ q, Holds order q s.flow := by
      intro s h; rw [hs] at h; simp at h
    unfold Panel.browse
    simp only [ha, hb]
    split
    · exact ⟨rfl, rfl, hm.dev, hal, fun s h => no s h _, fun _ => ⟨Nat.zero_lt_succ 2, haM⟩⟩
    · exact ⟨rfl, rfl, hm.dev, hbl, fun s h => no s h _, fun _ => ⟨Nat.zero_lt_succ 2, hbM⟩⟩
    · exact ⟨rfl, rfl, hm.dev, hm.len, hm.asking, hm.menu⟩
    · exact ⟨rfl, rfl, hm⟩

end
end Ergo
