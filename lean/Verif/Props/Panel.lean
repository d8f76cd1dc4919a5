import Verif.Proof.PanelRun
import Verif.Proof.Demo
/-!
# C61, C62, C63: the array of screens, the order of the answers, the menu

`Panel` is the device together with the array `G_ux_flow_steps` that the SDK displays from, the main menu
in the same array, and the unspecified order in which the places of Approve and Reject are taken.
-/
namespace Ergo
open Spec

section
variable {order : Bool} {env : Env} {nanoS : Bool} {key : Bytes}

/-- C61: in every execution the array keeps its nine entries; while a question is asked it starts with
exactly the steps of the question, the two answers, and the two markers; and no command writes outside
of it, gives up for want of room, or leaves a question undisplayed. -/
theorem C61_array (hwf : env.WF) {es : List Event}
    (hf : Fine (Panel.run order env nanoS (.boot key) es).2) :
    let p := (Panel.run order env nanoS (.boot key) es).1
    p.slots.length = 9 ∧
    (∀ s, p.dev.screen = some s → ∃ l,
      s.flow.steps = l ++ (if order then [.approve, .reject] else [.reject, .approve]) ∧
      .approve ∉ l ∧ .reject ∉ l ∧
      p.slots.take (s.flow.steps.length + 2) = s.flow.steps.map .step ++ [.loop, .stop]) ∧
    (∀ cla ins p1 p2 data rnd,
      (∃ n, (p.dev.paint order env cla ins p1 p2 data rnd p.slots).out = .shown n) ∨
      (p.dev.paint order env cla ins p1 p2 data rnd p.slots).out = .none) := by
  intro p
  have hp : Reached order env nanoS key p := reached_run hwf reached_boot hf
  refine ⟨?_, ?_, paint_out hwf hp⟩
  · obtain ⟨tr, d, h, hm⟩ := hp
    exact hm.len
  · obtain ⟨tr, d, h, hm⟩ := hp
    intro s hs
    cases hds : d.screen with
    | none => rw [hm.dev] at hs; simp [Device.turn, hds] at hs
    | some s0 =>
      have e := hm.screen hds
      rw [hs] at e
      cases e
      obtain ⟨a, f0, _, hfl, _⟩ := h.inv.asking _ hds
      obtain ⟨l, hl, ha⟩ := hm.asking _ hds
      have ht := turn_steps (order := order) hfl hl
      have hno : .approve ∉ l ∧ .reject ∉ l := by
        have hst := hfl.steps
        rw [hl] at hst
        rcases hfl.kind with ⟨⟨l', rfl, hl'⟩, _⟩ | ⟨⟨pg, n, hn, rfl⟩, _⟩
        · have : l = l' := by
            simp only [Flow.static] at hst
            exact (List.append_inj' hst rfl).1
          subst this
          exact ⟨fun hx => by simpa [FlowStep.page?] using hl' _ hx,
            fun hx => by simpa [FlowStep.page?] using hl' _ hx⟩
        · have : l = [.info pg, .upper, .dyn, .lower] :=
            (List.append_inj' (show l ++ [FlowStep.approve, .reject] =
              [.info pg, .upper, .dyn, .lower] ++ [.approve, .reject] from hst) rfl).1
          subst this
          simp
      refine ⟨l, ?_, hno.1, hno.2, ?_⟩
      · rw [ht]; rfl
      · rw [ht, ← ha]
        cases order <;> simp [answersIn]

example : (Panel.run false toyEnv false (.boot []) [cmd 0x10 1 0 demoPath3]).1.slots =
    [.step (.info ⟨.extPubKeyExport, .nothing⟩), .step (.info ⟨.path, .text "44'/429'/0'".toList⟩),
     .step .reject, .step .approve, .loop, .stop, .unset, .unset, .unset] := by decide +kernel

/-- C61: `ui_add_screen` and `ui_next_sreen_ptr` never touch the last entry, the place of the terminator, and never
leave the array, however many screens are asked for. -/
theorem C61_place (x : Screens) (s : Slot) (hl : x.slots.length = 9) :
    (∃ y, x.add s = some y ∧ y.slots.length = 9 ∧ y.slots[8]? = x.slots[8]? ∧
      (x.pos < 8 → y.slots = x.slots.set x.pos s ∧ y.pos = x.pos + 1) ∧ (8 ≤ x.pos → y = x)) ∧
    x.next.1.slots = x.slots ∧ ∀ i, x.next.2 = some i → i = x.pos ∧ i < 8 := by
  unfold Screens.add Screens.next Screens.store maxScreens
  by_cases h : x.pos ≥ 8
  · simp only [h, if_true]
    exact ⟨⟨x, rfl, hl, rfl, fun h' => by omega, fun _ => rfl⟩, trivial, by simp⟩
  · have h' : x.pos < x.slots.length := by omega
    simp only [h, if_false, h', if_true, Option.map_some]
    refine ⟨⟨_, rfl, by simpa using hl, ?_, fun _ => ⟨rfl, rfl⟩, fun h2 => ?_⟩, trivial, ?_⟩
    · exact List.getElem?_set_ne (by omega)
    · exact h2.elim
    · intro i hi
      simp only [Option.some.injEq] at hi
      omega

/- The ninth screen is not stored. -/
example : let x : Screens := ⟨List.replicate 9 .unset, 7⟩
    ((x.add .ready).bind (·.add .quit)) = some ⟨List.replicate 7 .unset ++ [.ready, .unset], 8⟩ := by
  decide +kernel

/-- C61: when Approve is written before Reject, the device with its array is the device of the other
properties: same state, same replies, as long as the application is not left. -/
theorem C61_same (hwf : env.WF) {es : List Event}
    (hon : (Panel.run true env nanoS (.boot key) es).1.off = false)
    (hf : Fine (Device.run env nanoS (.boot key) es).2) :
    let p := Panel.run true env nanoS (.boot key) es
    let d := Device.run env nanoS (.boot key) es
    p.1.dev = d.1 ∧ p.2 = d.2 ∧
      ∀ e, (p.1.step true env nanoS e).2 = (d.1.step env nanoS e).2 := by
  intro p d
  obtain ⟨h1, h2⟩ := same_run hwf es (key := key) .boot (.boot true key) hon hf
  obtain ⟨tr, h⟩ := runs_run es (key := key) .boot hf
  refine ⟨?_, h1, fun e => (same_step hwf h h2 hon e).1⟩
  have := h2.dev
  rwa [Device.turn_true] at this

example : let es := [.right, cmd 0x10 1 0 demoPath3, .left, .left, .both, .left, .both, cmd 0x01 0 0 []]
    (Panel.run true toyEnv false (.boot []) es).1.off = true ∧
    (Panel.run true toyEnv false (.boot []) (es.take 5)).1.off = false ∧
    (Panel.run true toyEnv false (.boot []) (es.take 5)).2.length = 5 := by decide +kernel

/-- C62: the order of Approve and Reject changes nothing but the way to them.  Whatever happens with one
order can be made to happen with the other: the same commands with the same replies, the same pages, the
same answers to the same questions with the same replies, ending in the same state of the device. -/
theorem C62_order (hwf : env.WF) (order' : Bool) {es : List Event}
    (hf : Fine (Panel.run order env nanoS (.boot key) es).2) :
    ∃ es', Fine (Panel.run order' env nanoS (.boot key) es').2 ∧
      Panel.tell order' env nanoS (.boot key) es' = Panel.tell order env nanoS (.boot key) es ∧
      let d := (Panel.run order env nanoS (.boot key) es).1.dev
      let d' := (Panel.run order' env nanoS (.boot key) es').1.dev
      { d' with screen := none } = { d with screen := none } ∧
      d'.asks = d.asks ∧ d'.here = d.here ∧ d'.page env nanoS = d.page env nanoS := by
  obtain ⟨es1, a1, a2, a3⟩ := forward_run hwf es (key := key) .boot (.boot order key) hf
  obtain ⟨es2, b1, b2, b3⟩ := backward_run (order := order') hwf es1 (key := key) .boot
    (.boot order' key) rfl a1
  obtain ⟨tr, h⟩ := runs_run es1 (key := key) .boot a1
  refine ⟨es2, b1, b3.trans a3, ?_⟩
  simp only [a2.dev, b2.dev, turn_asks h, turn_here' h, turn_page h, and_self, and_true]
  rfl

/-- The commands and replies noticed. -/
def Spec.Heard.exchange : Heard → Option (Event × Reply)
  | .told _ e r => some (e, r)
  | _ => none

/-- C62: in particular the host sees the same commands and replies. -/
theorem C62_host (hwf : env.WF) (order' : Bool) {es : List Event}
    (hf : Fine (Panel.run order env nanoS (.boot key) es).2) :
    ∃ es', Fine (Panel.run order' env nanoS (.boot key) es').2 ∧
      (Panel.tell order' env nanoS (.boot key) es').filterMap Heard.exchange =
        (Panel.tell order env nanoS (.boot key) es).filterMap Heard.exchange := by
  obtain ⟨es', h1, h2, _⟩ := C62_order hwf order' hf
  exact ⟨es', h1, by rw [h2]⟩

/- With the one order two presses to the left lead to Approve, with the other one; the answers are the
same. -/
example : let run := fun order es => (Panel.run order toyEnv false (.boot []) (cmd 0x10 1 0 demoPath3 :: es)).2
    (run true [.left, .left, .both]).getLast? = (run false [.left, .both]).getLast? ∧
    (run false [.left, .left, .both]).getLast? = (run true [.left, .both]).getLast? ∧
    (run true [.left, .both]).getLast? = some (.sw 0x6985 []) ∧
    (run false [.left, .both]).getLast? ≠ some (.sw 0x6985 []) := by decide +kernel

/-- A path of ten components that does not fit on the screen. -/
def demoLongPath : Bytes :=
  [10, 0x80, 0, 0, 44, 0x80, 0, 1, 0xAD] ++ (List.replicate 8 [0xFF, 0xFF, 0xFF, 0xFF]).flatten

/-- C63 is false as stated: after a request for a public key whose path does not fit on the screen was
refused, the menu shows the first page of that question. -/
theorem C63_negation : ∃ es : List Event,
    Fine (Panel.run true toyEnv false (.boot []) es).2 ∧
    (Panel.run true toyEnv false (.boot []) es).1.dev.screen = none ∧
    (Panel.run true toyEnv false (.boot []) es).1.menuStep =
      some (.step (.info ⟨.extPubKeyExport, .nothing⟩)) := by
  refine ⟨[cmd 0x10 1 0 demoLongPath], ?_, ?_, ?_⟩
  · have e : (Panel.run true toyEnv false (.boot []) [cmd 0x10 1 0 demoLongPath]).2 =
        [status Sw.bip32FormattingFailed] := by decide +kernel
    rw [e]
    intro r hr
    rw [List.mem_singleton.1 hr]
    simp [status]
  · decide +kernel
  · decide +kernel

/-- C63: while nothing is asked and the application was not left, the page on display is one of the two
menus, unless a command was answered with `SW_BIP32_FORMATTING_FAILED`. -/
theorem C63_menu_partial (hwf : env.WF) {es : List Event}
    (hf : Fine (Panel.run order env nanoS (.boot key) es).2)
    (hno : .sw 0xE101 [] ∉ (Panel.run order env nanoS (.boot key) es).2) :
    let p := (Panel.run order env nanoS (.boot key) es).1
    p.dev.screen = none → p.off = false →
    (p.slots.take 5 = [.ready, .about, .quit, .loop, .stop] ∧
      ∃ x ∈ [Slot.ready, .about, .quit], p.menuStep = some x) ∨
    (p.slots.take 5 = [.info, .version, .back, .loop, .stop] ∧
      ∃ x ∈ [Slot.info, .version, .back], p.menuStep = some x) := by
  intro p hs hoff
  have hp : Reached order env nanoS key p := reached_run hwf reached_boot hf
  have ht : Tidy p := tidy_run hwf es reached_boot tidy_boot hf hno
  obtain ⟨tr, d, h, hm⟩ := hp
  have hds : d.screen = none := by
    cases hds : d.screen with
    | none => rfl
    | some s => rw [hm.screen hds] at hs; simp at hs
  obtain ⟨hlt, _⟩ := hm.menu hds
  have key1 : ∀ x y z : Slot, p.slots.take 5 = [x, y, z, .loop, .stop] →
      ∃ w ∈ [x, y, z], p.menuStep = some w := by
    intro x y z hx
    have e : p.menuStep = (p.slots.take 5)[p.menu]? := by
      unfold Panel.menuStep
      rw [if_neg (by simp [hs, hoff]), List.getElem?_take_of_lt (by omega)]
    rw [e, hx]
    generalize p.menu = m at hlt
    match m, hlt with
    | 0, _ => exact ⟨x, by simp, rfl⟩
    | 1, _ => exact ⟨y, by simp, rfl⟩
    | 2, _ => exact ⟨z, by simp, rfl⟩
  rcases ht hs with h5 | h5
  · exact .inl ⟨h5, key1 _ _ _ h5⟩
  · exact .inr ⟨h5, key1 _ _ _ h5⟩

example : (Panel.run true toyEnv false (.boot []) [.right, .both, .left]).1.menuStep = some .back ∧
    (Panel.run true toyEnv false (.boot []) [.right, .both, .left, .both]).1.menuStep = some .ready ∧
    (Panel.run true toyEnv false (.boot []) [.left, .both]).1.off = true := by decide +kernel

/-- C63: in any case only the first of the three entries can be wrong, and what it then shows is the
first page of a question, without a callback: nothing can be approved from the menu. -/
theorem C63_entries_partial (hwf : env.WF) {es : List Event}
    (hf : Fine (Panel.run order env nanoS (.boot key) es).2) :
    let p := (Panel.run order env nanoS (.boot key) es).1
    p.dev.screen = none → p.menu < 3 ∧ ∃ x y z rest, p.slots = x :: y :: z :: .loop :: .stop :: rest ∧
      (y = .about ∧ z = .quit ∧ (x = .ready ∨ ∃ t, x = .step (.info ⟨t, .nothing⟩)) ∨
       y = .version ∧ z = .back ∧ (x = .info ∨ ∃ t, x = .step (.info ⟨t, .nothing⟩))) := by
  intro p hs
  obtain ⟨tr, d, h, hm⟩ : Reached order env nanoS key p := reached_run hwf reached_boot hf
  have hds : d.screen = none := by
    cases hds : d.screen with
    | none => rfl
    | some s => rw [hm.screen hds] at hs; simp at hs
  obtain ⟨hlt, x, rest, hsl, hM⟩ := hm.menu hds
  refine ⟨hlt, ?_⟩
  have hst : Stray x → ∃ t, x = .step (.info ⟨t, .nothing⟩) := fun ⟨t, _, e⟩ => ⟨t, e⟩
  rw [hsl]
  rcases hM with ⟨h4, hx⟩ | ⟨h4, hx⟩
  · refine ⟨x, .about, .quit, rest.drop 4, ?_, .inl ⟨rfl, rfl, hx.imp_right hst⟩⟩
    rw [show Slot.about :: .quit :: .loop :: .stop :: rest.drop 4 = rest.take 4 ++ rest.drop 4 by rw [h4]; rfl,
      List.take_append_drop]
  · refine ⟨x, .version, .back, rest.drop 4, ?_, .inr ⟨rfl, rfl, hx.imp_right hst⟩⟩
    rw [show Slot.version :: .back :: .loop :: .stop :: rest.drop 4 = rest.take 4 ++ rest.drop 4 by rw [h4]; rfl,
      List.take_append_drop]

example : (Panel.run true toyEnv false (.boot []) [cmd 0x10 1 0 demoLongPath]).1.slots.take 5 =
    [.step (.info ⟨.extPubKeyExport, .nothing⟩), .about, .quit, .loop, .stop] ∧
  (Panel.run true toyEnv false (.boot [])
    [cmd 0x10 1 0 demoLongPath, .right, .both, .left, .both]).1.menuStep = some .ready := by
  decide +kernel

/-- C63: buttons in the menu are not answered to the host and do not change the device; the application
is left exactly by pressing both buttons at Quit. -/
theorem C63_buttons (hwf : env.WF) {es : List Event}
    (hf : Fine (Panel.run order env nanoS (.boot key) es).2) (e : Event) :
    let p := (Panel.run order env nanoS (.boot key) es).1
    p.off = false →
    ((p.step order env nanoS e).1.off = true ↔ e = .both ∧ p.menuStep = some .quit) ∧
    (p.dev.screen = none → (∀ cla ins p1 p2 data rnd, e ≠ .apdu cla ins p1 p2 data rnd) →
      (p.step order env nanoS e).2 = .wait ∧ (p.step order env nanoS e).1.dev = p.dev) := by
  intro p hoff
  obtain ⟨tr, d, h, hm⟩ : Reached order env nanoS key p := reached_run hwf reached_boot hf
  by_cases he : isPress e = true
  · cases hs : p.dev.screen with
    | none =>
      have hds : d.screen = none := by
        cases hds : d.screen with
        | none => rfl
        | some s => rw [hm.screen hds] at hs; simp at hs
      rw [step_browse hoff hs he]
      obtain ⟨g1, g2, _⟩ := hm.browse hds he
      refine ⟨?_, fun _ _ => ⟨g1, g2⟩⟩
      have hmenu : p.menuStep = p.slots[p.menu]? := by simp [Panel.menuStep, hs, hoff]
      obtain ⟨hlt, _⟩ := hm.menu hds
      have hl := hm.len
      have hget : p.slots[p.menu]? = some (p.slots.getD p.menu .unset) := by
        rw [List.getD_eq_getElem?_getD, List.getElem?_eq_getElem (by omega)]; rfl
      obtain ⟨a, ha, _⟩ := paintAbout_ok hm.len
      obtain ⟨b, hb, _⟩ := paintMain_ok hm.len
      rw [hmenu, hget]
      cases e with
      | apdu => simp [isPress] at he
      | left => simp [Panel.browse, hoff]
      | right => simp [Panel.browse, hoff]
      | both =>
        unfold Panel.browse
        generalize p.slots.getD p.menu .unset = x
        cases x <;> simp [ha, hb, hoff]
    | some s =>
      rw [step_press hoff (by rw [hs]; rfl) he, (press_reply hm.len e).2, hoff]
      refine ⟨?_, fun h => by simp at h⟩
      have hmenu : p.menuStep = none := by simp [Panel.menuStep, hs]
      rw [hmenu]
      simp
  · cases e with
    | apdu cla ins p1 p2 data rnd =>
      have e0 : p.step order env nanoS (.apdu cla ins p1 p2 data rnd) =
          p.command order env nanoS cla ins p1 p2 data rnd := by simp [Panel.step, hoff]
      refine ⟨?_, fun _ hx => absurd rfl (hx _ _ _ _ _ _)⟩
      rw [e0, (hm.command hwf h cla ins p1 p2 data rnd).2.1, hoff]
      simp
    | _ => simp [isPress] at he

example : (Panel.run true toyEnv false (.boot []) [.left]).1.menuStep = some .quit ∧
    (Panel.run true toyEnv false (.boot []) [cmd 0x10 1 0 demoPath3, .left, .both]).1.off = false ∧
    (Panel.run true toyEnv false (.boot []) [cmd 0x10 1 0 demoPath3, .left, .both, .left, .both]).1.off =
      true := by decide +kernel

/-- C63: when a question was answered or given up, the main menu is back at its first entry. -/
theorem C63_back (hwf : env.WF) {es : List Event}
    (hf : Fine (Panel.run order env nanoS (.boot key) es).2) (e : Event) :
    let p := (Panel.run order env nanoS (.boot key) es).1
    p.dev.screen.isSome → (p.step order env nanoS e).1.dev.screen = none → p.off = false →
    (p.step order env nanoS e).1.menuStep = some .ready ∧
      (p.step order env nanoS e).1.slots.take 5 = [.ready, .about, .quit, .loop, .stop] := by
  intro p hs hn hoff
  obtain ⟨tr, d, h, hm⟩ : Reached order env nanoS key p := reached_run hwf reached_boot hf
  by_cases he : isPress e = true
  · rw [step_press hoff hs he, press_eq hm.len] at hn ⊢
    rw [settle_dev] at hn
    obtain ⟨b, hb, _⟩ := paintMain_ok hm.len
    have ht := paintMain_take hm.len hb
    unfold Panel.settle
    simp only [hn, hb, Option.getD_some]
    refine ⟨?_, ht⟩
    simp only [Panel.menuStep, hn, hoff, Option.isSome_none, Bool.false_eq_true, or_self, if_false]
    have e0 : b[0]? = (b.take 5)[0]? := by rw [List.getElem?_take_of_lt (by omega)]
    rw [e0, ht]
    rfl
  · cases e with
    | apdu cla ins p1 p2 data rnd =>
      exfalso
      have e0 : p.step order env nanoS (.apdu cla ins p1 p2 data rnd) =
          p.command order env nanoS cla ins p1 p2 data rnd := by simp [Panel.step, hoff]
      rw [e0] at hn
      have hds : d.screen.isSome := by
        cases hds : d.screen with
        | some s => rfl
        | none => rw [hm.dev] at hs; simp [Device.turn, hds] at hs
      obtain ⟨s, hds⟩ := Option.isSome_iff_exists.1 hds
      have hb' : p.dev.busy = true := by rw [hm.dev]; exact h.asking_busy hds
      unfold Panel.command at hn
      rw [busy_paint hb'] at hn
      simp only at hn
      rw [(busy_apdu (nanoS := nanoS) (env := env) hb' cla ins p1 p2 data rnd).1] at hn
      rw [hn] at hs
      simp at hs
    | _ => simp [isPress] at he

example : (Panel.run true toyEnv false (.boot [])
    [.right, .both, .right, cmd 0x10 1 0 demoPath3, .left, .both]).1.menuStep = some .ready := by
  decide +kernel

end
end Ergo
