import Verif.Proof.Display
import Verif.Proof.RefBoth
/-!
# What is on the display (C81)
-/
namespace Ergo
open Spec

/-- The dynamic page on display was drawn. -/
theorem drawn_now {env : Env} {nanoS : Bool} {key : Bytes} {tr : List Obs} {d : Device}
    (h : Runs env nanoS key tr d) : ∀ s k, d.screen = some s → s.flow.cur = some k →
      ∃ p, d.show env nanoS s.cb k = .page p := by
  induction h with
  | boot => intro s k hs; cases hs
  | @step tr d e h hh hu ih =>
    have hb : d.busy = false → d.screen = none := busy_screen h
    have hok := h.inv.asking
    obtain ⟨d', r, hst, hT⟩ := step_cases env nanoS d e
    rw [hst] at hh hu ⊢
    simp only at hh hu ⊢
    have none : ∀ {d' : Device}, d'.screen = none → ∀ s k, d'.screen = some s → s.flow.cur = some k →
        ∃ p, d'.show env nanoS s.cb k = .page p := by
      intro d' hn s k hs; rw [hn] at hs; cases hs
    have fresh : ∀ {d0 : Device} {f : Flow} {cb : Callback}, f.cur = Option.none → ∀ s k,
        (d0.display f cb).screen = some s → s.flow.cur = some k →
        ∃ p, (d0.display f cb).show env nanoS s.cb k = .page p := by
      intro d0 f cb hf s k hs hk
      simp only [Device.display, Option.some.injEq] at hs
      subst hs
      rw [hf] at hk; cases hk
    cases hT with
    | neutral h => exact ih
    | version hl => exact ih
    | name hl => exact ih
    | abort hb' => exact none (hb hb')
    | deriveFail hb' => exact none (hb hb')
    | epkSend hb' => exact none (hb hb')
    | epkAsk hb' => exact fresh rfl
    | daSend hb' => exact none (hb hb')
    | daAskSend hb' => exact fresh rfl
    | daAskShow hb' => exact fresh rfl
    | attestHang hb => exact absurd rfl hh
    | attestKnown hb' => exact none (hb hb')
    | attestAsk hb' => exact fresh rfl
    | attestOk hb' => exact none (hb hb')
    | attestUb hb => exact absurd rfl hu
    | signHang hb => exact absurd rfl hh
    | signInitUb hb => exact absurd rfl hu
    | signAsk hb' => exact fresh rfl
    | signOk hb' => exact none (hb hb')
    | signShow hb' => exact fresh rfl
    | signUb hb => exact absurd rfl hu
    | signConfirm hb' => exact fresh rfl
    | idle he hs => exact ih
    | @move _ s m he hs hm =>
      intro s' k hs' hk
      simp only [Option.some.injEq] at hs'
      subst hs'
      obtain ⟨a, f0, p1, hf, p3⟩ := hok _ hs
      have hd : m.draw = some k := by
        rcases he with ⟨_, rfl⟩ | ⟨_, rfl⟩
        · exact (hf.left.2 k).2 hk
        · exact (hf.right.2 k).2 hk
      exact hm k hd
    | moveErr he hs hm hk => exact none rfl
    | moveUb he hs hm hk => exact absurd rfl hu
    | click hs h1 h2 h3 => exact ih
    | reject hs h1 => exact none rfl
    | okEpk hs => exact none rfl
    | okDa hs => exact none rfl
    | okAttest hs => exact none rfl
    | okSignInit hs => exact none rfl
    | okSignOutput hs => exact none rfl
    | okSignTx hs => exact none rfl
    | failSignTx hs => exact none rfl
    | actUb hs h1 h => exact absurd rfl hu

/-- All pages of the flow on display, in order. -/
def Device.allPages (env : Env) (nanoS : Bool) (d : Device) : List ShowRes :=
  d.pages.map .page ++ d.dynPages env nanoS

/-- The step at a position. -/
theorem static_at {l : List FlowStep} (hl : ∀ s ∈ l, (FlowStep.page? s).isSome) (k : Nat) :
    ((l ++ [FlowStep.approve, FlowStep.reject]).getD k .reject).page? =
      ((l ++ [FlowStep.approve, FlowStep.reject]).filterMap FlowStep.page?)[k]? := by
  have hfm : l.filterMap FlowStep.page? = l.map (fun s => s.page?.getD ⟨.fee, .nothing⟩) := by
    rw [← List.filterMap_eq_map]
    apply List.filterMap_congr
    intro s hs
    obtain ⟨p, hp⟩ := Option.isSome_iff_exists.1 (hl s hs)
    simp [hp]
  rw [List.filterMap_append]
  have e : List.filterMap FlowStep.page? [FlowStep.approve, FlowStep.reject] = [] := rfl
  rw [e, List.append_nil, hfm, List.getElem?_map, List.getD_eq_getElem?_getD]
  by_cases hk : k < l.length
  · rw [List.getElem?_append_left hk, List.getElem?_eq_getElem hk]
    obtain ⟨p, hp⟩ := Option.isSome_iff_exists.1 (hl _ (List.getElem_mem hk))
    simp [hp]
  · rw [List.getElem?_append_right (by omega), List.getElem?_eq_none (l := l) (by omega)]
    obtain ⟨j, hj⟩ : ∃ j, k - l.length = j := ⟨_, rfl⟩
    rw [hj]
    rcases j with _ | _ | j <;> simp [FlowStep.page?]

/-- The page at a position of a flow. -/
theorem page_at {env : Env} {nanoS : Bool} {d : Device} {s : Screen} (hs : d.screen = some s)
    {f0 f : Flow} (hf : FlowOk f0 s.flow) (hf' : FlowOk f0 f) :
    (d.allPages env nanoS)[f.ringPos]? =
      match f.cur with
      | some k => some (d.show env nanoS s.cb k)
      | none => f.here.page?.map .page := by
  unfold Device.allPages
  rw [dynPages_eq hs hf, pages_eq hs hf]
  obtain ⟨g1, g2, g3⟩ := hf'
  obtain ⟨steps, idx, count, cur⟩ := f
  simp only at g1 g2 g3
  subst g1 g2
  rcases g3 with ⟨⟨l, rfl, hl⟩, h2, rfl⟩ | ⟨⟨p, n, hn, rfl⟩, h2⟩
  · have h0 : (Flow.static l).count = 0 := rfl
    have hst : (Flow.static l).steps = l ++ [.approve, .reject] := rfl
    simp only [Flow.ringPos, h0, if_true, List.range_zero, List.map_nil, List.append_nil, Flow.here, hst]
    rw [static_at hl, List.getElem?_map]
  · have h0 : (Flow.dynamic p n).count = n := rfl
    have hst : (Flow.dynamic p n).steps.filterMap FlowStep.page? = [p] := rfl
    rw [hst, h0]
    have hn0 : n ≠ 0 := by omega
    rcases h2 with ⟨rfl, rfl⟩ | ⟨rfl | rfl, rfl⟩ | ⟨rfl, k, hk, rfl⟩
    · simp [Flow.ringPos, hn0, Flow.here, Flow.dynamic, FlowStep.page?]
    · simp [Flow.ringPos, hn0, Flow.here, Flow.dynamic, FlowStep.page?]
    · simp [Flow.ringPos, hn0, Flow.here, Flow.dynamic, FlowStep.page?]
    · rw [h0] at hk
      simp [Flow.ringPos, hn0, hk]

/-- The pages of the question on display are those of the table. -/
theorem shownNow_eq {env : Env} (hwf : env.WF) {nanoS : Bool} {key : Bytes} {tr : List Obs} {d : Device}
    (h : Runs env nanoS key tr d) {s : Screen} (hs : d.screen = some s) :
    (know tr).shownNow env nanoS = d.allPages env nanoS := by
  have hI := h.inv
  have hA := hI.asks hs
  obtain ⟨a, f0, p1, hf, p3⟩ := hI.asking _ hs
  obtain ⟨c1, c2, c3, c4, c5⟩ := C16_screen h
  have hstat : f0.count = 0 → d.dynPages env nanoS = [] := by
    intro h0; rw [dynPages_eq hs hf, h0]; rfl
  obtain ⟨a', e1, e2, _⟩ := asked_pages h hs
  rw [p1] at e1
  cases e1
  unfold Ghost.shownNow Device.allPages
  rw [p1]
  simp only [Option.map_some, Option.getD_some]
  unfold Ghost.shown
  have take : ∀ {t : Title}, d.asks = some t → a.title = t := by
    intro t ht; rw [e2] at ht; exact Option.some.inj ht
  cases hcb : s.cb <;> rw [hcb] at p3 hA
  · have hA' : d.asks = some .extPubKeyExport := hA
    obtain ⟨q1, _, _, path, token, pub, chain, t, _, _, _, _, rfl, _⟩ := p3
    obtain ⟨a2, b1, b2, _, b4⟩ := c1 hA'
    rw [p1] at b1
    cases b1
    rw [b4, hstat rfl, if_neg (by simp [q1]), if_neg (by rw [q1]; decide),
      if_neg (by rw [q1]; decide), if_pos q1, take hA']
    simp
  · obtain ⟨q1, _, _, network, rest, path, token, pub, chain, raw, t, _, _, _, _, _, _, hh⟩ := p3
    have h0 : f0.count = 0 := by rcases hh with ⟨_, rfl, _⟩ | ⟨_, s, _, _, rfl, _⟩ <;> rfl
    rw [hstat h0, if_neg (by simp [q1]), if_neg (by rw [q1]; decide),
      if_neg (by rw [q1]; decide), if_neg (by rw [q1]; decide)]
    rcases hA with hA' | hA'
    · obtain ⟨a2, b1, b2, b3, _, b4⟩ := c2 hA'
      rw [p1] at b1
      cases b1
      rw [b4, if_neg (by rw [b3]; decide), take hA']
      simp
    · obtain ⟨a2, raw2, b1, b2, b3, _, b5, b4⟩ := c3 hA'
      rw [p1] at b1
      cases b1
      rw [b4, if_pos b3, take hA', b5]
      simp
  · have hA' : d.asks = some .confirmAttest := hA
    obtain ⟨q1, _, _, _, x, s, _, _, _, rfl, _⟩ := p3
    obtain ⟨a2, b1, b2, _, b4⟩ := c4 hA'
    rw [p1] at b1
    cases b1
    rw [b4, hstat rfl, if_neg (by simp [q1]), if_neg (by rw [q1]; decide), if_pos q1, take hA']
    simp
  · have hA' : d.asks = some .p2pkSigning := hA
    obtain ⟨q1, q2, _, _, network, path, token, p, s, t, _, _, _, _, _, rfl, _⟩ := p3
    obtain ⟨a2, b1, b2, _, _, b4⟩ := c5 hA'
    rw [p1] at b1
    cases b1
    rw [b4, hstat rfl, if_neg (by rintro ⟨_, e⟩; exact e q2), if_pos q1, take hA']
    simp
  · have hA' : d.asks = some .confirmOutput := hA
    obtain ⟨q1, q2, q3, _, x, S, t, o, _, hS, _, _, _, rfl⟩ := p3
    have ne1 : ¬ a.p1 = 0x01 := by rintro e; rw [e] at q2; exact absurd q2 (by decide)
    have ne2 : ¬ a.p1 = 0x20 := by rintro e; rw [e] at q3; exact absurd q3 (by decide)
    rw [if_pos ⟨q1, ne1⟩, hS]
    simp only
    rw [if_neg ne2, take hA', out_shown hwf h hA' hS, pages_eq hs hf]
    rfl
  · have hA' : d.asks = some .approveSigning := hA
    obtain ⟨q1, q2, _, x, S, _, hS, _, _, _, rfl⟩ := p3
    rw [if_pos ⟨q1, by rw [q2]; decide⟩, hS]
    simp only
    rw [if_pos q2, take hA', tx_shown h hA' hS, pages_eq hs hf]
    rfl

/-- What is on display is given by the table. -/
theorem display_eq {env : Env} (hwf : env.WF) {nanoS : Bool} {key : Bytes} {tr : List Obs} {d : Device}
    (h : Runs env nanoS key tr d) : (d.page env nanoS).map .page = display env nanoS tr := by
  unfold display
  rw [position_eq h]
  cases hs : d.screen with
  | none => simp [Device.page, hs]
  | some s =>
    obtain ⟨a, f0, p1, hf, p3⟩ := h.inv.asking _ hs
    simp only [Option.map_some, Option.bind_some]
    rw [shownNow_eq hwf h hs, page_at hs hf hf]
    have hd := drawn_now h s
    simp only [Device.page, hs]
    have hdyn := (C40_slots h hs).2.2.2.2.2.2.2
    cases hc : s.flow.cur with
    | none =>
      simp only
      cases hh : s.flow.here <;> simp [FlowStep.page?]
    | some k =>
      obtain ⟨p, hp⟩ := hd k hs hc
      have : s.flow.here = .dyn := by
        rcases hf.kind with ⟨_, _, e⟩ | ⟨⟨p, n, hn, rfl⟩, e⟩
        · rw [hc] at e; cases e
        · unfold Flow.here
          rw [hf.steps]
          rcases e with ⟨_, e⟩ | ⟨_, e⟩ | ⟨e, _⟩
          · rw [hc] at e; cases e
          · rw [hc] at e; cases e
          · rw [e]; rfl
      simp [this, hp]

/-- The reply to paging, exactly. -/
theorem reply_moved {env : Env} (hwf : env.WF) {nanoS : Bool} {key : Bytes} {tr : List Obs} {d : Device}
    (h : Runs env nanoS key tr d) {e : Event} (he : e = .left ∨ e = .right) :
    (d.step env nanoS e).2 = foretold env nanoS key tr e := by
  obtain ⟨d', r, hst, hT⟩ := step_cases env nanoS d e
  rw [show (d.step env nanoS e).2 = r by rw [hst]]
  have hp := position_eq h
  have go : ∀ {s f0 m}, d.screen = some s → FlowOk f0 s.flow →
      (e = .left ∧ m = s.flow.left ∨ e = .right ∧ m = s.flow.right) →
      foretold env nanoS key tr e = reached (d.allPages env nanoS)[m.flow.ringPos]? ∧
      FlowOk f0 m.flow ∧ ∀ k, m.draw = some k ↔ m.flow.cur = some k := by
    intro s f0 m hs hf hm
    have hpg := pagesNow_eq h hs
    rw [hf.pages] at hpg
    rw [hs] at hp
    rcases hm with ⟨rfl, rfl⟩ | ⟨rfl, rfl⟩
    · refine ⟨?_, hf.left⟩
      unfold foretold; dsimp only
      rw [hp, shownNow_eq hwf h hs, hpg, hf.pos_left]; rfl
    · refine ⟨?_, hf.right⟩
      unfold foretold; dsimp only
      rw [hp, shownNow_eq hwf h hs, hpg, hf.pos_right]; rfl
  cases hT with
  | idle he' hs =>
    rw [hs] at hp
    rcases he with rfl | rfl <;> unfold foretold <;> dsimp only <;> rw [hp] <;> rfl
  | @move _ s m hm hs hd =>
    obtain ⟨a, f0, p1, hf, p3⟩ := h.inv.asking _ hs
    obtain ⟨g1, g2, g3⟩ := go hs hf hm
    rw [g1, page_at hs hf g2]
    cases hc : m.flow.cur with
    | none =>
      simp only
      cases m.flow.here.page? <;> rfl
    | some k =>
      obtain ⟨p, hk⟩ := hd k ((g3 k).2 hc)
      simp only [hk]; rfl
  | @moveErr _ s m k sw hm hs hd hk =>
    obtain ⟨a, f0, p1, hf, p3⟩ := h.inv.asking _ hs
    obtain ⟨g1, g2, g3⟩ := go hs hf hm
    rw [g1, page_at hs hf g2, (g3 k).1 hd]
    simp only [hk]; rfl
  | @moveUb _ s m k hm hs hd hk =>
    obtain ⟨a, f0, p1, hf, p3⟩ := h.inv.asking _ hs
    obtain ⟨g1, g2, g3⟩ := go hs hf hm
    rw [g1, page_at hs hf g2, (g3 k).1 hd]
    simp only [hk]; rfl
  | _ => rcases he with he | he <;> cases he

end Ergo
