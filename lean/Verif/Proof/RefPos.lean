import Verif.Proof.RefPages
/-!
# Position in the question and meaning of the buttons (C80)
-/
namespace Ergo
open Spec

theorem pagesNow_eq {env : Env} {nanoS : Bool} {key : Bytes} {tr : List Obs} {d : Device}
    (h : Runs env nanoS key tr d) {s : Screen} (hs : d.screen = some s) :
    (know tr).pagesNow = s.flow.ringPages := by
  obtain ⟨a, h1, _, h2⟩ := asked_pages h hs
  unfold Ghost.pagesNow
  rw [h1, h2]; rfl

/-- The position that the observer computes is that on the screen. -/
theorem position_eq {env : Env} {nanoS : Bool} {key : Bytes} {tr : List Obs} {d : Device}
    (h : Runs env nanoS key tr d) : position tr = d.screen.map (fun s => s.flow.ringPos) := by
  induction h with
  | boot => rfl
  | @step tr d e h hh hu ih =>
    have hb : d.busy = false → d.screen = none := busy_screen h
    have hpg := fun s => pagesNow_eq (s := s) h
    have hok := h.inv.asking
    unfold Device.observe
    obtain ⟨d', r, hst, hT⟩ := step_cases env nanoS d e
    rw [hst] at hh hu ⊢
    simp only at hh hu ⊢
    cases hT with
    | neutral h => exact ih
    | version hl => exact ih
    | name hl => exact ih
    | abort hb' => exact ih
    | deriveFail hb' => exact ih
    | epkSend hb' => exact ih
    | epkAsk hb' => rfl
    | daSend hb' => exact ih
    | daAskSend hb' => rfl
    | daAskShow hb' => rfl
    | attestHang hb => exact absurd rfl hh
    | attestKnown hb' => exact ih
    | attestAsk hb' => rfl
    | attestOk hb' => exact ih
    | attestUb hb => exact absurd rfl hu
    | signHang hb => exact absurd rfl hh
    | signInitUb hb => exact absurd rfl hu
    | signAsk hb' => rfl
    | signOk hb' => exact ih
    | @signShow _ _ _ _ _ _ _ o hb' =>
      have hp := outputScreenCount_pos o
      simp only [position, Device.display, Option.map_some, Flow.ringPos, Flow.dynamic]
      rw [if_neg (by omega)]; rfl
    | signUb hb => exact absurd rfl hu
    | @signConfirm _ _ _ x hb' =>
      have hp := txScreenCount_pos x.p.amounts
      simp only [position, Device.display, Option.map_some, Flow.ringPos, Flow.dynamic]
      rw [if_neg (by omega)]; rfl
    | idle he hs =>
      rcases he with rfl | rfl | rfl
      · show (position tr).map _ = _; rw [ih, hs]; rfl
      · show (position tr).map _ = _; rw [ih, hs]; rfl
      · exact ih
    | @move _ s m he hs hm =>
      obtain ⟨a, f0, p1, hf, p3⟩ := hok _ hs
      rcases he with ⟨rfl, rfl⟩ | ⟨rfl, rfl⟩
      · show (position tr).map _ = _
        rw [ih, hs, hpg s hs, hf.pages]
        simp only [Option.map_some]
        rw [hf.pos_left]
      · show (position tr).map _ = _
        rw [ih, hs, hpg s hs, hf.pages]
        simp only [Option.map_some]
        rw [hf.pos_right]
    | moveErr he hs hm hk => rcases he with ⟨rfl, _⟩ | ⟨rfl, _⟩ <;> rfl
    | moveUb he hs hm hk => exact absurd rfl hu
    | click hs h1 h2 h3 => exact ih
    | reject hs h1 => rfl
    | okEpk hs => rfl
    | okDa hs => rfl
    | okAttest hs => rfl
    | okSignInit hs => rfl
    | okSignOutput hs => rfl
    | okSignTx hs => rfl
    | failSignTx hs => rfl
    | actUb hs h1 h => exact absurd rfl hu

/-- The question that the observer computes is that on the screen. -/
theorem question_eq {env : Env} {nanoS : Bool} {key : Bytes} {tr : List Obs} {d : Device}
    (h : Runs env nanoS key tr d) : question tr = d.asks := by
  unfold question
  rw [position_eq h]
  cases hs : d.screen with
  | none => simp [Device.asks, hs]
  | some s =>
    obtain ⟨a, h1, h2, _⟩ := asked_pages h hs
    rw [h2, h1]; rfl

/-- What both buttons mean for a step of a flow. -/
def FlowStep.choice : FlowStep → Choice
  | .approve => .approve
  | .pathApprove _ => .approve
  | .reject => .reject
  | _ => .nothing

/-- What both buttons mean. -/
theorem choice_eq {env : Env} {nanoS : Bool} {key : Bytes} {tr : List Obs} {d : Device}
    (h : Runs env nanoS key tr d) :
    choice tr = (d.here.map FlowStep.choice).getD .nothing := by
  unfold choice
  rw [question_eq h, position_eq h]
  cases hs : d.screen with
  | none => simp [Device.here, hs]
  | some s =>
    have hI := h.inv
    have hA := hI.asks hs
    obtain ⟨a, f0, p1, hf, p3⟩ := hI.asking _ hs
    simp only [Option.map_some, Device.here, hs, Option.getD_some]
    rw [pagesNow_eq h hs, hf.pages]
    obtain ⟨g1, g2, g3⟩ := hf.here_pos
    have hle := hf.pos_le
    by_cases e1 : s.flow.ringPos = f0.ringPages
    · rw [if_pos e1, g1 e1]; rfl
    rw [if_neg e1]
    by_cases e2 : s.flow.ringPos = f0.ringPages + 1
    · rw [if_pos e2, g2 e2]; rfl
    rw [if_neg e2]
    obtain ⟨g4, g5, g6, g7⟩ := g3 (by omega)
    by_cases hpath : ∃ p, s.flow.here = .pathApprove p
    · obtain ⟨p, hp⟩ := hpath
      have h0 : f0.count = 0 := by by_contra hc; exact g7 hc p hp
      rw [hp]
      have hg := g6 h0
      rw [hp] at hg
      rw [if_pos]
      · rfl
      rw [asks_eq hs hf]
      cases hcb : s.cb <;> rw [hcb] at p3
      · exfalso
        obtain ⟨q1, _, _, path, token, pub, chain, t, _, _, _, _, rfl, _⟩ := p3
        revert hg
        generalize s.flow.ringPos = k
        unfold epkSteps Flow.static
        split <;> rcases k with _ | _ | _ | _ | _ | _ | k <;>
          simp [List.getD_eq_getElem?_getD, appIdPage]
      · exfalso
        obtain ⟨q1, _, _, network, rest, path, token, pub, chain, raw, t, _, _, _, _, _, _, h⟩ := p3
        rcases h with ⟨e, rfl, _⟩ | ⟨e, s, _, _, rfl, _⟩
        · revert hg
          generalize s.flow.ringPos = k
          unfold daSendSteps Flow.static
          split <;> rcases k with _ | _ | _ | _ | _ | _ | k <;>
            simp [List.getD_eq_getElem?_getD, appIdPage]
        · revert hg
          generalize Flow.ringPos _ = k
          unfold daShowSteps Flow.static
          split <;> rcases k with _ | _ | _ | _ | _ | _ | k <;>
            simp [List.getD_eq_getElem?_getD, appIdPage]
      · exfalso
        obtain ⟨q1, _, _, _, x, s, _, _, _, rfl, _⟩ := p3
        revert hg
        generalize Flow.ringPos _ = k
        unfold attestSteps Flow.static
        split <;> rcases k with _ | _ | _ | _ | _ | _ | k <;>
          simp [List.getD_eq_getElem?_getD, appIdPage]
      · obtain ⟨q1, q2, _, _, network, path, token, p, s, t, _, _, _, _, _, rfl, _⟩ := p3
        refine ⟨?_, rfl⟩
        revert hg
        generalize Flow.ringPos _ = k
        unfold signInitSteps Flow.static
        split <;> rcases k with _ | _ | _ | _ | _ | _ | k <;>
          simp [List.getD_eq_getElem?_getD, appIdPage]
      · exfalso
        obtain ⟨q1, q2, q3, _, x, S, t, o, _, _, _, _, _, rfl⟩ := p3
        have := outputScreenCount_pos o
        simp only [Flow.dynamic] at h0
        omega
      · exfalso
        obtain ⟨q1, q2, _, x, S, _, _, _, _, _, rfl⟩ := p3
        have := txScreenCount_pos x.p.amounts
        simp only [Flow.dynamic] at h0
        omega
    · rw [if_neg]
      · cases hh : s.flow.here <;> first | rfl | skip
        · exact absurd ⟨_, hh⟩ hpath
        · exact absurd hh g4
        · exact absurd hh g5
      · rintro ⟨k0, hq⟩
        cases hcb : s.cb <;> rw [hcb] at p3 hA <;> simp only [AsksFor] at hA <;>
          rw [hq] at hA <;> simp at hA
        obtain ⟨q1, q2, _, _, network, path, token, p, s', t, _, _, _, _, _, rfl, _⟩ := p3
        apply hpath
        have := g6 rfl
        rw [k0] at this
        rw [this]
        exact ⟨_, rfl⟩

end Ergo
