import Verif.Proof.RefPos
import Verif.Proof.WhyAll
import Verif.Proof.Start
import Verif.Props.Accept
import Verif.Props.AttestFits
/-!
# The reply to a command (C80)
-/
namespace Ergo
open Spec

theorem refusal_none {l : List Demand} (h : AllMet l) : refusal l = none := by
  induction l with
  | nil => rfl
  | cons p l ih =>
    obtain ⟨P, c⟩ := p
    have hP : P := h (P, c) (by simp)
    unfold refusal
    rw [if_pos hP]
    exact ih (fun q hq => h q (by simp [hq]))

theorem refusal_some {l : List Demand} {c : UInt16} (h : FirstUnmet l c) : refusal l = some c := by
  induction h with
  | here hP => unfold refusal; rw [if_neg hP]
  | later hP _ ih => unfold refusal; rw [if_pos hP]; exact ih

theorem find_session {l : List UInt8} {s : UInt8} (h : newSession 0 l = some s) :
    l.find? (fun i => i ≠ 0) = some s := by
  unfold newSession at h
  rw [← h]
  congr 1
  funext i
  by_cases e : i = 0 <;> simp [e]

theorem grant_session {env : Env} {a : Request} {s : UInt8} (hi : a.ins = 0x20 ∨ a.ins = 0x21)
    (h : newSession 0 a.rnd.u8s = some s) : a.grant env = [s] := by
  unfold Request.grant
  rw [if_pos hi, find_session h]; rfl

theorem grant_epk {env : Env} {a : Request} {path : List UInt32} {token : UInt32}
    {pub chain : Bytes} (hi : a.ins = 0x10)
    (hp : parsePathToken a.data (a.p1 = 2) = .ok (path, token))
    (hg : env.genPublic path = some (pub, chain)) : a.grant env = epkResponse pub chain := by
  unfold Request.grant
  rw [if_neg (by rw [hi]; decide), if_neg (by simp [hi]), exports_epk hi hp hg]; rfl

theorem grant_da {env : Env} {a : Request} {n : UInt8} {rest raw : Bytes} {path : List UInt32}
    {token : UInt32} {pub chain : Bytes} (hi : a.ins = 0x11) (h1 : a.p1 = 1) (hd : a.data = n :: rest)
    (hp : parsePathToken rest (a.p2 = 2) = .ok (path, token))
    (hg : env.genPublic path = some (pub, chain))
    (ha : addressFromPubkey env n pub = some raw) : a.grant env = raw := by
  unfold Request.grant
  rw [if_neg (by rw [hi]; decide), if_neg (by simp [h1]), exports_da hi hd hp hg ha]; rfl

theorem grant_show {env : Env} {a : Request} (hi : a.ins = 0x11) (h1 : a.p1 = 2) :
    a.grant env = [] := by
  unfold Request.grant
  rw [if_neg (by rw [hi]; decide), if_pos ⟨hi, h1⟩]

theorem atOnce_iff {a : Request} {app token : UInt32} (ht : a.token = token)
    (hi : a.ins = 0x10 ∨ a.ins = 0x11 ∧ a.p1 = 1 ∨ a.ins = 0x20) :
    a.AtOnce app ↔ token ≠ 0 ∧ token = app := by
  unfold Request.AtOnce
  rw [ht]
  exact ⟨fun h => ⟨h.1, h.2.1⟩, fun h => ⟨h.1, h.2, hi⟩⟩

theorem known_iff {app token : UInt32} :
    (isKnown token app = true ↔ token ≠ 0 ∧ token = app) ∧
    (isKnown app token = true ↔ token ≠ 0 ∧ token = app) := by
  rw [isKnown_iff, isKnown_iff]
  constructor
  · constructor
    · rintro ⟨h1, _, h3⟩; exact ⟨h1, h3.symm⟩
    · rintro ⟨h1, h3⟩; exact ⟨h1, by rw [← h3]; exact h1, h3.symm⟩
  · constructor
    · rintro ⟨_, h2, h3⟩; exact ⟨h2, h3⟩
    · rintro ⟨h1, h3⟩; exact ⟨by rw [← h3]; exact h1, h1, h3⟩

theorem idDrawn_of {a : Request} {s : UInt8} (h : newSession 0 a.rnd.u8s = some s) : a.IdDrawn :=
  fun _ => (newSession_iff _).1 ⟨s, h⟩

theorem idDrawn_export {a : Request} (h : a.ins = 0x10 ∨ a.ins = 0x11) : a.IdDrawn := by
  rintro (g | g) <;> rcases h with h | h <;> rw [h] at g <;> exact absurd g (by decide)

theorem accepted_start {env : Env} {key : Bytes} {g : Ghost} {a : Request}
    (h : a.ins = 0x10 ∨ a.ins = 0x11 ∨ a.ins = 0x20 ∧ a.p1 = 0x01 ∨ a.ins = 0x21 ∧ a.p1 = 0x01) :
    (¬ a.IdDrawn → accepted env key g a = .hang) ∧
    (a.IdDrawn → a.AtOnce g.app → accepted env key g a = .sw 0x9000 (a.grant env)) ∧
    (a.IdDrawn → ¬ a.AtOnce g.app → accepted env key g a = .wait) := by
  have h1 : ¬ a.ins = 0x01 ∧ ¬ a.ins = 0x02 ∧ (a.ins = 0x10 ∨ a.ins = 0x11 ∨ a.p1 = 0x01) := by
    rcases h with h | h | ⟨h, h'⟩ | ⟨h, h'⟩
    · exact ⟨by rw [h]; decide, by rw [h]; decide, .inl h⟩
    · exact ⟨by rw [h]; decide, by rw [h]; decide, .inr (.inl h)⟩
    · exact ⟨by rw [h]; decide, by rw [h]; decide, .inr (.inr h')⟩
    · exact ⟨by rw [h]; decide, by rw [h]; decide, .inr (.inr h')⟩
  unfold accepted
  rw [if_neg h1.1, if_neg h1.2.1, if_pos h1.2.2]
  refine ⟨fun g1 => if_pos g1, fun g1 g2 => ?_, fun g1 g2 => ?_⟩
  · rw [if_neg (not_not.2 g1), if_pos g2]
  · rw [if_neg (not_not.2 g1), if_neg g2]

theorem accepted_attest {env : Env} {key : Bytes} {g : Ghost} {a : Request} {S : AttestSess}
    (h : a.ins = 0x20) (h1 : a.p1 ≠ 0x01) (hS : g.attest = some S) :
    accepted env key g a = .sw 0x9000 (S.answer env key a.p1 a.data) := by
  unfold accepted
  rw [if_neg (by rw [h]; decide), if_neg (by rw [h]; decide), if_neg (by simp [h, h1]), if_pos h, hS]
  rfl

open scoped Classical in
theorem accepted_sign {env : Env} {key : Bytes} {g : Ghost} {a : Request} {S : SignSess}
    (h : a.ins = 0x21) (h1 : a.p1 ≠ 0x01) (hS : g.sign = some S) :
    accepted env key g a = if a.p1 = 0x20 ∨ 0x16 ≤ a.p1 ∧ NeedsDecision S a then .wait
      else .sw 0x9000 [] := by
  unfold accepted
  rw [if_neg (by rw [h]; decide), if_neg (by rw [h]; decide), if_neg (by simp [h, h1]),
    if_neg (by rw [h]; decide)]
  simp [hS]

/-- The reply to any command. -/
theorem reply_apdu {env : Env} {nanoS : Bool} (hwf : env.WF) {key : Bytes} {tr : List Obs} {d : Device}
    (h : Runs env nanoS key tr d) (cla ins p1 p2 : UInt8) (data : Bytes) (rnd : Rnd) :
    (d.step env nanoS (.apdu cla ins p1 p2 data rnd)).2 =
      expected env key tr (.apdu cla ins p1 p2 data rnd) := by
  have hI := h.inv
  have hw := why_all hwf h cla ⟨ins, p1, p2, data, rnd⟩
  simp only at hw
  unfold expected
  dsimp only
  rw [question_eq h]
  rcases hw with ⟨hm, hacc⟩ | ⟨c, hc, _, hr⟩
  swap
  · rw [refusal_some hc, hr]
  rw [refusal_none hm]
  simp only
  have hbn : d.busy = false → d.asks = none := by
    intro hb
    have := busy_screen h hb
    unfold Device.asks; rw [this]
  obtain ⟨d', r, hst, hT⟩ := step_cases env nanoS d (.apdu cla ins p1 p2 data rnd)
  have hr2 : (d.step env nanoS (.apdu cla ins p1 p2 data rnd)).2 = r := by rw [hst]
  rw [hr2] at hacc ⊢
  have noErr : ∀ sw out, sw ≠ Sw.ok → r ≠ .sw sw out := by
    intro sw out hne e
    rw [e] at hacc
    rcases hacc with ⟨o, e⟩ | e | ⟨e, _⟩
    · cases e; exact hne rfl
    · cases e
    · cases e
  cases hT with
  | neutral hn => exact absurd rfl (noErr _ [] (neutral_ghost hn).1)
  | version hl => rfl
  | name hl => rfl
  | abort hb hsw => exact absurd rfl (noErr _ [] hsw)
  | deriveFail hb => exact absurd rfl (noErr _ [] (by decide))
  | @epkSend _ _ _ _ path token pub chain hb h1 hp hv hg hk =>
    refine ((accepted_start (a := ⟨0x10, p1, p2, data, rnd⟩) (.inl rfl)).2.1 (idDrawn_export (.inl rfl))
      ?_).trans ?_ |>.symm
    · rw [atOnce_iff (token_of_epk rfl hp) (.inl rfl), ← hI.app]
      exact known_iff.1.1 hk
    · rw [grant_epk rfl hp hg]; rfl
  | @epkAsk _ _ _ _ path token pub chain t hb h1 hp hv hg hk hf =>
    refine ((accepted_start (a := ⟨0x10, p1, p2, data, rnd⟩) (.inl rfl)).2.2 (idDrawn_export (.inl rfl))
      ?_).symm
    rw [atOnce_iff (token_of_epk rfl hp) (.inl rfl), ← hI.app]
    intro e
    rw [known_iff.1.2 e] at hk
    exact absurd hk (by simp)
  | @daSend _ _ _ _ network rest path token pub chain raw hb h1 h2 hd hp hv hg ha hk =>
    refine ((accepted_start (a := ⟨0x11, p1, p2, data, rnd⟩) (.inr (.inl rfl))).2.1
      (idDrawn_export (.inr rfl)) ?_).trans ?_ |>.symm
    · rw [atOnce_iff (token_of_da rfl hd hp) (.inr (.inl ⟨rfl, h1⟩)), ← hI.app]
      exact known_iff.1.1 hk
    · rw [grant_da rfl h1 hd hp hg ha]; rfl
  | @daAskSend _ _ _ _ network rest path token pub chain raw t hb h1 h2 hd hp hv hg ha hk hf =>
    refine ((accepted_start (a := ⟨0x11, p1, p2, data, rnd⟩) (.inr (.inl rfl))).2.2
      (idDrawn_export (.inr rfl)) ?_).symm
    rw [atOnce_iff (token_of_da rfl hd hp) (.inr (.inl ⟨rfl, h1⟩)), ← hI.app]
    intro e
    rw [known_iff.1.2 e] at hk
    exact absurd hk (by simp)
  | daAskShow hb h1 =>
    refine ((accepted_start (a := ⟨0x11, p1, p2, data, rnd⟩) (.inr (.inl rfl))).2.2
      (idDrawn_export (.inr rfl)) ?_).symm
    rintro ⟨_, _, e | e | e⟩
    · exact absurd e (by simp)
    · rw [show p1 = 1 from e.2] at h1; exact absurd h1 (by decide)
    · exact absurd e (by simp)
  | attestHang hb =>
    refine ((accepted_start (a := ⟨0x20, 0x01, p2, data, rnd⟩) (.inr (.inr (.inl ⟨rfl, rfl⟩)))).1
      ?_).symm
    rcases hacc with ⟨_, e⟩ | e | ⟨_, e⟩
    · cases e
    · cases e
    · intro hid
      obtain ⟨i, h1, h2⟩ := hid (.inl rfl)
      exact h2 (e i h1)
  | @attestKnown _ _ _ x s hb h2 hi hs hk =>
    refine ((accepted_start (a := ⟨0x20, 0x01, p2, data, rnd⟩) (.inr (.inr (.inl ⟨rfl, rfl⟩)))).2.1
      (idDrawn_of hs) ?_).trans ?_ |>.symm
    · rw [atOnce_iff (token_of_attest rfl hi) (.inr (.inr rfl)), ← hI.app]
      exact known_iff.2.1 hk
    · rw [grant_session (.inl rfl) hs]; rfl
  | @attestAsk _ _ _ x s hb h2 hi hs hk =>
    refine ((accepted_start (a := ⟨0x20, 0x01, p2, data, rnd⟩) (.inr (.inr (.inl ⟨rfl, rfl⟩)))).2.2
      (idDrawn_of hs) ?_).symm
    rw [atOnce_iff (token_of_attest rfl hi) (.inr (.inr rfl)), ← hI.app]
    intro e
    rw [known_iff.2.2 e] at hk
    exact absurd hk (by simp)
  | @attestOk _ _ _ _ x x' out hb hl hsub hc hx hs ho =>
    obtain ⟨S, hS, hL⟩ := (command_attest h (hbn hb)).1 hc
    obtain ⟨_, _, _, _, y, hy, hB, _⟩ := ready_attest h hS hL
    rw [hx] at hy
    cases hy
    have hne : p1 ≠ 0x01 := by rcases hsub with rfl | rfl | rfl | rfl <;> decide
    rw [accepted_attest (a := ⟨0x20, p1, p2, data, rnd⟩) rfl hne hS]
    obtain ⟨g1, g2⟩ := C52_exact h hS hL hsub hl rnd
    rw [hB.id, ← hs, hr2] at g1 g2
    refine g1.1 (not_not.1 fun hn => ?_)
    obtain ⟨sw, e1, e2⟩ := g2.1 hn
    cases e2
    exact e1 rfl
  | attestUb hb => rcases hacc with ⟨_, e⟩ | e | ⟨e, _⟩ <;> cases e
  | signHang hb =>
    refine ((accepted_start (a := ⟨0x21, 0x01, p2, data, rnd⟩) (.inr (.inr (.inr ⟨rfl, rfl⟩)))).1
      ?_).symm
    rcases hacc with ⟨_, e⟩ | e | ⟨_, e⟩
    · cases e
    · cases e
    · intro hid
      obtain ⟨i, h1, h2⟩ := hid (.inr rfl)
      exact h2 (e i h1)
  | signInitUb hb => rcases hacc with ⟨_, e⟩ | e | ⟨e, _⟩ <;> cases e
  | @signAsk _ _ _ network path token p s t hb h2 hp hi hs hf =>
    refine ((accepted_start (a := ⟨0x21, 0x01, p2, data, rnd⟩) (.inr (.inr (.inr ⟨rfl, rfl⟩)))).2.2
      (idDrawn_of hs) ?_).symm
    rintro ⟨_, _, e | e | e⟩
    · exact absurd e (by simp)
    · exact absurd e.1 (by simp)
    · exact absurd e (by simp)
  | @signOk _ _ _ _ x p hb hl hsub hc hx hs ha ho hn =>
    obtain ⟨S, hS, hL⟩ := (command_sign h (hbn hb)).1 hc
    obtain ⟨_, _, _, y, hy, _, hid, _⟩ := ready_sign h hS hL (hbn hb)
    rw [hx] at hy
    cases hy
    have hne : p1 ≠ 0x01 := by rintro rfl; exact absurd hsub.1 (by decide)
    have hne2 : p1 ≠ 0x20 := by rintro rfl; exact absurd hsub.2 (by decide)
    have hf : Fits env key (describe S.log) p1 data := by
      rcases C48_exact h hS hL (hbn hb) p1 data hl (.inl hsub) rnd with ⟨g, _⟩ | ⟨_, sw, e1, e2⟩
      · exact g
      · rw [← hid, ← hs, hr2] at e2
        cases e2
        exact absurd rfl e1
    rw [accepted_sign (a := ⟨0x21, p1, p2, data, rnd⟩) rfl hne hS, if_neg]
    · rfl
    rintro (e | ⟨e, o, older, e1, e2, e3⟩)
    · exact hne2 e
    · obtain ⟨o', older', f1, f2, _⟩ := C49_asked h hS hL (hbn hb) p1 data hl e hsub.2 rnd hf
      simp only at e1
      rw [e1] at f1
      cases f1
      rw [← hid, ← hs, hr2] at f2
      have := f2.2 ⟨e2, e3⟩
      cases this
  | @signShow _ _ _ _ x p t o hb hl hsub hc hx hs ha ho hn hu hout =>
    obtain ⟨S, hS, hL⟩ := (command_sign h (hbn hb)).1 hc
    obtain ⟨_, _, _, y, hy, _, hid, _⟩ := ready_sign h hS hL (hbn hb)
    rw [hx] at hy
    cases hy
    have hne : p1 ≠ 0x01 := by rintro rfl; exact absurd hsub.1 (by decide)
    have hsub' : 0x10 ≤ p1 ∧ p1 ≤ 0x1A := ⟨UInt8.le_trans (by decide) hsub.1, hsub.2⟩
    have hf : Fits env key (describe S.log) p1 data := by
      rcases C48_exact h hS hL (hbn hb) p1 data hl (.inl hsub') rnd with ⟨g, _⟩ | ⟨_, sw, e1, e2⟩
      · exact g
      · rw [← hid, ← hs, hr2] at e2
        cases e2
    rw [accepted_sign (a := ⟨0x21, p1, p2, data, rnd⟩) rfl hne hS, if_pos]
    obtain ⟨o', older', f1, f2, _⟩ := C49_asked h hS hL (hbn hb) p1 data hl hsub.1 hsub.2 rnd hf
    rw [← hid, ← hs, hr2] at f2
    exact .inr ⟨hsub.1, o', older', f1, f2.1 rfl⟩
  | signUb hb => rcases hacc with ⟨_, e⟩ | e | ⟨e, _⟩ <;> cases e
  | signConfirm hb hl hc =>
    obtain ⟨S, hS, hL⟩ := (command_sign h (hbn hb)).1 hc
    rw [accepted_sign (a := ⟨0x21, 0x20, p2, data, rnd⟩) rfl (by simp) hS, if_pos (.inl rfl)]
  | idle he => rcases he with he | he | he <;> cases he
  | move he => rcases he with ⟨he, _⟩ | ⟨he, _⟩ <;> cases he
  | moveErr he => rcases he with ⟨he, _⟩ | ⟨he, _⟩ <;> cases he
  | moveUb he => rcases he with ⟨he, _⟩ | ⟨he, _⟩ <;> cases he

end Ergo
