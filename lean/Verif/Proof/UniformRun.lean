import Verif.Proof.Uniform
import Verif.Props.Reference
import Verif.Props.Secrets
/-!
# The same execution with other random draws
-/
namespace Ergo
open Spec

/-- Same observation and same event, up to the draws. -/
def SameBoth (env : Env) (o o' : Obs) : Prop := SameObs o o' ∧ SameEvent env env o.event o'.event

theorem SameEvent.rfl' {env : Env} (e : Event) : SameEvent env env e e := by
  cases e with
  | apdu cla ins p1 p2 data rnd => exact .apdu fun _ _ => rfl
  | left => exact .left
  | right => exact .right
  | both => exact .both

theorem sameBoth_of {env : Env} {tr tr' : List Obs} (h : List.Forall₂ SameObs tr tr')
    (h' : List.Forall₂ (SameEvent env env) (tr.map (·.event)) (tr'.map (·.event))) :
    List.Forall₂ (SameBoth env) tr tr' := by
  induction h with
  | nil => exact .nil
  | cons h1 h2 ih =>
    rw [List.map_cons, List.map_cons, List.forall₂_cons] at h'
    exact .cons ⟨h1, h'.1⟩ (ih h'.2)

theorem forall₂_split {α β : Type} {R : α → β → Prop} : ∀ {a b : List α} {a' b' : List β},
    a.length = a'.length → List.Forall₂ R (a ++ b) (a' ++ b') →
    List.Forall₂ R a a' ∧ List.Forall₂ R b b'
  | [], _, [], _, _, h => ⟨.nil, h⟩
  | _ :: _, _, _ :: _, _, hl, .cons h1 h2 =>
    have := forall₂_split (by simpa using hl) h2
    ⟨.cons h1 this.1, this.2⟩

theorem SameBoth.starts {env : Env} {o o' : Obs} (h : SameBoth env o o') : StartsSign o' → StartsSign o := by
  obtain ⟨asked, here, e, r⟩ := o
  obtain ⟨asked', here', e', r'⟩ := o'
  obtain ⟨⟨_, _, h1⟩, h2⟩ := h
  simp only at h1 h2
  rintro ⟨hr, cla, p2, data, rnd, he⟩
  simp only at hr he
  subst hr he
  generalize hev : Event.apdu cla 0x21 0x01 p2 data rnd = e' at h2
  cases h2 with
  | apdu _ =>
    cases hev
    rcases h1 with h1 | ⟨_, _, h1, _⟩
    · exact ⟨h1.symm, _, _, _, _, rfl⟩
    · cases h1
  | left => cases hev
  | right => cases hev
  | both => cases hev

/-- The events determine the execution. -/
theorem runs_det {env : Env} {nanoS : Bool} {key : Bytes} {tr : List Obs} {d : Device}
    (h : Runs env nanoS key tr d) : ∀ {tr' : List Obs} {d' : Device}, Runs env nanoS key tr' d' →
    tr.map (·.event) = tr'.map (·.event) → tr = tr' ∧ d = d' := by
  induction h with
  | boot =>
    intro tr' d' h' he
    cases h' with
    | boot => exact ⟨rfl, rfl⟩
    | step e _ _ _ => simp at he
  | step e _ _ _ ih =>
    intro tr' d' h' he
    cases h' with
    | boot => simp at he
    | step e' r' _ _ =>
      simp only [List.map_cons, List.cons.injEq] at he
      obtain ⟨h1, h2⟩ := he
      have h1 : e = e' := h1
      obtain ⟨rfl, rfl⟩ := ih r' h2
      subst h1
      exact ⟨rfl, rfl⟩

/-- Without the draws. -/
def Spec.Request.bare (a : Request) : Request := { a with rnd := ⟨a.rnd.u8s, fun _ => []⟩ }

def Spec.Ghost.bare (g : Ghost) : Ghost :=
  ⟨g.pending.map Request.bare, g.app, g.sign.map fun S => { S with start := S.start.bare },
    g.attest.map fun S => { S with start := S.start.bare }⟩

theorem bare_token (a : Request) : a.bare.token = a.token := rfl

theorem bare_close {g g' : Ghost} (h : g.bare = g'.bare) : g.close.bare = g'.close.bare := by
  simp only [Ghost.bare, Ghost.close, Ghost.mk.injEq] at h ⊢
  simp [h.1, h.2.1]

theorem bare_log {g g' : Ghost} (h : g.bare = g'.bare) (e : Entry) : (g.log e).bare = (g'.log e).bare := by
  obtain ⟨p, a, s, t⟩ := g
  obtain ⟨p', a', s', t'⟩ := g'
  simp only [Ghost.bare, Ghost.log, Ghost.mk.injEq] at h ⊢
  refine ⟨h.1, h.2.1, ?_, h.2.2.2⟩
  have h3 := h.2.2.1
  cases s with
  | none => cases s' with
    | none => rfl
    | some s' => simp at h3
  | some s => cases s' with
    | none => simp at h3
    | some s' =>
      simp only [Option.map_some, Option.some.injEq, SignSess.mk.injEq] at h3 ⊢
      simp [h3]

theorem bare_token_map {p p' : Option Request} (h : p.map Request.bare = p'.map Request.bare) :
    p.map Request.token = p'.map Request.token := by
  cases p <;> cases p' <;> simp only [Option.map_none, Option.map_some, Option.some.injEq, reduceCtorEq] at h ⊢
  rw [← bare_token, h, bare_token]

theorem bare_next {env : Env} {g g' : Ghost} {o o' : Obs} (h : g.bare = g'.bare) (ho : SameBoth env o o') :
    (g.next o).bare = (g'.next o').bare := by
  obtain ⟨asked, here, e, r⟩ := o
  obtain ⟨asked', here', e', r'⟩ := o'
  obtain ⟨⟨h1, _, h2⟩, h3⟩ := ho
  simp only at h1 h2 h3
  subst h1
  have hg := h
  simp only [Ghost.bare, Ghost.mk.injEq] at hg
  cases h3 with
  | left =>
    rcases h2 with rfl | ⟨_, _, h2, _⟩
    · cases r' <;> first | exact h | exact bare_close h
    · cases h2
  | right =>
    rcases h2 with rfl | ⟨_, _, h2, _⟩
    · cases r' <;> first | exact h | exact bare_close h
    · cases h2
  | both =>
    rcases h2 with rfl | ⟨rfl, _, _, ⟨sw, out, rfl⟩, sw', out', rfl⟩
    · cases r' with
      | sw code out =>
        simp only [Ghost.next]
        split
        · unfold Ghost.onApprove
          split
          · exact bare_log h _
          · exact bare_close h
          · simp only [Ghost.bare, Ghost.mk.injEq, Option.map_map]
            refine ⟨hg.1, by rw [bare_token_map hg.1], ?_, hg.2.2.2⟩
            have := congrArg (Option.map fun a : Request => (⟨a, out.headD 0, []⟩ : SignSess)) hg.1
            rw [Option.map_map, Option.map_map] at this
            exact this
          · simp only [Ghost.bare, Ghost.mk.injEq, Option.map_map]
            refine ⟨hg.1, by rw [bare_token_map hg.1], hg.2.2.1, ?_⟩
            have := congrArg (Option.map fun a : Request => (⟨a, out.headD 0, true, g.app, []⟩ : AttestSess)) hg.1
            rw [Option.map_map, Option.map_map] at this
            rw [← hg.2.1]
            exact this
          · simp only [Ghost.bare, Ghost.mk.injEq]
            exact ⟨hg.1, by rw [bare_token_map hg.1], hg.2.2⟩
        · exact bare_close h
      | _ => exact h
    · have a : ∀ (g : Ghost) here, g.next ⟨some .approveSigning, here, .both, .sw sw out⟩ = g.close := by
        intro g here; simp only [Ghost.next, Ghost.onApprove, ite_self]
      have b : ∀ (g : Ghost) here, g.next ⟨some .approveSigning, here, .both, .sw sw' out'⟩ = g.close := by
        intro g here; simp only [Ghost.next, Ghost.onApprove, ite_self]
      rw [a, b]
      exact bare_close h
  | @apdu cla ins p1 p2 data u8s keys keys' _ =>
    rcases h2 with rfl | ⟨_, _, h2, _⟩
    · cases r' with
      | wait =>
        simp only [Ghost.next, Ghost.onWait]
        split
        · have hh : (if p1 = 0x20 then g else g.log (.cmd p1 data)).bare =
              (if p1 = 0x20 then g' else g'.log (.cmd p1 data)).bare := by
            split
            · exact h
            · exact bare_log h _
          simp only [Ghost.bare, Ghost.mk.injEq] at hh ⊢
          exact ⟨rfl, hh.2⟩
        · have hh := bare_close h
          simp only [Ghost.bare, Ghost.mk.injEq] at hh ⊢
          exact ⟨rfl, hh.2⟩
      | sw code out =>
        simp only [Ghost.next, Ghost.onOk]
        split
        · split
          · exact h
          · split
            · exact bare_log h _
            · split
              · split
                · have hh := bare_close h
                  simp only [Ghost.bare, Ghost.mk.injEq] at hh ⊢
                  refine ⟨hh.1, hh.2.1, hh.2.2.1, ?_⟩
                  rw [hg.2.1]; rfl
                · obtain ⟨p, a, s, t⟩ := g
                  obtain ⟨p', a', s', t'⟩ := g'
                  simp only [Ghost.bare, Ghost.mk.injEq] at hg ⊢
                  refine ⟨hg.1, hg.2.1, hg.2.2.1, ?_⟩
                  have h3 := hg.2.2.2
                  cases t with
                  | none => cases t' with
                    | none => rfl
                    | some s' => simp at h3
                  | some s => cases t' with
                    | none => simp at h3
                    | some s' =>
                      simp only [Option.map_some, Option.some.injEq, AttestSess.mk.injEq] at h3 ⊢
                      simp [h3]
              · exact bare_close h
        · split
          · exact h
          · exact bare_close h
      | _ => exact h
    · cases h2

theorem bare_know {env : Env} {tr tr' : List Obs} (h : List.Forall₂ (SameBoth env) tr tr') :
    (know tr).bare = (know tr').bare := by
  induction h with
  | nil => rfl
  | cons h1 h2 ih => exact bare_next ih h1

/-- The request on the screen: this one, or a newer one. -/
theorem pending_newest (o : Obs) (tr1 : List Obs) {cla ins p1 p2 data rnd}
    (he : o.event = .apdu cla ins p1 p2 data rnd) (hr : o.reply = .wait) : ∀ w : List Obs,
    (know (w ++ o :: tr1)).pending = some ⟨ins, p1, p2, data, rnd⟩ ∨
    ∃ o' ∈ w, ∃ b : Request, (know (w ++ o :: tr1)).pending = some b ∧ o'.reply = .wait ∧
      ∃ cla, o'.event = .apdu cla b.ins b.p1 b.p2 b.data b.rnd
  | [] => by
    left
    show (Ghost.next _ o).pending = _
    obtain ⟨asked, here, e, r⟩ := o
    simp only at he hr
    subst he hr
    simp only [Ghost.next, Ghost.onWait]
    split <;> rfl
  | o1 :: w => by
    show (Ghost.next (know (w ++ o :: tr1)) o1).pending = _ ∨ ∃ o' ∈ _, ∃ b, (Ghost.next (know (w ++ o :: tr1)) o1).pending = _ ∧ _
    have ih := pending_newest o tr1 he hr w
    generalize know (w ++ o :: tr1) = g at ih ⊢
    have key : (g.next o1).pending = g.pending ∨ ∃ b : Request, (g.next o1).pending = some b ∧ o1.reply = .wait ∧
        ∃ cla, o1.event = .apdu cla b.ins b.p1 b.p2 b.data b.rnd := by
      obtain ⟨asked, here, e, r⟩ := o1
      cases e with
      | apdu cla ins p1 p2 data rnd =>
        cases r with
        | wait =>
          right
          refine ⟨⟨ins, p1, p2, data, rnd⟩, ?_, rfl, cla, rfl⟩
          simp only [Ghost.next, Ghost.onWait]
          split <;> rfl
        | sw code out =>
          left
          simp only [Ghost.next, Ghost.onOk]
          repeat' split
          all_goals rfl
        | _ => exact .inl rfl
      | left => cases r <;> exact .inl rfl
      | right => cases r <;> exact .inl rfl
      | both =>
        cases r with
        | sw code out =>
          left
          simp only [Ghost.next, Ghost.onApprove]
          repeat' split
          all_goals rfl
        | _ => exact .inl rfl
    rcases key with k | ⟨b, k⟩
    · rw [k]
      rcases ih with ih | ⟨o', ho, ih⟩
      · exact .inl ih
      · exact .inr ⟨o', by simp [ho], ih⟩
    · exact .inr ⟨o1, by simp, b, k⟩

/-- The session was started by the newest start command that was put on the screen. -/
theorem session_newest {tr2 tr1 : List Obs} {o : Obs} {cla p2 data rnd}
    (he : o.event = .apdu cla 0x21 0x01 p2 data rnd) (hr : o.reply = .wait)
    (hlast : ∀ o' ∈ tr2, ¬ StartsSign o') {S : SignSess} (hS : (know (tr2 ++ o :: tr1)).sign = some S)
    (h1 : S.start.ins = 0x21) (h2 : S.start.p1 = 0x01) : S.start = ⟨0x21, 0x01, p2, data, rnd⟩ := by
  obtain ⟨u2, o2, u1, htr, ⟨q1, _⟩, hp, _, _, hno⟩ := sign_opened hS
  have hrest : Restarts o := ⟨cla, 0x21, 0x01, p2, data, rnd, he, .inl ⟨hr, by decide⟩⟩
  have hsuf : ∃ w, tr2 = u2 ++ o2 :: w ∧ u1 = w ++ o :: tr1 := by
    rcases List.append_eq_append_iff.1 htr with ⟨w, h9, h10⟩ | ⟨w, h9, h10⟩
    · cases w with
      | nil =>
        simp only [List.nil_append, List.cons.injEq] at h10
        rw [← h10.1, he] at q1; cases q1
      | cons w ws =>
        simp only [List.cons_append, List.cons.injEq] at h10
        exact absurd (h10.1 ▸ hrest) (hno w (by simp [h9])).2.1
    · cases w with
      | nil =>
        simp only [List.nil_append, List.cons.injEq] at h10
        rw [h10.1, he] at q1; cases q1
      | cons w ws =>
        simp only [List.cons_append, List.cons.injEq] at h10
        exact ⟨ws, by rw [h9, h10.1], h10.2⟩
  obtain ⟨w, rfl, rfl⟩ := hsuf
  rcases pending_newest o tr1 he hr w with h | ⟨o', ho', b, hb, hw, cla', hev⟩
  · rw [hp] at h
    exact Option.some.inj h
  · rw [hp] at hb
    cases hb
    rw [h1, h2] at hev
    exact absurd ⟨hw, _, _, _, _, hev⟩ (hlast o' (by simp [ho']))

/-- The reply to the last approval. -/
theorem final_reply {env : Env} (hwf : env.WF) {nanoS : Bool} {key : Bytes} {tr : List Obs} {d : Device}
    (h : Runs env nanoS key tr d) (ha : d.asks = some .approveSigning) (hp : Approves d .both) :
    ∃ S secret h0 k, (know tr).sign = some S ∧ S.start.ins = 0x21 ∧ S.start.p1 = 0x01 ∧
      env.genPrivate (pathOf (S.start.data.drop 1)) = some secret ∧
      schnorrInit env secret S.start.rnd.keys = some (h0, k) ∧
      (d.step env nanoS .both).2 =
        match schnorrFinish env (h0 ++ txBytesSoFar env.keyOf (describe S.log)) secret k with
        | some sig => .sw 0x9000 sig
        | none => .sw 0xE017 [] := by
  have hs : ∃ s, d.screen = some s := by
    cases hs : d.screen with
    | none => simp [Device.asks, hs] at ha
    | some s => exact ⟨s, rfl⟩
  obtain ⟨s, hs⟩ := hs
  have hA := h.inv.asks hs
  have hcb : s.cb = .signTx := by
    rw [ha] at hA
    cases hc : s.cb <;> rw [hc] at hA <;> simp [AsksFor] at hA
  obtain ⟨a, f0, p1, _, p3⟩ := h.inv.asking s hs
  rw [hcb] at p3
  obtain ⟨q1, q2, _, x, S, hx, hS, hB, _, hf, _⟩ := p3
  obtain ⟨network, path, token, p0, i1, i2, i3, _, i5, hR, _⟩ := sign_rel h hx hB.approved hS
  obtain ⟨_, j3, j4⟩ := parseSignInit_some i1
  obtain ⟨_, _, secret, h0, k, hpriv, hinit, rfl⟩ := p2pkInit_ok i2
  obtain ⟨f1, _⟩ := hR.final hf
  refine ⟨S, secret, h0, k, hS, hB.ins, hB.p1, by rw [j3]; exact hpriv, hinit, ?_⟩
  have hrep := C80_reply hwf h .both
  rcases hrep with hrep | ⟨_, hrep, _⟩
  swap
  · rcases hrep with e | e <;> cases e
  rw [hrep]
  unfold expected
  rw [((C80_question h).2.1).1 hp]
  simp only
  unfold granted
  rw [p1]
  simp only
  rw [if_pos ⟨q1, by rw [q2]; decide⟩, if_pos q2, hS]
  simp only [Option.map_some, Option.getD_some]
  rw [← signed_eq h hx hB.approved hS hf]
  unfold P2pk.sendResponse
  rw [if_neg (by simp [hf]), i3, hpriv]
  simp only
  rw [f1, i5]
  cases schnorrFinish env (h0 ++ txBytesSoFar env.keyOf (describe S.log)) secret k <;> rfl

/-- An ephemeral key is found exactly if the secret and some draw are usable. -/
theorem schnorrInit_isSome {env : Env} (hmul : env.mulG = secpMul) (secret : Bytes) (draws : Nat → Bytes) :
    (schnorrInit env secret draws).isSome ↔
      KeyNumber (be secret) ∧ ∃ j < 100, KeyNumber (be (draws j)) := by
  by_cases hs : KeyNumber (be secret)
  · simp only [hs, true_and]
    unfold schnorrInit
    rw [schnorrInitLoop_findSome, List.findSome?_isSome_iff]
    simp only [schnorrTry_key hmul hs, List.mem_range'_1]
    constructor
    · rintro ⟨j, hj, h⟩
      refine ⟨j, by omega, ?_⟩
      by_contra hc
      simp [hc] at h
    · rintro ⟨j, hj, h⟩
      exact ⟨j, by omega, by simp [h]⟩
  · simp [schnorrInit_bad hmul hs, hs]

theorem usable_keys {t : RandTape} : t.Usable ↔ ∃ j < 100, KeyNumber (be (t.keys j)) := by
  have e : ∀ j (h : j < 100), be (t.keys j) = t ⟨j, h⟩ := by
    intro j h
    simp only [RandTape.keys, h, dif_pos]
    exact be_bytes32 (t ⟨j, h⟩).2
  constructor
  · rintro ⟨i, hi⟩
    exact ⟨i, i.2, by rw [e i i.2]; exact hi⟩
  · rintro ⟨j, h, hj⟩
    exact ⟨⟨j, h⟩, by rw [← e j h]; exact hj⟩

end Ergo
