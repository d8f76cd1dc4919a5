import Verif.Proof.Veil
import Verif.Proof.Demo
/-!
# C76: without consent the host learns nothing about the wallet
-/
namespace Ergo
open Spec

theorem asks_veil {d d' : Device} (h : Veiled d d') : d'.asks = d.asks := by
  cases h with
  | same h => unfold Device.asks; rw [screen_mask h]
  | «export» => rfl
  | @address ca key cmd f f' x x' hf =>
    have h := congrArg (fun z : Flow => z.steps.head?) hf
    simp only [Flow.veil, List.head?_map] at h
    unfold Device.asks
    simp only
    cases h1 : f.steps.head? with
    | none => cases h2 : f'.steps.head? with
      | none => rfl
      | some y => rw [h1, h2] at h; simp at h
    | some x => cases h2 : f'.steps.head? with
      | none => rw [h1, h2] at h; simp at h
      | some y =>
        rw [h1, h2] at h
        simp only [Option.map_some, Option.some.injEq] at h
        rcases FlowStep.veil_eq h with rfl | ⟨t, t', rfl, rfl⟩ <;> rfl

theorem sameStep_refl (s : Option FlowStep) : SameStep s s := by
  unfold SameStep
  split <;> trivial

theorem here_veil {d d' : Device} (h : Veiled d d') : SameStep d.here d'.here := by
  cases h with
  | same h => unfold Device.here; rw [screen_mask h]; exact sameStep_refl _
  | «export» => exact sameStep_refl _
  | @address ca key cmd f f' x x' hf =>
    show SameStep (some f.here) (some f'.here)
    rcases FlowStep.veil_eq (Flow.here_veil hf) with e | ⟨t, t', e, e'⟩
    · rw [e]; exact sameStep_refl _
    · rw [e, e']; trivial

/-- One step as seen from outside. -/
theorem obs_veil {env env' : Env} (he : OtherWallet env env') (hwf : env.WF) (hwf' : env'.WF) {nanoS : Bool}
    {key : Bytes} {tr : List Obs} {d d' : Device} (hr : Runs env nanoS key tr d) (h : Veiled d d')
    {e e' : Event} (hev : SameEvent env env' e e') :
    SameBlind (d.observe env nanoS e) (d'.observe env' nanoS e') ∧
      Veiled (d.step env nanoS e).1 (d'.step env' nanoS e').1 ∧
      ((d'.step env' nanoS e').2 = (d.step env nanoS e).2 ∨ Approval (d.observe env nanoS e) ∨
        d.connectedApp ≠ 0) := by
  have ha := asks_veil h
  have hh := here_veil h
  rcases step_veil he hwf hwf' nanoS h hev with h1 | h1 | h1 | h1
  · exact ⟨⟨ha, hh, .inl h1.2⟩, h1.1, .inl h1.2⟩
  · obtain ⟨ins, p1, p2, data, rnd, rfl, hi, hc, hs, hg⟩ := h1
    exact ⟨⟨ha, hh, .inr (.inl ⟨hg, .inr ⟨_, _, _, _, _, rfl, hi⟩⟩)⟩, .same (by rw [hs]), .inr (.inr hc)⟩
  · obtain ⟨rfl, hap, ⟨s, hs, hcb⟩, hd, hg⟩ := h1
    refine ⟨⟨ha, hh, .inr (.inl ⟨hg, .inl ⟨⟨rfl, hap⟩, ?_⟩⟩)⟩, .same (by rw [hd]), .inr (.inl ⟨rfl, hap⟩)⟩
    rcases hcb with hcb | ⟨hcb, x, hx, hsend⟩
    · left
      have := hr.inv.asks hs
      rw [hcb] at this
      exact this
    · right
      obtain ⟨a, f0, q1, q2, q3⟩ := hr.inv.asking s hs
      show d.asks = _
      rw [asks_eq hs q2]
      rw [hcb] at q3
      obtain ⟨_, _, _, n, rest, path, token, pub, chain, raw, t, _, _, _, _, _, _, q3⟩ := q3
      rcases q3 with ⟨_, q3, _⟩ | ⟨_, s', _, _, q3, q4⟩
      · rw [q3]; rfl
      · rw [hx] at q4
        simp only [Ctx.derive.injEq] at q4
        rw [q4] at hsend
        simp at hsend
  · obtain ⟨rfl, hap, ⟨s, hs, hcb⟩, hm, h6, h7⟩ := h1
    refine ⟨⟨ha, hh, .inr (.inr ⟨⟨rfl, hap⟩, ?_, h6, h7⟩)⟩, .same hm.symm, .inr (.inl ⟨rfl, hap⟩)⟩
    have := hr.inv.asks hs
    rw [hcb] at this
    exact this

/-- The steps of the execution in the other world. -/
theorem runs_veil {env env' : Env} (he : OtherWallet env env') (hwf : env.WF) (hwf' : env'.WF) {nanoS : Bool}
    {key : Bytes} {tr : List Obs} {d : Device} (h : Runs env nanoS key tr d) :
    ∀ es', List.Forall₂ (SameEvent env env') (tr.map (·.event)) es' →
    ∃ tr' d', Runs env' nanoS key tr' d' ∧ tr'.map (·.event) = es' ∧ List.Forall₂ SameBlind tr tr' ∧
      Veiled d d' ∧ ((∀ o ∈ tr, ¬ Approval o) →
        d.connectedApp = 0 ∧ tr'.map (·.reply) = tr.map (·.reply)) := by
  induction h with
  | boot =>
    intro es' hes
    cases hes
    exact ⟨[], _, .boot, rfl, .nil, .same rfl, fun _ => ⟨rfl, rfl⟩⟩
  | @step tr d e h hh hu ih =>
    intro es' hes
    simp only [List.map_cons] at hes
    cases hes with
    | @cons _ e' _ es' hev hes =>
      obtain ⟨tr', d', h1, h2, h3, h4, h5⟩ := ih es' hes
      obtain ⟨ho, hm, hq⟩ := obs_veil he hwf hwf' h h4 hev
      have hrep := ho.2.2
      have hn : ∀ r : Reply, r = .hang ∨ r = .ub → (d.step env nanoS e).2 ≠ r →
          (d'.step env' nanoS e').2 ≠ r := by
        intro r hr hne hee
        have bad : ∀ sw out, (d'.step env' nanoS e').2 ≠ .sw sw out := by
          intro sw out hb
          rw [hb] at hee
          rcases hr with rfl | rfl <;> simp at hee
        rcases hrep with hrep | ⟨⟨_, _, _, hrep, _⟩, _⟩ | ⟨_, _, _, _, _, hrep⟩
        · exact hne (hrep.symm.trans hee)
        · exact bad _ _ hrep
        · exact bad _ _ hrep
      refine ⟨_, _, .step e' h1 (hn _ (.inl rfl) hh) (hn _ (.inr rfl) hu), ?_, .cons ho h3, hm, ?_⟩
      · simp only [List.map_cons, h2]; rfl
      · intro hna
        obtain ⟨k1, k2⟩ := h5 (fun o hm => hna o (List.mem_cons_of_mem _ hm))
        have hna := hna _ (List.mem_cons_self)
        refine ⟨?_, ?_⟩
        · have key : ∀ {d' : Device} {r : Reply}, Trans env nanoS d e d' r → d'.connectedApp = 0 := by
            intro d' r hT
            have np : ∀ {s : Screen}, d.screen = some s → e = .both →
                (s.flow.here = .approve ∨ ∃ p, s.flow.here = .pathApprove p) → False := by
              intro s hs he hp
              refine hna ⟨he, ?_⟩
              show d.here = _ ∨ ∃ p, d.here = _
              unfold Device.here
              rw [hs]
              rcases hp with hp | ⟨p, hp⟩
              · exact .inl (by rw [Option.map_some, hp])
              · exact .inr ⟨p, by rw [Option.map_some, hp]⟩
            cases hT with
            | okEpk hs hp => exact (np hs rfl hp).elim
            | okDa hs hp => exact (np hs rfl hp).elim
            | okAttest hs hp => exact (np hs rfl hp).elim
            | okSignInit hs hp => exact (np hs rfl hp).elim
            | _ => exact k1
          obtain ⟨d'', r, hst, hT⟩ := step_cases env nanoS d e
          rw [hst]
          exact key hT
        · simp only [List.map_cons, k2]
          congr 1
          rcases hq with hq | hq | hq
          · exact hq
          · exact absurd hq hna
          · exact absurd k1 hq

/-- C76: the seed shows up only in exported keys and addresses, in the address put on the screen, and in
signatures.  Take any execution and any other wallet: then there is an execution with the same events in
which every question, every page and every reply is the same, except for the text of an address page,
for the bytes (not their number) of an export, which is an answer to the user's approval of the export or
to a command of an application approved before, and for the answer when the user approves a signature. -/
theorem C76_wallet {env env' : Env} (he : OtherWallet env env') (hwf : env.WF) (hwf' : env'.WF) {nanoS : Bool}
    {key : Bytes} {tr : List Obs} {d : Device} (h : Runs env nanoS key tr d) (es' : List Event)
    (hes : List.Forall₂ (SameEvent env env') (tr.map (·.event)) es') :
    ∃ tr' d', Runs env' nanoS key tr' d' ∧ tr'.map (·.event) = es' ∧ List.Forall₂ SameBlind tr tr' ∧
      ∀ e e', SameEvent env env' e e' → SameBlind (d.observe env nanoS e) (d'.observe env' nanoS e') := by
  obtain ⟨tr', d', h1, h2, h3, h4, _⟩ := runs_veil he hwf hwf' h es' hes
  exact ⟨tr', d', h1, h2, h3, fun e e' hev => (obs_veil he hwf hwf' h h4 hev).1⟩

/-- C76, for the host: as long as the user has approved nothing, all replies are the same whatever the
wallet is. -/
theorem C76_silent {env env' : Env} (he : OtherWallet env env') (hwf : env.WF) (hwf' : env'.WF) {nanoS : Bool}
    {key : Bytes} {tr : List Obs} {d : Device} (h : Runs env nanoS key tr d)
    (hn : ∀ o ∈ tr, ¬ Approval o) (es' : List Event)
    (hes : List.Forall₂ (SameEvent env env') (tr.map (·.event)) es') :
    ∃ tr' d', Runs env' nanoS key tr' d' ∧ tr'.map (·.event) = es' ∧
      tr'.map (·.reply) = tr.map (·.reply) := by
  obtain ⟨tr', d', h1, h2, _, _, h5⟩ := runs_veil he hwf hwf' h es' hes
  exact ⟨tr', d', h1, h2, (h5 hn).2⟩

/-- The toy environment with another seed: all keys are different. -/
def strangerEnv : Env :=
  { toyEnv with
    derive := fun p => some (List.replicate 30 0 ++ [5, UInt8.ofNat (p.length + 1)], List.replicate 32 9)
    pubOf := fun _ => some (4 :: (List.replicate 32 6 ++ List.replicate 32 8)) }

theorem strangerEnv_wf : strangerEnv.WF where
  blake_len b := by simp [strangerEnv, toyEnv]
  hmac_len k b := by simp [strangerEnv, toyEnv]
  derive_len p k c h := by
    simp only [strangerEnv, Option.some.injEq, Prod.mk.injEq] at h
    obtain ⟨rfl, rfl⟩ := h
    simp
  pub_len k p h := by
    simp only [strangerEnv, Option.some.injEq] at h
    subst h
    simp
  mul_len k p h := toyEnv_wf.mul_len k p h

theorem stranger_other : OtherWallet toyEnv strangerEnv :=
  ⟨rfl, rfl, rfl, rfl, fun _ => rfl⟩

/-- The keys differ. -/
example : toyEnv.genPublic [1, 2, 3] ≠ strangerEnv.genPublic [1, 2, 3] := by decide +kernel

/-- The events of the demo are the same for both. -/
theorem stranger_event (ins p1 p2 : UInt8) (data : Bytes) :
    SameEvent toyEnv strangerEnv (cmd ins p1 p2 data) (cmd ins p1 p2 data) := by
  refine .apdu fun path hp => ?_
  have e : ∀ n ≤ 10, nonceFound toyEnv demoRnd (List.replicate n 0) = true ∧
      nonceFound strangerEnv demoRnd (List.replicate n 0) = true := by
    decide +kernel
  have e1 : ∀ r, nonceFound toyEnv r path = nonceFound toyEnv r (List.replicate path.length 0) := by
    intro r; simp only [nonceFound, Env.genPrivate, toyEnv, List.length_replicate]
  have e2 : ∀ r, nonceFound strangerEnv r path = nonceFound strangerEnv r (List.replicate path.length 0) := by
    intro r; simp only [nonceFound, Env.genPrivate, strangerEnv, List.length_replicate]
  obtain ⟨h1, h2⟩ := e _ hp
  show nonceFound toyEnv demoRnd path = nonceFound strangerEnv demoRnd path
  rw [e1, e2, h1, h2]

/-- A host asks for a key, is rejected, has an address shown, and asks again while the user looks at it:
the same replies for both wallets.  When the export is approved, the replies differ. -/
example :
    let ask := [cmd 0x10 1 0 demoPath3]
    let others := [.left, .both, cmd 0x11 2 1 (0 :: demoPath 0), .right, cmd 0x10 1 0 demoPath3]
    ((Device.boot [1]).run toyEnv false (ask ++ others)).2 =
      ((Device.boot [1]).run strangerEnv false (ask ++ others)).2 ∧
    ((Device.boot [1]).run toyEnv false (ask ++ [.left, .left, .both])).2.getLast? ≠
      ((Device.boot [1]).run strangerEnv false (ask ++ [.left, .left, .both])).2.getLast? := by
  decide +kernel

end Ergo
