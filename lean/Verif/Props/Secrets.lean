import Verif.Proof.MaskEnv
import Verif.Proof.Schnorr
import Verif.Proof.Demo
/-!
# C59: nothing but the signature depends on private and ephemeral keys
-/
namespace Ergo
open Spec

theorem asks_mask {d d' : Device} (h : d.mask = d'.mask) : d'.asks = d.asks := by
  unfold Device.asks; rw [screen_mask h]

theorem here_mask {d d' : Device} (h : d.mask = d'.mask) : d'.here = d.here := by
  unfold Device.here; rw [screen_mask h]

theorem page_mask {env env' : Env} (he : SamePublic env env') (nanoS : Bool) {d d' : Device}
    (h : d.mask = d'.mask) : d'.page env' nanoS = d.page env nanoS := by
  unfold Device.page
  rw [screen_mask h, samePublic_eq he]
  simp only [show_secrets, show_mask env nanoS h]

/-- One step as seen from outside. -/
theorem obs_secrets {env env' : Env} (he : SamePublic env env') {nanoS : Bool} {key : Bytes}
    {tr : List Obs} {d d' : Device} (hr : Runs env nanoS key tr d) (h : d.mask = d'.mask) {e e' : Event}
    (hev : SameEvent env env' e e') :
    SameObs (d.observe env nanoS e) (d'.observe env' nanoS e') ∧
      (d.step env nanoS e).1.mask = (d'.step env' nanoS e').1.mask := by
  refine ⟨⟨asks_mask h, here_mask h, ?_⟩, ?_⟩
  · rcases step_secrets he nanoS h hev with h1 | ⟨h1, h2, ⟨s, h3, h4⟩, h5, h6, h7⟩
    · exact .inl (congrArg Prod.snd h1 :)
    · right
      have ha := hr.inv.asks h3
      rw [h4] at ha
      refine ⟨ha, ?_, h1, h6, h7⟩
      rcases h2 with h2 | ⟨p, h2⟩
      · exact h2
      · exfalso
        obtain ⟨a, f0, p1, p2, p3⟩ := hr.inv.asking s h3
        rw [h4] at p3
        simp only [Asking] at p3
        obtain ⟨_, _, _, x, S, _, _, _, _, _, rfl⟩ := p3
        obtain ⟨q1, q2, q3⟩ := p2
        simp only [Device.here, h3, Option.map_some, Option.some.injEq, Flow.here, q1] at h2
        rcases q3 with ⟨⟨l, q4, q5⟩, _⟩ | ⟨_, q⟩
        · have : FlowStep.dyn ∈ (Flow.static l).steps := by rw [← q4]; simp [Flow.dynamic]
          simp only [Flow.static, List.mem_append, List.mem_cons, List.not_mem_nil, or_false,
            reduceCtorEq] at this
          have := q5 _ this
          simp [FlowStep.page?] at this
        · rcases q with ⟨q, _⟩ | ⟨q | q, _⟩ | ⟨q, _⟩ <;> rw [q] at h2 <;> simp [Flow.dynamic] at h2
  · rcases step_secrets he nanoS h hev with h1 | ⟨_, _, _, h5, _⟩
    · exact (congrArg Prod.fst h1 :).symm
    · exact h5.symm

/-- C59: private keys and ephemeral keys show up in signatures only.  Take any execution, other private
keys with the same public keys, and other random values for the ephemeral keys: then there is an
execution with the same events in which every question, every screen and every reply is the same,
except for the reply when the user approves the final question of a signing session. -/
theorem C59_secrets {env env' : Env} (he : SamePublic env env') {nanoS : Bool} {key : Bytes}
    {tr : List Obs} {d : Device} (h : Runs env nanoS key tr d) :
    ∀ es', List.Forall₂ (SameEvent env env') (tr.map (·.event)) es' →
    ∃ tr' d', Runs env' nanoS key tr' d' ∧ tr'.map (·.event) = es' ∧ List.Forall₂ SameObs tr tr' ∧
      d'.asks = d.asks ∧ d'.page env' nanoS = d.page env nanoS ∧
      ∀ e e', SameEvent env env' e e' → SameObs (d.observe env nanoS e) (d'.observe env' nanoS e') := by
  suffices hs : ∀ es', List.Forall₂ (SameEvent env env') (tr.map (·.event)) es' →
      ∃ tr' d', Runs env' nanoS key tr' d' ∧ tr'.map (·.event) = es' ∧ List.Forall₂ SameObs tr tr' ∧
        d.mask = d'.mask by
    intro es' hes
    obtain ⟨tr', d', h1, h2, h3, h4⟩ := hs es' hes
    exact ⟨tr', d', h1, h2, h3, asks_mask h4, page_mask he nanoS h4,
      fun e e' hev => (obs_secrets he h h4 hev).1⟩
  induction h with
  | boot =>
    intro es' hes
    cases hes
    exact ⟨[], _, .boot, rfl, .nil, rfl⟩
  | @step tr d e h hh hu ih =>
    intro es' hes
    simp only [List.map_cons] at hes
    cases hes with
    | @cons _ e' _ es' hev hes =>
      obtain ⟨tr', d', h1, h2, h3, h4⟩ := ih es' hes
      obtain ⟨ho, hm⟩ := obs_secrets he h h4 hev
      have hrep := ho.2.2
      have hn : ∀ r : Reply, r = .hang ∨ r = .ub → (d.step env nanoS e).2 ≠ r →
          (d'.step env' nanoS e').2 ≠ r := by
        intro r hr hne he
        rcases hrep with hrep | ⟨_, _, _, _, sw, out, hrep⟩
        · exact hne (hrep.symm.trans he)
        · have : (d'.step env' nanoS e').2 = .sw sw out := hrep
          rw [this] at he
          rcases hr with rfl | rfl <;> simp at he
      refine ⟨_, _, .step e' h1 (hn _ (.inl rfl) hh) (hn _ (.inr rfl) hu), ?_, .cons ho h3, hm⟩
      simp only [List.map_cons, h2]
      rfl

/-- C59, the signature: for every message and private key, every response occurs for exactly one
ephemeral key.  With an ephemeral key chosen uniformly, the response says nothing about the private
key. -/
theorem C59_response (env : Env) (transcript secret : Bytes)
    (hc : be ((env.blake transcript).take 24) ≠ 0) (z : Nat) (hz : z < groupOrder) :
    ∃ k < groupOrder, ∀ k' < groupOrder,
      schnorrFinish env transcript secret (beBytes 32 k') =
        some ((env.blake transcript).take 24 ++ beBytes 32 z) ↔ k' = k := by
  have hgo : groupOrder < 256 ^ 32 := by decide +kernel
  have hpos : 0 < groupOrder := by decide +kernel
  have hval : ∀ v, v < groupOrder → be (beBytes 32 v) = v := by
    intro v hv
    rw [be_beBytes, Nat.mod_eq_of_lt (by omega)]
  generalize hm : be ((env.blake transcript).take 24) * be secret % groupOrder = m
  have hmlt : m < groupOrder := hm ▸ Nat.mod_lt _ hpos
  have hfin : ∀ k' < groupOrder, schnorrFinish env transcript secret (beBytes 32 k') =
      some ((env.blake transcript).take 24 ++ beBytes 32 ((k' + m) % groupOrder)) := by
    intro k' hk'
    simp only [schnorrFinish, beNat_eq, if_neg hc, secpN_eq, hm, hval k' hk']
  have hinj : ∀ a b, a < groupOrder → b < groupOrder → beBytes 32 a = beBytes 32 b → a = b := by
    intro a b ha hb e
    rw [← hval a ha, ← hval b hb, e]
  refine ⟨(z + (groupOrder - m)) % groupOrder, Nat.mod_lt _ hpos, fun k' hk' => ?_⟩
  rw [hfin k' hk']
  simp only [Option.some.injEq, List.append_cancel_left_eq]
  constructor
  · intro e
    have e := hinj _ _ (Nat.mod_lt _ hpos) hz e
    subst e
    rw [Nat.mod_add_mod, show k' + m + (groupOrder - m) = k' + groupOrder by omega, Nat.add_mod_right,
      Nat.mod_eq_of_lt hk']
  · rintro rfl
    rw [Nat.mod_add_mod, show z + (groupOrder - m) + m = z + groupOrder by omega, Nat.add_mod_right,
      Nat.mod_eq_of_lt hz]

/-- The toy environment with other private keys and the same public keys. -/
def otherEnv : Env :=
  { toyEnv with
    derive := fun p => some (List.replicate 30 0 ++ [5, UInt8.ofNat (p.length + 1)], List.replicate 32 1)
    pubOf := fun k => toyEnv.pubOf (k.set 30 0) }

theorem otherEnv_same : SamePublic toyEnv otherEnv :=
  ⟨rfl, rfl, rfl, rfl, fun _ => rfl⟩

/-- Private keys differ. -/
example : toyEnv.genPrivate [1, 2, 3] ≠ otherEnv.genPrivate [1, 2, 3] := by decide +kernel

/-- The same session in both environments: the same replies, except for the signature. -/
example : ((Device.boot [1]).run toyEnv false (demoOpen ++ demoTx ++ [cmd 0x21 0x20 7 [], .left, .left])).2 =
      ((Device.boot [1]).run otherEnv false (demoOpen ++ demoTx ++ [cmd 0x21 0x20 7 [], .left, .left])).2 ∧
    ((Device.boot [1]).run toyEnv false (demoOpen ++ demoTx ++ demoConfirm)).2.getLast? ≠
      ((Device.boot [1]).run otherEnv false (demoOpen ++ demoTx ++ demoConfirm)).2.getLast? := by
  decide +kernel

/-- The events of the demo are the same for both. -/
example : ∀ ins p1 p2 data, SameEvent toyEnv otherEnv (cmd ins p1 p2 data)
    (.apdu 0xE0 ins p1 p2 data ⟨[0, 7], fun _ => List.replicate 31 0 ++ [4]⟩) := by
  intro ins p1 p2 data
  refine .apdu fun path hp => ?_
  have e : ∀ n ≤ 10, nonceFound toyEnv demoRnd (List.replicate n 0) = true ∧
      nonceFound otherEnv ⟨[0, 7], fun _ => List.replicate 31 0 ++ [4]⟩ (List.replicate n 0) = true := by
    decide +kernel
  have e1 : ∀ r, nonceFound toyEnv r path = nonceFound toyEnv r (List.replicate path.length 0) := by
    intro r; simp only [nonceFound, Env.genPrivate, toyEnv, List.length_replicate]
  have e2 : ∀ r, nonceFound otherEnv r path = nonceFound otherEnv r (List.replicate path.length 0) := by
    intro r; simp only [nonceFound, Env.genPrivate, otherEnv, List.length_replicate]
  obtain ⟨h1, h2⟩ := e _ hp
  show nonceFound toyEnv demoRnd path = _
  rw [e1, e2, h1, h2]

end Ergo
