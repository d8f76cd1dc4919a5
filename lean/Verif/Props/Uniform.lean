import Verif.Proof.UniformRun
import Verif.Props.Secp256k1
/-!
# C91: the ephemeral key is unbiased, and a signature says nothing but that it is valid
-/
namespace Ergo
open Spec

theorem keyOne : KeyNumber ((1 : Fin (2 ^ 256)) : Nat) := by decide +kernel

theorem fairShare_pos {N : Nat} (h : FairShare N) : 0 < N := by
  rcases Nat.eq_zero_or_pos N with rfl | h0
  · exfalso
    unfold FairShare at h
    rw [Nat.mul_zero, Nat.zero_add] at h
    have hgo : 2 ^ 256 - (groupOrder - 1) < 2 ^ 256 := by decide +kernel
    exact absurd h (Nat.pow_lt_pow_left hgo (by decide)).ne
  · exact h0

theorem share_unique {N M : Nat} (h : FairShare N) (h' : FairShare M) : N = M := by
  unfold FairShare at h h'
  have : (groupOrder - 1) * N = (groupOrder - 1) * M := by omega
  exact Nat.eq_of_mul_eq_mul_left (by decide +kernel) this

/-- The number of tapes of each ephemeral key. -/
theorem card_first {N : Nat} (hN : FairShare N) {a : Fin (2 ^ 256)} (ha : KeyNumber a) :
    Nat.card {t : RandTape // t.first = some a} = N :=
  share_unique (card_share ha) hN

open scoped Classical in
/-- C91: the choice of the ephemeral key is unbiased: every nonzero residue comes from the same number of
the tapes that the generator can give, and nothing else is ever used.  The tapes without result are those
without a usable number. -/
theorem C91_key : ∃ N, 0 < N ∧ FairShare N ∧ ∀ {env : Env}, env.mulG = secpMul →
    ∀ {secret : Bytes}, KeyNumber (be secret) →
    (∀ k : Bytes, Nat.card {t : RandTape // ∃ h, schnorrInit env secret t.keys = some (h, k)} =
      if k.length = 32 ∧ KeyNumber (be k) then N else 0) ∧
    Nat.card {t : RandTape // schnorrInit env secret t.keys = none} = (2 ^ 256 - (groupOrder - 1)) ^ 100 := by
  have hN := card_share keyOne
  refine ⟨_, fairShare_pos hN, hN, ?_⟩
  intro env hmul secret hs
  constructor
  · intro k
    split
    · rename_i hk
      have hlt : be k < 2 ^ 256 := lt_trans hk.2.2 (by decide +kernel)
      rw [← card_first hN (a := ⟨be k, hlt⟩) hk.2]
      refine Nat.card_congr (Equiv.subtypeEquivRight fun t => ?_)
      rw [schnorrInit_tape hmul hs]
      constructor
      · rintro ⟨h, e⟩
        obtain ⟨v, hv, e⟩ := Option.map_eq_some_iff.1 e
        simp only [Prod.mk.injEq] at e
        rw [hv]
        congr 1
        refine Fin.ext ?_
        show v.val = be k
        rw [← e.2, be_bytes32 v.2]
      · intro e
        rw [e]
        refine ⟨tapeCommit secret (be k), ?_⟩
        simp only [Option.map_some, Option.some.injEq, Prod.mk.injEq, true_and]
        exact be_inj (by rw [bytes32_length, hk.1]) (be_bytes32 hlt)
    · rename_i hk
      refine Nat.card_eq_zero.2 (.inl ⟨?_⟩)
      rintro ⟨t, h, e⟩
      rw [schnorrInit_tape hmul hs] at e
      obtain ⟨v, hv, e⟩ := Option.map_eq_some_iff.1 e
      simp only [Prod.mk.injEq] at e
      refine hk ?_
      rw [← e.2, bytes32_length, be_bytes32 v.2]
      exact ⟨rfl, first_some hv⟩
  · rw [← card_first_none]
    refine Nat.card_congr (Equiv.subtypeEquivRight fun t => ?_)
    rw [schnorrInit_tape hmul hs]
    simp

/-- The tape that begins with the order of the group, zero, a number above the order, and 5: the key is 5. -/
def roughTape (n : Nat) : RandTape := fun i =>
  if i.val = 0 then ⟨groupOrder, by decide +kernel⟩ else if i.val = 1 then 0
  else if i.val = 2 then ⟨2 ^ 256 - 1, by decide +kernel⟩ else Fin.ofNat _ (n + i.val)

example : (schnorrInit secpToy (bytes32 3) (roughTape 2).keys).map Prod.snd = some (bytes32 5) ∧
    KeyNumber (be (bytes32 3)) ∧ (roughTape 2).first = some 5 ∧
    schnorrInit secpToy (bytes32 3) (RandTape.keys fun _ => 0) = none := by
  refine ⟨by decide +kernel, by decide +kernel, by decide +kernel, by decide +kernel⟩

open scoped Classical in
/-- How many tapes give a signature. -/
theorem card_tapeSig {N : Nat} (hN : FairShare N) {env : Env} (hb : ∀ b, (env.blake b).length = 32)
    (secret msg sig : Bytes) :
    Nat.card {t : RandTape // ∃ v : Fin (2 ^ 256), t.first = some v ∧ tapeSig env secret msg v = some sig} =
      if Producible secpBase serPoint env.blake (be secret • secpBase) msg sig then N else 0 := by
  split
  · rename_i hp
    obtain ⟨v, hv, hsig⟩ := tapeSig_of hp
    rw [← card_first hN (a := ⟨v, lt_trans hv.2 (by decide +kernel)⟩) hv]
    refine Nat.card_congr (Equiv.subtypeEquivRight fun t => ?_)
    constructor
    · rintro ⟨v', h1, h2⟩
      rw [h1]
      congr 1
      exact Fin.ext (tapeSig_unique hb (first_some h1) hv h2 hsig)
    · intro h
      exact ⟨_, h, hsig⟩
  · rename_i hp
    refine Nat.card_eq_zero.2 (.inl ⟨?_⟩)
    rintro ⟨t, v, h1, h2⟩
    exact hp (tapeSig_some hb (first_some h1) h2).1

open scoped Classical in
/-- C91: the signature is uniformly distributed over the valid ones.  Whatever the secret and the message
are, every signature which the network accepts under the public key (with nonzero challenge and with a
commitment other than the point at infinity) is given by the same number of tapes, and no other signature is
ever given.  So the distribution of the signature depends on public data only. -/
theorem C91_signature {g : SecpPoint} (hg : IsBase g) : ∃ N, 0 < N ∧ FairShare N ∧
    ∀ {env : Env}, env.mulG = secpMul → (∀ b, (env.blake b).length = 32) →
    ∀ {secret : Bytes}, KeyNumber (be secret) → ∀ msg sig : Bytes,
    Nat.card {t : RandTape // ∃ h k, schnorrInit env secret t.keys = some (h, k) ∧
        schnorrFinish env (h ++ msg) secret k = some sig} =
      if Producible g serPoint env.blake (be secret • g) msg sig then N else 0 := by
  rw [isBase_eq hg]
  have hN := card_share keyOne
  refine ⟨_, fairShare_pos hN, hN, ?_⟩
  intro env hmul hb secret hs msg sig
  rw [← card_tapeSig hN hb]
  refine Nat.card_congr (Equiv.subtypeEquivRight fun t => ?_)
  rw [schnorrInit_tape hmul hs]
  constructor
  · rintro ⟨h, k, e, e2⟩
    obtain ⟨v, hv, e⟩ := Option.map_eq_some_iff.1 e
    simp only [Prod.mk.injEq] at e
    refine ⟨v, hv, ?_⟩
    rw [tapeSig, e.1, e.2, e2]
  · rintro ⟨v, hv, e⟩
    refine ⟨_, _, by rw [hv]; rfl, e⟩

open scoped Classical in
/-- C91: the same for the device.  Take any execution that has come to the last question of a signing
session, with the user about to approve, and repeat it with other random values for the ephemeral key of
that session: with every tape that has a usable number the same execution is possible, up to the same
question, and every valid signature is the reply for the same number of tapes. -/
theorem C91_session {g : SecpPoint} (hg : IsBase g) : ∃ N, 0 < N ∧ FairShare N ∧
    ∀ {env : Env}, env.WF → env.mulG = secpMul →
    ∀ {nanoS : Bool} {key : Bytes} {tr2 tr1 : List Obs} {o : Obs} {d : Device},
    Runs env nanoS key (tr2 ++ o :: tr1) d → ∀ {cla p2 : UInt8} {data : Bytes} {rnd : Rnd},
    o.event = .apdu cla 0x21 0x01 p2 data rnd → o.reply = .wait → (∀ o' ∈ tr2, ¬ StartsSign o') →
    d.asks = some .approveSigning → Approves d .both →
    ∃ S secret chain, (know (tr2 ++ o :: tr1)).sign = some S ∧ S.start = ⟨0x21, 0x01, p2, data, rnd⟩ ∧
      env.derive (pathOf (data.drop 1)) = some (secret, chain) ∧
      (∀ t : RandTape, t.Usable → ∃ tr' d', Runs env nanoS key tr' d' ∧
        tr'.map (·.event) = tr2.map (·.event) ++ .apdu cla 0x21 0x01 p2 data ⟨rnd.u8s, t.keys⟩ ::
          tr1.map (·.event) ∧
        List.Forall₂ SameObs (tr2 ++ o :: tr1) tr' ∧ d'.asks = d.asks ∧ d'.here = d.here ∧
        d'.page env nanoS = d.page env nanoS) ∧
      ∀ sig : Bytes,
        Nat.card {t : RandTape // t.Usable ∧ ∃ tr' d', Runs env nanoS key tr' d' ∧
          tr'.map (·.event) = tr2.map (·.event) ++ .apdu cla 0x21 0x01 p2 data ⟨rnd.u8s, t.keys⟩ ::
            tr1.map (·.event) ∧
          (d'.step env nanoS .both).2 = .sw 0x9000 sig} =
        if Producible g serPoint env.blake (be secret • g) (txBytesSoFar env.keyOf (describe S.log)) sig
        then N else 0 := by
  rw [isBase_eq hg]
  have hN := card_share keyOne
  refine ⟨_, fairShare_pos hN, hN, ?_⟩
  intro env hwf hmul nanoS key tr2 tr1 o d h cla p2 data rnd hoe hor hlast hask hap
  obtain ⟨S, secret, h0, k0, hS, s1, s2, hpriv, hinit, -⟩ := final_reply hwf h hask hap
  have hst := session_newest hoe hor hlast hS s1 s2
  rw [hst] at hpriv hinit
  simp only at hpriv hinit
  obtain ⟨hsec, hdraw⟩ := (schnorrInit_isSome hmul secret rnd.keys).1 (by rw [hinit]; rfl)
  obtain ⟨kc, hkc, rfl⟩ := Option.map_eq_some_iff.1 hpriv
  -- the execution with another tape
  have hsame : ∀ t : RandTape, t.Usable → List.Forall₂ (SameEvent env env) ((tr2 ++ o :: tr1).map (·.event))
      (tr2.map (·.event) ++ .apdu cla 0x21 0x01 p2 data ⟨rnd.u8s, t.keys⟩ :: tr1.map (·.event)) := by
    intro t ht
    have hr : ∀ l : List Event, List.Forall₂ (SameEvent env env) l l := fun l =>
      List.forall₂_same.2 fun e _ => SameEvent.rfl' e
    rw [List.map_append, List.map_cons, hoe]
    refine List.rel_append (hr _) (.cons ?_ (hr _))
    refine .apdu fun path _ => ?_
    unfold nonceFound
    cases env.genPrivate path with
    | none => rfl
    | some s =>
      simp only
      rw [Bool.eq_iff_iff, schnorrInit_isSome hmul, schnorrInit_isSome hmul]
      have := usable_keys.1 ht
      simp [hdraw, this]
  have hother : ∀ t : RandTape, t.Usable → ∃ tr' d', Runs env nanoS key tr' d' ∧
      tr'.map (·.event) = tr2.map (·.event) ++ .apdu cla 0x21 0x01 p2 data ⟨rnd.u8s, t.keys⟩ ::
        tr1.map (·.event) ∧
      List.Forall₂ SameObs (tr2 ++ o :: tr1) tr' ∧ d'.asks = d.asks ∧ d'.here = d.here ∧
      d'.page env nanoS = d.page env nanoS := by
    intro t ht
    obtain ⟨tr', d', g1, g2, g3, g4, g5, g6⟩ := C59_secrets (env' := env)
      ⟨rfl, rfl, rfl, rfl, fun _ => rfl⟩ h _ (hsame t ht)
    exact ⟨tr', d', g1, g2, g3, g4, (g6 .both .both .both).2.1, g5⟩
  refine ⟨S, kc.1, kc.2, hS, hst, hkc, hother, fun sig => ?_⟩
  rw [← card_tapeSig hN hwf.blake_len]
  refine Nat.card_congr (Equiv.subtypeEquivRight fun t => ?_)
  -- the reply with another tape
  have hreply : ∀ tr' d', t.Usable → Runs env nanoS key tr' d' →
      tr'.map (·.event) = tr2.map (·.event) ++ .apdu cla 0x21 0x01 p2 data ⟨rnd.u8s, t.keys⟩ ::
        tr1.map (·.event) →
      ((d'.step env nanoS .both).2 = .sw 0x9000 sig ↔ ∃ v : Fin (2 ^ 256), t.first = some v ∧
        tapeSig env kc.1 (txBytesSoFar env.keyOf (describe S.log)) v = some sig) := by
    intro tr'' d'' ht r' ev'
    obtain ⟨tr', d', g1, g2, g3, g4, g5, _⟩ := hother t ht
    obtain ⟨rfl, rfl⟩ := runs_det g1 r' (g2.trans ev'.symm)
    have hboth := sameBoth_of g3 (g2 ▸ hsame t ht)
    have ha' : Approves d' .both := ⟨hap.1, by rw [g5]; exact hap.2⟩
    obtain ⟨S', secret', h0', k0', hS', s1', s2', hpriv', hinit', hrep⟩ :=
      final_reply hwf g1 (g4.trans hask) ha'
    have hlog : S'.log = S.log := by
      have := congrArg Ghost.sign (bare_know hboth)
      simp only [Ghost.bare, hS, hS', Option.map_some, Option.some.injEq, SignSess.mk.injEq] at this
      exact this.2.2.symm
    -- where the start is
    obtain ⟨l1, l2, rfl, m1, m2⟩ := List.map_eq_append_iff.1 g2
    obtain ⟨o', l3, rfl, m3, m4⟩ := List.map_eq_cons_iff.1 m2
    have hlen : tr2.length = l1.length := by
      have := congrArg List.length m1
      simpa using this.symm
    obtain ⟨f1, f2⟩ := forall₂_split hlen hboth
    rw [List.forall₂_cons] at f2
    have hor' : o'.reply = .wait := by
      rcases f2.1.1.2.2 with e | ⟨_, _, e, _⟩
      · rw [e, hor]
      · rw [hoe] at e; cases e
    have hlast' : ∀ o'' ∈ l1, ¬ StartsSign o'' := by
      intro o'' hmem hs
      obtain ⟨i, hi, rfl⟩ := List.getElem_of_mem hmem
      have := List.forall₂_iff_get.1 f1
      exact hlast _ (List.getElem_mem (by omega)) ((this.2 i (by omega) hi).starts hs)
    have hst' := session_newest m3 hor' hlast' hS' s1' s2'
    rw [hst'] at hpriv' hinit'
    simp only at hpriv' hinit'
    rw [show env.genPrivate (pathOf (data.drop 1)) = some kc.1 from by unfold Env.genPrivate; rw [hkc]; rfl] at hpriv'
    cases hpriv'
    rw [schnorrInit_tape hmul hsec] at hinit'
    obtain ⟨v, hv, e⟩ := Option.map_eq_some_iff.1 hinit'
    simp only [Prod.mk.injEq] at e
    obtain ⟨rfl, rfl⟩ := e
    rw [hrep, hlog]
    change (match tapeSig env kc.1 (txBytesSoFar env.keyOf (describe S.log)) v with
      | some sig => Reply.sw 0x9000 sig
      | none => Reply.sw 0xE017 []) = _ ↔ _
    constructor
    · intro e
      refine ⟨v, hv, ?_⟩
      cases hq : tapeSig env kc.1 (txBytesSoFar env.keyOf (describe S.log)) v with
      | none => rw [hq] at e; simp at e
      | some s => rw [hq] at e; simpa using e
    · rintro ⟨v', hv', e⟩
      rw [hv] at hv'
      cases hv'
      rw [e]
  constructor
  · rintro ⟨ht, tr', d', r, ev, hr⟩
    exact (hreply tr' d' ht r ev).1 hr
  · rintro ⟨v, hv, e⟩
    have ht := usable_iff.2 ⟨v, hv⟩
    obtain ⟨tr', d', g1, g2, _⟩ := hother t ht
    exact ⟨ht, tr', d', g1, g2, (hreply tr' d' ht g1 g2).2 ⟨v, hv, e⟩⟩

/-- The events of the demonstration with the draws of a tape. -/
def onTape (t : RandTape) : Event → Event
  | .apdu cla ins p1 p2 data rnd => .apdu cla ins p1 p2 data ⟨rnd.u8s, t.keys⟩
  | e => e

/-- One session with three tapes: the signature depends on the first usable number only, and different
numbers give different signatures. -/
example :
    let sig := fun t => ((Device.boot [1]).run secpToy false
      ((demoOpen ++ demoTx ++ demoConfirm).map (onTape t))).2.getLast?
    (sig (roughTape 2)).map isSig = some true ∧ (sig (roughTape 9)).map isSig = some true ∧
      sig (roughTape 2) ≠ sig (roughTape 9) ∧ sig (roughTape 2) = sig fun _ => 5 := by
  decide +kernel

end Ergo
