import Verif.Proof.RefPaged
import Verif.Props.Union
/-!
# The reply to pressing both buttons (C80)
-/
namespace Ergo
open Spec

theorem bytesOf_eq (n v : Nat) : bytesOf n v = beBytes n v := by
  have step : ∀ n v, beBytes (n + 1) v = beBytes n (v / 256) ++ [UInt8.ofNat v] := by
    intro n
    induction n with
    | zero => intro v; simp [beBytes]
    | succ n ih =>
      intro v
      have e := ih v
      rw [beBytes, e, beBytes, List.cons_append, Nat.div_div_eq_div_mul, pow_succ, mul_comm]
  induction n generalizing v with
  | zero => rfl
  | succ n ih => rw [bytesOf, ih, step]

open scoped Classical in
/-- The scalar of the loop is the first usable one. -/
theorem initLoop_first {env : Env} {secret : Bytes} {draws : Nat → Bytes} {n i : Nat} {t k : Bytes}
    (h : schnorrInitLoop env secret draws n i = some (t, k)) :
    ((List.range' i n).map draws).find? (fun k => UsableScalar env k) = some k := by
  induction n generalizing i with
  | zero => simp [schnorrInitLoop] at h
  | succ n ih =>
    have hu : UsableScalar env secret := ((initLoop_iff env secret draws (n + 1) i).1 ⟨_, h⟩).1
    unfold schnorrInitLoop at h
    have ht := schnorrTry_some env secret (draws i)
    rw [List.range'_succ, List.map_cons, List.find?_cons]
    cases hq : schnorrTry env secret (draws i) with
    | some q =>
      rw [hq] at h ht
      have h2 := (ht.1 ⟨q, rfl⟩).2
      simp only [h2, decide_true]
      simp only [Option.some.injEq] at h
      subst h
      obtain ⟨j, pk, w, e, _⟩ := schnorrInitLoop_some env secret draws 1 i t k (by
        unfold schnorrInitLoop; rw [hq])
      have : k = draws i := by
        unfold schnorrTry at hq
        split at hq
        · simp at hq
        · split at hq
          · simp at hq
          · split at hq
            · simp at hq
            · split at hq
              · simp at hq
              · simp only [Option.some.injEq, Prod.mk.injEq] at hq
                exact hq.2.symm
      rw [this]
    | none =>
      rw [hq] at h ht
      have h2 : ¬ UsableScalar env (draws i) := fun e => by
        obtain ⟨q, hq'⟩ := ht.2 ⟨hu, e⟩; cases hq'
      simp only [h2, decide_false]
      exact ih h

/-- The signature, or the error, of a session. -/
theorem signed_eq {env : Env} {nanoS : Bool} {key : Bytes} {tr : List Obs} {d : Device}
    (h : Runs env nanoS key tr d) {x : SignCtx} {S : SignSess} (hx : d.ctx = .sign x)
    (ha : x.approved = true) (hS : (know tr).sign = some S) (hf : x.p.state = .finalized) :
    (match x.p.sendResponse env with
      | .ok sig => Reply.sw Sw.ok sig
      | .error e => status e) = S.signed env := by
  obtain ⟨network, path, token, p0, i1, i2, i3, _, i5, hR, _⟩ := sign_rel h hx ha hS
  obtain ⟨_, j3, j4⟩ := parseSignInit_some i1
  obtain ⟨_, _, secret, h0, k, hpriv, hinit, rfl⟩ := p2pkInit_ok i2
  obtain ⟨f1, _⟩ := hR.final hf
  have hfirst := initLoop_first hinit
  obtain ⟨_, pk, w, _, e2, e3, e4, _⟩ := schnorrInitLoop_some _ _ _ _ _ _ _ hinit
  have hk : nonce env S.start.rnd = k := by
    unfold nonce
    rw [List.range_eq_range']
    rw [hfirst]; rfl
  have hsec : (env.genPrivate (pathOf (S.start.data.drop 1))).getD [] = secret := by
    rw [j3, hpriv]; rfl
  have hhash : x.p.hash = commitBytes pk w ++ txBytesSoFar env.keyOf (describe S.log) := by
    rw [f1]; simp only; rw [e4]; rfl
  unfold SignSess.signed
  rw [hsec, hk]
  dsimp only
  rw [e2, e3]
  simp only [Option.getD_some]
  unfold P2pk.sendResponse
  rw [if_neg (by simp [hf]), i3, hpriv]
  simp only
  rw [hhash, i5]
  unfold schnorrFinish
  simp only [beNat_eq, secpN_eq, Nat.add_mod_mod, bytesOf_eq]
  by_cases hc : be ((env.blake (commitBytes pk w ++ txBytesSoFar env.keyOf (describe S.log))).take 24) = 0
  · simp only [hc, if_true]; rfl
  · simp only [hc, if_false]; rfl

theorem granted_start {env : Env} {g : Ghost} {a : Request} (hp : g.pending = some a)
    (h : a.ins = 0x21 → a.p1 = 0x01) : granted env g = .sw 0x9000 (a.grant env) := by
  unfold granted
  rw [hp]
  simp only
  rw [if_neg (by rintro ⟨e1, e2⟩; exact e2 (h e1))]

/-- The reply to pressing both buttons. -/
theorem reply_both {env : Env} (hwf : env.WF) {nanoS : Bool} {key : Bytes} {tr : List Obs} {d : Device}
    (h : Runs env nanoS key tr d) : (d.step env nanoS .both).2 = expected env key tr .both := by
  have hI := h.inv
  unfold expected
  dsimp only
  rw [choice_eq h]
  obtain ⟨d', r, hst, hT⟩ := step_cases env nanoS d .both
  have hr2 : (d.step env nanoS .both).2 = r := by rw [hst]
  rw [hr2]
  have happ : ∀ {s : Screen}, d.screen = some s →
      (s.flow.here = .approve ∨ ∃ p, s.flow.here = .pathApprove p) →
      (d.here.map FlowStep.choice).getD .nothing = .approve := by
    intro s hs h1
    unfold Device.here
    rw [hs]
    rcases h1 with e | ⟨p, e⟩ <;> simp [e, FlowStep.choice]
  cases hT with
  | idle he hs => simp [Device.here, hs]
  | move he => rcases he with ⟨he, _⟩ | ⟨he, _⟩ <;> cases he
  | moveErr he => rcases he with ⟨he, _⟩ | ⟨he, _⟩ <;> cases he
  | moveUb he => rcases he with ⟨he, _⟩ | ⟨he, _⟩ <;> cases he
  | click hs h1 h2 h3 =>
    rename_i s
    have : (d.here.map FlowStep.choice).getD .nothing = .nothing := by
      unfold Device.here
      rw [hs]
      simp only [Option.map_some, Option.getD_some]
      cases hh : s.flow.here <;> first | rfl | skip
      · exact absurd hh (h3 _)
      · exact absurd hh h1
      · exact absurd hh h2
    rw [this]
  | reject hs h1 =>
    rename_i s
    have : (d.here.map FlowStep.choice).getD .nothing = .reject := by
      unfold Device.here
      rw [hs]
      simp [h1, FlowStep.choice]
    rw [this]; rfl
  | okEpk hs h1 hcb hx =>
    rw [happ hs h1]
    obtain ⟨a, f0, p1, p2, p3⟩ := hI.asking _ hs
    rw [hcb] at p3
    obtain ⟨q1, _, _, path, token, pub, chain, t, q2, _, q5, _, q3, q4⟩ := p3
    rw [hx] at q4
    simp only [Ctx.extPub.injEq] at q4
    subst q4
    simp only
    rw [granted_start p1 (by simp [q1]), grant_epk q1 q2 q5]; rfl
  | okDa hs h1 hcb hx =>
    rw [happ hs h1]
    obtain ⟨a, f0, p1, p2, p3⟩ := hI.asking _ hs
    rw [hcb] at p3
    obtain ⟨q1, _, _, network, rest, path, token, pub, chain, raw, t, q0, q2, _, q5, q6, _, q3⟩ := p3
    simp only
    rw [granted_start p1 (by simp [q1])]
    rcases q3 with ⟨q7, q3, q4⟩ | ⟨q7, s', _, _, q3, q4⟩
    · rw [hx] at q4
      simp only [Ctx.derive.injEq] at q4
      subst q4
      rw [grant_da q1 q7 q0 q2 q5 q6]; rfl
    · rw [hx] at q4
      simp only [Ctx.derive.injEq] at q4
      subst q4
      rw [grant_show q1 q7]; rfl
  | okAttest hs h1 hcb hx =>
    rw [happ hs h1]
    obtain ⟨a, f0, p1, p2, p3⟩ := hI.asking _ hs
    rw [hcb] at p3
    obtain ⟨q1, _, _, _, y, s', _, _, q2, _, q4⟩ := p3
    rw [hx] at q4
    simp only [Ctx.attest.injEq] at q4
    subst q4
    simp only
    rw [granted_start p1 (by simp [q1]), grant_session (.inl q1) q2]; rfl
  | okSignInit hs h1 hcb hx hu =>
    rw [happ hs h1]
    obtain ⟨a, f0, p1, p2, p3⟩ := hI.asking _ hs
    rw [hcb] at p3
    obtain ⟨q1, q2, _, _, network, path, token', p, s', t, _, _, _, q3, _, _, q4⟩ := p3
    rw [hx] at q4
    simp only [Ctx.sign.injEq] at q4
    subst q4
    simp only
    rw [granted_start p1 (fun _ => q2), grant_session (.inr q1) q3]; rfl
  | okSignOutput hs h1 hcb hx hu hout hl =>
    rw [happ hs h1]
    obtain ⟨a, f0, p1, p2, p3⟩ := hI.asking _ hs
    rw [hcb] at p3
    obtain ⟨q1, q2, q3, _⟩ := p3
    simp only
    unfold granted
    rw [p1]
    simp only
    rw [if_pos ⟨q1, by rintro e; rw [e] at q2; exact absurd q2 (by decide)⟩,
      if_neg (by rintro e; rw [e] at q3; exact absurd q3 (by decide))]
    rfl
  | okSignTx hs h1 hcb hx hsig =>
    rw [happ hs h1]
    obtain ⟨a, f0, p1, p2, p3⟩ := hI.asking _ hs
    rw [hcb] at p3
    obtain ⟨q1, q2, _, y, S, hy, hS, hB, hu, hf, rfl⟩ := p3
    rw [hx] at hy
    cases hy
    simp only
    unfold granted
    rw [p1]
    simp only
    rw [if_pos ⟨q1, by rw [q2]; decide⟩, if_pos q2, hS]
    simp only [Option.map_some, Option.getD_some]
    rw [← signed_eq h hx hB.approved hS hf, hsig]
  | failSignTx hs h1 hcb hx hsig =>
    rw [happ hs h1]
    obtain ⟨a, f0, p1, p2, p3⟩ := hI.asking _ hs
    rw [hcb] at p3
    obtain ⟨q1, q2, _, y, S, hy, hS, hB, hu, hf, rfl⟩ := p3
    rw [hx] at hy
    cases hy
    simp only
    unfold granted
    rw [p1]
    simp only
    rw [if_pos ⟨q1, by rw [q2]; decide⟩, if_pos q2, hS]
    simp only [Option.map_some, Option.getD_some]
    rw [← signed_eq h hx hB.approved hS hf, hsig]
  | actUb hs h1 h' =>
    rcases (C21_defined h .both hr2).1 with e | e <;> cases e

end Ergo
