import Verif.Spec.Faults
import Verif.Proof.MaskEnv
import Verif.Props.Refuse
/-!
# An event with failing services, and an execution without failures that ends the same way
-/
namespace Ergo
open Spec

theorem failing_refl (env : Env) : Failing env env :=
  ⟨rfl, rfl, rfl, rfl, fun _ => .inr rfl, fun _ => .inr rfl, .inr rfl⟩

theorem failing_eq {env env' : Env} (h : Failing env' env) :
    env' = env.other env'.derive env'.pubOf env'.mulG := by
  obtain ⟨b, hm, d, p, m, n, v⟩ := env
  obtain ⟨b', hm', d', p', m', n', v'⟩ := env'
  obtain ⟨e1, e2, e3, e4, _⟩ := h
  simp only at e1 e2 e3 e4
  subst e1 e2 e3 e4
  rfl

theorem Spec.Failing.genPublic {env env' : Env} (h : Failing env' env) (p : List UInt32) :
    env'.genPublic p = none ∨ env'.genPublic p = env.genPublic p := by
  unfold Env.genPublic
  rcases h.derive p with e | e <;> rw [e]
  · exact .inl rfl
  · cases hd : env.derive p with
    | none => exact .inl rfl
    | some x =>
      obtain ⟨k, c⟩ := x
      simp only
      rcases h.pubOf k with e | e <;> rw [e]
      · exact .inl rfl
      · exact .inr rfl

theorem Spec.Failing.genPrivate {env env' : Env} (h : Failing env' env) (p : List UInt32) :
    env'.genPrivate p = none ∨ env'.genPrivate p = env.genPrivate p := by
  unfold Env.genPrivate
  rcases h.derive p with e | e <;> rw [e]
  · exact .inl rfl
  · exact .inr rfl

theorem schnorrTry_none {env : Env} (h : ∀ k, env.mulG k = none) (s x : Bytes) :
    schnorrTry env s x = none := by
  unfold schnorrTry
  rw [h]
  split <;> rfl

theorem schnorrLoop_none {env : Env} (h : ∀ k, env.mulG k = none) (s : Bytes) (draws : Nat → Bytes) :
    ∀ n i, schnorrInitLoop env s draws n i = none
  | 0, _ => rfl
  | n + 1, i => by
    unfold schnorrInitLoop
    rw [schnorrTry_none h]
    exact schnorrLoop_none h s draws n (i + 1)

theorem schnorrLoop_mulG {env env' : Env} (h : env'.mulG = env.mulG) (s : Bytes) (draws : Nat → Bytes) :
    ∀ n i, schnorrInitLoop env' s draws n i = schnorrInitLoop env s draws n i
  | 0, _ => rfl
  | n + 1, i => by
    have e : schnorrTry env' s (draws i) = schnorrTry env s (draws i) := by
      unfold schnorrTry
      rw [h]
    unfold schnorrInitLoop
    rw [e, schnorrLoop_mulG h s draws n (i + 1)]

theorem Spec.Failing.schnorrInit {env env' : Env} (h : Failing env' env) (s : Bytes) (draws : Nat → Bytes) :
    schnorrInit env' s draws = none ∨ schnorrInit env' s draws = Ergo.schnorrInit env s draws := by
  rcases h.mulG with e | e
  · exact .inl (schnorrLoop_none e s draws _ _)
  · exact .inr (schnorrLoop_mulG e s draws _ _)

/-- What an event with failing services may do: the same as with working ones, or an error and a
blank device. -/
def SameOrBlank (d : Device) (x y : Device × Reply) : Prop :=
  x = y ∨ ∃ code, code ≠ 0x9000 ∧ harmless code = false ∧ x = (blank d, .sw code [])

theorem SameOrBlank.rfl {d : Device} {x : Device × Reply} : SameOrBlank d x x := .inl (Eq.refl _)

theorem sameOrBlank_ite {d : Device} {c : Prop} [Decidable c] {a b a' b' : Device × Reply}
    (h1 : c → SameOrBlank d a a') (h2 : ¬ c → SameOrBlank d b b') :
    SameOrBlank d (if c then a else b) (if c then a' else b') := by
  by_cases h : c
  · simpa [h] using h1 h
  · simpa [h] using h2 h

theorem sameOrBlank_crypto {d : Device} {y : Device × Reply} (hs : d.screen = none) (c : Command) :
    SameOrBlank d ((d.setCommand c).abort Sw.internalCryptoError) y := by
  refine .inr ⟨Sw.internalCryptoError, by decide, by decide, ?_⟩
  simp only [Device.abort, Device.setCommand, blank, hs, status]

theorem abort_blank {d : Device} (hs : d.screen = none) (sw : UInt16) :
    d.abort sw = (blank d, .sw sw []) := by
  simp only [Device.abort, Device.setCommand, blank, hs, status]

variable {env env' : Env}

theorem extPubKey_failing (h : Failing env' env) {d : Device} (hs : d.screen = none) (data : Bytes)
    (t : Bool) : SameOrBlank d (d.extPubKey env' data t) (d.extPubKey env data t) := by
  unfold Device.extPubKey
  refine sameOrBlank_ite (fun _ => .rfl) fun _ => ?_
  cases parsePathToken data t with
  | error e => exact .rfl
  | ok x =>
    obtain ⟨path, token⟩ := x
    refine sameOrBlank_ite (fun _ => .rfl) fun _ => ?_
    rcases h.genPublic path with e | e <;> rw [e]
    · exact sameOrBlank_crypto hs _
    · exact .rfl

theorem deriveAddress_failing (h : Failing env' env) {d : Device} (hs : d.screen = none) (data : Bytes)
    (a t : Bool) : SameOrBlank d (d.deriveAddress env' data a t) (d.deriveAddress env data a t) := by
  have hb : ∀ n k, addressFromPubkey env' n k = addressFromPubkey env n k := by
    intro n k
    unfold addressFromPubkey withChecksum
    rw [h.blake]
  unfold Device.deriveAddress
  refine sameOrBlank_ite (fun _ => .rfl) fun _ => ?_
  cases bufU8 data with
  | none => exact .rfl
  | some x =>
    obtain ⟨network, data⟩ := x
    simp only
    cases parsePathToken data t with
    | error e => exact .rfl
    | ok x =>
      obtain ⟨path, token⟩ := x
      refine sameOrBlank_ite (fun _ => .rfl) fun _ => ?_
      rcases h.genPublic path with e | e <;> rw [e]
      · exact sameOrBlank_crypto hs _
      · simp only [hb]
        exact .rfl

theorem signStart_failing (h : Failing env' env) {d : Device} (hs : d.screen = none) (data : Bytes)
    (t : Bool) (rnd : Rnd) : SameOrBlank d (d.signStart env' data t rnd) (d.signStart env data t rnd) := by
  unfold Device.signStart
  cases parseSignInit data t with
  | error e => exact .rfl
  | ok x =>
    obtain ⟨network, path, token⟩ := x
    have hp : p2pkInit env' path network rnd.keys = .err Sw.internalCryptoError ∨
        p2pkInit env' path network rnd.keys = p2pkInit env path network rnd.keys := by
      unfold p2pkInit
      by_cases h1 : ¬ pathValidate path .addressGe5 = true
      · rw [if_pos h1, if_pos h1]; exact .inr rfl
      rw [if_neg h1, if_neg h1]
      by_cases h2 : ¬ networkSupported network = true
      · rw [if_pos h2, if_pos h2]; exact .inr rfl
      rw [if_neg h2, if_neg h2]
      rcases h.genPrivate path with e | e <;> rw [e]
      · exact .inl rfl
      · cases env.genPrivate path with
        | none => exact .inl rfl
        | some s =>
          simp only
          rcases h.schnorrInit s rnd.keys with e | e <;> rw [e]
          · exact .inl rfl
          · exact .inr rfl
    simp only
    rcases hp with e | e <;> rw [e]
    · exact sameOrBlank_crypto hs _
    · exact .rfl

theorem opChange_failing (h : Failing env' env) (p : P2pk) (data : Bytes) :
    opChange env' p data = .err Sw.internalCryptoError ∨ opChange env' p data = opChange env p data := by
  have hc : ∀ path pub, p.addOutputChange env' path pub = p.addOutputChange env path pub := by
    intro path pub
    rw [failing_eq h]
    rfl
  unfold opChange
  cases readPath data with
  | none => exact .inr rfl
  | some x =>
    obtain ⟨path, rest⟩ := x
    simp only
    by_cases h1 : ¬ pathValidate path .addressGe5 = true
    · rw [if_pos h1, if_pos h1]; exact .inr rfl
    rw [if_neg h1, if_neg h1]
    rcases h.genPublic path with e | e <;> rw [e]
    · exact .inl rfl
    · simp only [hc, or_true]

theorem signSub_failing (h : Failing env' env) {d : Device} (hs : d.screen = none) (sub session : UInt8)
    (data : Bytes) : SameOrBlank d (d.signSub env' sub session data) (d.signSub env sub session data) := by
  have e16 : ∀ p : P2pk, p.addOutputTree env' data = p.addOutputTree env data := by
    intro p; rw [failing_eq h]; rfl
  have e17 : ∀ p : P2pk, opFee env' p data = opFee env p data := by intro p; rw [failing_eq h]; rfl
  have e19 : ∀ p : P2pk, p.addOutputTokens env' data = p.addOutputTokens env data := by
    intro p; rw [failing_eq h]; rfl
  have e1A : ∀ p : P2pk, p.addOutputRegisters env' data = p.addOutputRegisters env data := by
    intro p; rw [failing_eq h]; rfl
  have e12 : ∀ p : P2pk, opFrame env' d.sessionKey p data = opFrame env d.sessionKey p data := by
    intro p; rw [failing_eq h]; rfl
  unfold Device.signSub
  simp only [e16, e17, e19, e1A, e12]
  refine sameOrBlank_ite (fun _ => .rfl) fun _ => ?_
  cases d.ctx with
  | sign x =>
    simp only
    refine sameOrBlank_ite (fun _ => .rfl) fun _ => sameOrBlank_ite (fun _ => .rfl) fun _ =>
      sameOrBlank_ite (fun _ => .rfl) fun _ => sameOrBlank_ite (fun _ => .rfl) fun _ =>
      sameOrBlank_ite (fun _ => .rfl) fun _ => sameOrBlank_ite (fun _ => .rfl) fun _ =>
      sameOrBlank_ite (fun _ => .rfl) fun _ => sameOrBlank_ite (fun _ => .rfl) fun _ =>
      sameOrBlank_ite (fun _ => .rfl) fun _ => sameOrBlank_ite (fun _ => .rfl) fun _ =>
      sameOrBlank_ite (fun _ => ?_) fun _ => .rfl
    rcases opChange_failing h x.p data with e | e <;> rw [e]
    · refine .inr ⟨Sw.internalCryptoError, by decide, by decide, ?_⟩
      simp only [Device.signShow, abort_blank hs]
    · exact .rfl
  | _ => exact .rfl

theorem apdu_failing (h : Failing env' env) {d : Device} (hs : d.busy = false → d.screen = none)
    (nanoS : Bool) (cla ins p1 p2 : UInt8) (data : Bytes) (rnd : Rnd) :
    SameOrBlank d (d.step env' nanoS (.apdu cla ins p1 p2 data rnd))
      (d.step env nanoS (.apdu cla ins p1 p2 data rnd)) := by
  cases hb : d.busy with
  | true =>
    refine .inl ?_
    simp only [Device.step, Device.dispatch, Device.extPubKey, Device.deriveAddress, Device.attestInput,
        Device.signTransaction, hb, if_true, h.appName, h.appVersion]
  | false =>
    have hs := hs hb
    have ea : ∀ sub p2, d.attestInput env' sub p2 data rnd = d.attestInput env sub p2 data rnd := by
      intro sub p2; rw [failing_eq h]; rfl
    simp only [Device.step, Device.dispatch, h.appName, h.appVersion, ea]
    refine sameOrBlank_ite (fun _ => .rfl) fun _ => sameOrBlank_ite (fun _ => .rfl) fun _ =>
      sameOrBlank_ite (fun _ => .rfl) fun _ => sameOrBlank_ite (fun _ => .rfl) fun _ =>
      sameOrBlank_ite (fun _ => sameOrBlank_ite (fun _ => .rfl) fun _ => extPubKey_failing h hs _ _) fun _ =>
      sameOrBlank_ite (fun _ => sameOrBlank_ite (fun _ => .rfl) fun _ => deriveAddress_failing h hs _ _ _)
        fun _ => sameOrBlank_ite (fun _ => .rfl) fun _ =>
      sameOrBlank_ite (fun _ => sameOrBlank_ite (fun _ => .rfl) fun _ => ?_) fun _ => .rfl
    unfold Device.signTransaction
    exact sameOrBlank_ite (fun _ => .rfl) fun _ => sameOrBlank_ite (fun _ => sameOrBlank_ite (fun _ => .rfl)
      fun _ => signStart_failing h hs _ _ _) fun _ => sameOrBlank_ite (fun _ => signSub_failing h hs _ _ _)
      fun _ => .rfl

theorem act_failing (h : Failing env' env) (d : Device) (cb : Callback) (ok : Bool) :
    SameOrBlank d (d.act env' cb ok) (d.act env cb ok) := by
  unfold Device.act
  split <;> try exact .rfl
  rename_i x _
  unfold Device.actSignTx
  cases ok with
  | false => exact .rfl
  | true =>
    simp only [if_true]
    have hf : ∀ s, schnorrFinish env' x.p.hash s x.p.key = schnorrFinish env x.p.hash s x.p.key := by
      intro s; rw [failing_eq h]; rfl
    unfold P2pk.sendResponse
    by_cases h1 : x.p.state ≠ .finalized
    · rw [if_pos h1, if_pos h1]; exact .rfl
    rw [if_neg h1, if_neg h1]
    rcases h.genPrivate x.p.path with e | e <;> rw [e]
    · exact .inr ⟨Sw.internalCryptoError, by decide, by decide, rfl⟩
    · simp only [hf]
      exact .rfl

/-- One event with failing services. -/
theorem step_failing (h : Failing env' env) {d : Device} (hs : d.busy = false → d.screen = none)
    (nanoS : Bool) (e : Event) : SameOrBlank d (d.step env' nanoS e) (d.step env nanoS e) := by
  have em : ∀ s m, d.move env' nanoS s m = d.move env nanoS s m := by
    intro s m; rw [failing_eq h]; rfl
  cases e with
  | apdu cla ins p1 p2 data rnd => exact apdu_failing h hs nanoS cla ins p1 p2 data rnd
  | left => simp only [Device.step, em]; exact .rfl
  | right => simp only [Device.step, em]; exact .rfl
  | both =>
    simp only [Device.step]
    cases d.screen with
    | none => exact .rfl
    | some s =>
      simp only [Device.both]
      split
      · exact act_failing h d _ _
      · exact act_failing h d _ _
      · exact act_failing h d _ _
      · exact .rfl

/-! ## Knowledge -/

theorem next_failure {g : Ghost} {o : Obs} (h : Fails o) : g.next o = g.close := by
  obtain ⟨sw, out, h1, h2, h3⟩ := h
  obtain ⟨a, b, e, r⟩ := o
  simp only at h1
  subst h1
  cases e <;> simp [Ghost.next, h2, h3]

theorem know_waits {tr : List Obs} : ∀ (os : List Obs),
    (∀ x ∈ os, (x.event = .left ∨ x.event = .right) ∧ x.reply = .wait) → know (os ++ tr) = know tr
  | [], _ => rfl
  | o :: os, h => by
    have h1 := h o (by simp)
    have ih := know_waits (tr := tr) os (fun x hx => h x (by simp [hx]))
    simp only [List.cons_append, know, ih]
    obtain ⟨a, b, e, r⟩ := o
    obtain ⟨rfl | rfl, h2⟩ := h1 <;> simp only at h2 <;> subst h2 <;> rfl

/-- The observer knows the same after both traces. -/
theorem Spec.Mirrors.know_eq {tr tr' : List Obs} (h : Mirrors tr tr') : know tr' = know tr := by
  induction h with
  | nil => rfl
  | same o h ih => simp only [know, ih]
  | fault o o' os h h1 h2 h3 ih =>
    simp only [know, next_failure h1, next_failure h2]
    rw [know_waits os h3, ih]

/-- What happened without any failure after a success happened in both. -/
theorem Spec.Mirrors.since {tr tr' : List Obs} (h : Mirrors tr tr') : ∀ {t2 t1 : List Obs} {o : Obs},
    tr' = t2 ++ o :: t1 → ¬ Fails o → (∀ x ∈ t2, ¬ Fails x) →
    ∃ t1', tr = t2 ++ o :: t1' ∧ Mirrors t1' t1 := by
  induction h with
  | nil => intro t2 t1 o e; simp at e
  | @same tr tr' o' h ih =>
    intro t2 t1 o e ho ht
    cases t2 with
    | nil =>
      simp only [List.nil_append, List.cons.injEq] at e
      obtain ⟨rfl, rfl⟩ := e
      exact ⟨tr, rfl, h⟩
    | cons x t2 =>
      simp only [List.cons_append, List.cons.injEq] at e
      obtain ⟨rfl, e⟩ := e
      obtain ⟨t1', rfl, h'⟩ := ih e ho (fun x hx => ht x (by simp [hx]))
      exact ⟨t1', rfl, h'⟩
  | fault o1 o2 os h h1 h2 h3 ih =>
    intro t2 t1 o e ho ht
    cases t2 with
    | nil =>
      simp only [List.nil_append, List.cons.injEq] at e
      obtain ⟨rfl, _⟩ := e
      exact absurd h2 ho
    | cons x t2 =>
      simp only [List.cons_append, List.cons.injEq] at e
      obtain ⟨rfl, _⟩ := e
      exact absurd h2 (ht _ (by simp))

/-! ## An execution without failures -/

theorem presses_runs {nanoS : Bool} {key : Bytes} {d d' : Device} {bs : List Event}
    (h : Presses env nanoS d bs d') : ∀ {tr : List Obs}, Runs env nanoS key tr d →
    ∃ os, Runs env nanoS key (os ++ tr) d' ∧
      ∀ x ∈ os, (x.event = .left ∨ x.event = .right) ∧ x.reply = .wait := by
  induction h with
  | nil hb => intro tr hr; exact ⟨[], hr, by simp⟩
  | @cons d d' d'' b bs hb hbt hs hr ih =>
    intro tr h0
    have h1 := h0.step b (by rw [hs]; simp) (by rw [hs]; simp)
    have hd : (d.step env nanoS b).1 = d' := by rw [hs]
    rw [hd] at h1
    obtain ⟨os, h2, h3⟩ := ih h1
    refine ⟨os ++ [d.observe env nanoS b], by simpa using h2, ?_⟩
    intro x hx
    rcases List.mem_append.1 hx with hx | hx
    · exact h3 x hx
    · rw [List.mem_singleton.1 hx]
      exact ⟨hbt, by simp only [Device.observe, hs]⟩

/-- From every device of every execution there is a failure that leads to the blank device. -/
theorem Runs.failure {nanoS : Bool} {key : Bytes} {tr : List Obs} {d : Device}
    (h : Runs env nanoS key tr d) : ∃ o os, Runs env nanoS key (o :: (os ++ tr)) (blank d) ∧ Fails o ∧
      ∀ x ∈ os, (x.event = .left ∨ x.event = .right) ∧ x.reply = .wait := by
  cases hs : d.screen with
  | some s =>
    obtain ⟨bs, d', _, h2, h3⟩ := h.wayOut hs
    obtain ⟨os, h4, h5⟩ := presses_runs h2 h
    have hr := C23_reject h4 h3
    have h6 := h4.step .both (by rw [hr]; simp) (by rw [hr]; simp)
    have hd : (d'.step env nanoS .both).1 = blank d := by
      rw [hr, h2.app]
      simp only [blank, h.inv.key]
    rw [hd] at h6
    refine ⟨_, os, h6, ⟨0x6985, [], ?_, by decide, by decide⟩, h5⟩
    simp only [Device.observe, hr]
  | none =>
    have hb : d.busy = false := by rw [h.inv.busy, hs]; rfl
    have e : d.step env nanoS (.apdu 0xE0 0x21 0x30 0x01 [] ⟨[], fun _ => []⟩) =
        (blank d, .sw Sw.wrongSubcommand []) := by
      rw [← abort_blank hs]
      simp [Device.step, Device.dispatch, Device.signTransaction, hb]
    have h6 := h.step _ (by rw [e]; simp) (by rw [e]; simp)
    have hd : (d.step env nanoS (.apdu 0xE0 0x21 0x30 0x01 [] ⟨[], fun _ => []⟩)).1 = blank d := by rw [e]
    rw [hd] at h6
    refine ⟨_, [], h6, ⟨Sw.wrongSubcommand, [], ?_, by decide, by decide⟩, by simp⟩
    simp only [Device.observe, e]

theorem step_address (nanoS : Bool) (d : Device) (p1 p2 : UInt8) (data : Bytes) (rnd : Rnd) :
    d.step env nanoS (.apdu 0xE0 0x11 p1 p2 data rnd) =
      if data.length > 255 then (d, status Sw.wrongDataLength)
      else if p1 = 0 ∨ p1 > 2 ∨ p2 = 0 ∨ p2 > 2 then (d, status Sw.wrongP1P2)
      else d.deriveAddress env data (p1 = 2) (p2 = 2) := rfl

/-- The address command with a network byte that is not valid ends as with a failing checksum. -/
theorem address_failure {nanoS : Bool} {d : Device} {p1 p2 : UInt8} {data : Bytes} {rnd : Rnd}
    (hr : (d.step env nanoS (.apdu 0xE0 0x11 p1 p2 data rnd)).2 = .wait ∨
      (∃ out, (d.step env nanoS (.apdu 0xE0 0x11 p1 p2 data rnd)).2 = .sw 0x9000 out) ∨
      ∃ code, (code = 0xE101 ∨ code = 0xE102) ∧
        (d.step env nanoS (.apdu 0xE0 0x11 p1 p2 data rnd)).2 = .sw code []) :
    d.step env nanoS (.apdu 0xE0 0x11 p1 p2 (255 :: data.tail) rnd) =
      ({ d with command := .deriveAddress, ctx := .zeroed }, .sw 0xE016 []) := by
  have hn : ¬ ∃ code, (code ≠ 0x9000 ∧ code ≠ 0xE101 ∧ code ≠ 0xE102) ∧
      (d.step env nanoS (.apdu 0xE0 0x11 p1 p2 data rnd)).2 = .sw code [] := by
    rintro ⟨code, ⟨h1, h3, h4⟩, h2⟩
    rcases hr with e | ⟨out, e⟩ | ⟨c, hc, e⟩ <;> rw [e] at h2 <;> cases h2
    · exact h1 rfl
    · rcases hc with rfl | rfl
      · exact h3 rfl
      · exact h4 rfl
  rw [step_address] at hn
  rw [step_address]
  by_cases hl : data.length > 255
  · rw [if_pos hl] at hn; exact absurd ⟨_, by decide, rfl⟩ hn
  rw [if_neg hl] at hn
  by_cases hp : p1 = 0 ∨ p1 > 2 ∨ p2 = 0 ∨ p2 > 2
  · rw [if_pos hp] at hn; exact absurd ⟨_, by decide, rfl⟩ hn
  rw [if_neg hp] at hn
  unfold Device.deriveAddress at hn ⊢
  by_cases hb : d.busy = true
  · rw [if_pos hb] at hn; exact absurd ⟨_, by decide, rfl⟩ hn
  rw [if_neg hb] at hn
  cases data with
  | nil => exact absurd ⟨_, by decide, rfl⟩ hn
  | cons n rest =>
    rw [if_neg (by simpa using hl), if_neg hp, if_neg hb]
    simp only [List.tail_cons]
    simp only [bufU8] at hn ⊢
    cases hpt : parsePathToken rest (p2 = 2) with
    | error e =>
      rw [hpt] at hn
      simp only [Device.abort, status] at hn
      refine absurd ⟨e, ?_, rfl⟩ hn
      have hc : e = Sw.notEnoughData ∨ e = Sw.tooMuchData := by
        revert hpt
        unfold parsePathToken
        repeat' split
        all_goals intro h; cases h <;> simp
      rcases hc with rfl | rfl <;> decide
    | ok x =>
      obtain ⟨path, token⟩ := x
      rw [hpt] at hn
      simp only at hn ⊢
      by_cases hv : ¬ pathValidate path .addressGe5 = true
      · rw [if_pos hv] at hn; exact absurd ⟨_, by decide, rfl⟩ hn
      rw [if_neg hv] at hn ⊢
      cases hg : env.genPublic path with
      | none => rw [hg] at hn; exact absurd ⟨_, by decide, rfl⟩ hn
      | some x =>
        obtain ⟨pub, c⟩ := x
        simp only [addressFromPubkey, show networkValid 255 = false from rfl, Bool.false_eq_true, if_false,
          Device.setCommand, status, Bool.eq_false_iff.2 hb]
        rfl

end Ergo
