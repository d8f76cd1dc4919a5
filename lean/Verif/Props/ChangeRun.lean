import Verif.Props.Session
/-!
# C34 in whole sessions: change that was never shown
-/
namespace Ergo
open Spec

/-- C34 (partial), for sessions: when a signature is released, a complete change output was approved on
an output-confirmation screen of this session, or its path has five components and is in the window of
the signing path or follows an approved change.  Missing: the account is not compared, and neither is
the approved path (`C34_session_negation_account`, `C34_session_negation_approved`). -/
theorem C34_session_partial {env : Env} (hwf : env.WF) (hv : env.appVersion.length ≠ 56)
    (hn : env.appName.length ≠ 56) {nanoS : Bool} {key : Bytes} {tr : List Obs} {d : Device}
    (h : Runs env nanoS key tr d) (e : Event) (hs : Signs (d.observe env nanoS e)) :
    ∃ S, (know tr).sign = some S ∧ ∀ newer o older p,
      (describe S.log).outputs = newer ++ o :: older → o.box.complete → o.box.script = some (.change p) →
      (∃ tr2 d1 tr1 l o', tr = tr2 ++ d1.observe env nanoS .both :: tr1 ∧ Runs env nanoS key tr1 d1 ∧
        Approval (d1.observe env nanoS .both) ∧ d1.asks = some .confirmOutput ∧
        (know tr1).sign = some { S with log := l } ∧ (describe l).outputs = o' :: older ∧
        o'.box = o.box) ∨
      IsAddressPath p ∧ p.length = 5 ∧
        ((p[3]? = (pathOf (S.start.data.drop 1))[3]? ∧ ∃ i j, p[4]? = some i ∧
          (pathOf (S.start.data.drop 1))[4]? = some j ∧ i.toNat < j.toNat + 20) ∨
        ∃ o2 q, older.find? (·.approved) = some o2 ∧ o2.box.script = some (.change q) ∧
          IsAddressPath q ∧ q.length = 5) := by
  obtain ⟨S, hS, hall⟩ := C02_partial hwf hv hn h e hs
  refine ⟨S, hS, fun newer o older p ho hc hp => ?_⟩
  rcases hall newer o older ho hc with (ha | ⟨q, hq, h1, h2, h3⟩ | ⟨q, hq, h1, h2, h3⟩) | ha
  · exact absurd (hp.symm.trans ha.1) (by simp)
  · rw [hp] at hq; cases hq; exact .inr ⟨h1, h2, .inl h3⟩
  · rw [hp] at hq; cases hq; exact .inr ⟨h1, h2, .inr h3⟩
  · exact .inl ha

/-- The path m/44'/429'/7'/0/0. -/
def otherAccount : Bytes :=
  [5, 0x80, 0, 0, 44, 0x80, 0, 1, 0xAD, 0x80, 0, 0, 7, 0, 0, 0, 0, 0, 0, 0, 0]

/-- The path m/44'/429'/9'/1/1000. -/
def farAddress : Bytes :=
  [5, 0x80, 0, 0, 44, 0x80, 0, 1, 0xAD, 0x80, 0, 0, 9, 0, 0, 0, 1, 0, 0, 3, 232]

/-- Signing with the path m/44'/429'/0'/0/0: one input of 100, 90 of it as change to another account, fee
10. -/
def hiddenRun : List Event :=
  demoOpen ++ [cmd 0x21 0x10 7 [0, 1, 0, 0, 0, 0, 2], cmd 0x21 0x12 7 (demoFrame 1 1 0 100 [] [0, 0, 0, 0]),
   cmd 0x21 0x15 7 [0, 0, 0, 0, 0, 0, 0, 90, 0, 0, 0, 36, 0, 0, 0, 1, 0, 0, 0, 0, 0],
   cmd 0x21 0x18 7 otherAccount,
   cmd 0x21 0x15 7 [0, 0, 0, 0, 0, 0, 0, 10, 0, 0, 0, 105, 0, 0, 0, 1, 0, 0, 0, 0, 0],
   cmd 0x21 0x17 7 [], cmd 0x21 0x20 7 [], .left, .left]

/-- C34 is false in whole sessions: a signature for account 0 is released, 90 of 100 go to account 7,
and no output was ever on the screen. -/
theorem C34_session_negation_account : ∃ env nanoS key tr d out S o f p, Env.WF env ∧
    Runs env nanoS key tr d ∧ (d.step env nanoS .both).2 = .sw 0x9000 out ∧ out.length = 56 ∧
    (know tr).sign = some S ∧ (describe S.log).outputs = [f, o] ∧ o.box.complete = true ∧
    o.box.value = 90 ∧ o.box.script = some (.change p) ∧ IsAddressPath p ∧
    IsAddressPath (pathOf (S.start.data.drop 1)) ∧
    p[2]? ≠ (pathOf (S.start.data.drop 1))[2]? ∧ ∀ ob ∈ tr, ob.asked ≠ some .confirmOutput := by
  have h := runs_boot (key := [1]) (env := toyEnv) (nanoS := false) hiddenRun (by decide +kernel)
  generalize hw : (Device.boot [1]).watch toyEnv false [] hiddenRun = w at h
  have h2 : isSig (w.2.step toyEnv false .both).2 = true := by subst hw; decide +kernel
  have h3 : (know w.1).sign.map (fun S => ((describe S.log).outputs, S.start.data)) =
      some ([⟨⟨10, 105, 1, 0, 0, some .fee, [], []⟩, false⟩,
        ⟨⟨90, 36, 1, 0, 0, some (.change (pathOf otherAccount)), [], []⟩, false⟩], 0 :: demoPath 0) := by
    subst hw; decide +kernel
  have h4 : w.1.all (fun o => o.asked != some .confirmOutput) = true := by subst hw; decide +kernel
  obtain ⟨S, hS, hD⟩ := Option.map_eq_some_iff.1 h3
  obtain ⟨out, hr, hl⟩ : ∃ out, (w.2.step toyEnv false .both).2 = .sw 0x9000 out ∧
      out.length = 56 := isSig_iff (o := w.2.observe toyEnv false .both) |>.1 h2
  simp only [Prod.mk.injEq] at hD
  refine ⟨toyEnv, false, [1], w.1, w.2, out, S, _, _, _, toyEnv_wf, h, hr, hl, hS, hD.1, by decide, rfl, rfl,
    ?_, ?_, ?_, ?_⟩
  · rw [← validate_address]; decide +kernel
  · rw [hD.2, ← validate_address]; decide +kernel
  · rw [hD.2]; decide +kernel
  · simpa using h4

/-- The same with two change outputs: 50 to index 30, which is shown and approved, then 40 to another
account. -/
def hiddenRun2 : List Event :=
  demoOpen ++ [cmd 0x21 0x10 7 [0, 1, 0, 0, 0, 0, 3], cmd 0x21 0x12 7 (demoFrame 1 1 0 100 [] [0, 0, 0, 0]),
   cmd 0x21 0x15 7 [0, 0, 0, 0, 0, 0, 0, 50, 0, 0, 0, 36, 0, 0, 0, 1, 0, 0, 0, 0, 0],
   cmd 0x21 0x18 7 (demoPath 30), .left, .left, .both,
   cmd 0x21 0x15 7 [0, 0, 0, 0, 0, 0, 0, 40, 0, 0, 0, 36, 0, 0, 0, 1, 0, 0, 0, 0, 0],
   cmd 0x21 0x18 7 farAddress,
   cmd 0x21 0x15 7 [0, 0, 0, 0, 0, 0, 0, 10, 0, 0, 0, 105, 0, 0, 0, 1, 0, 0, 0, 0, 0],
   cmd 0x21 0x17 7 [], cmd 0x21 0x20 7 [], .left, .left]

/-- C34 is false in whole sessions: after one approved change output, change to another path, outside of
the window and of another account, is signed; the user approved one output only, the first. -/
theorem C34_session_negation_approved : ∃ env nanoS key tr d out S o f o1 p q, Env.WF env ∧
    Runs env nanoS key tr d ∧ (d.step env nanoS .both).2 = .sw 0x9000 out ∧ out.length = 56 ∧
    (know tr).sign = some S ∧ (describe S.log).outputs = [f, o, o1] ∧ o.box.complete = true ∧
    o.box.script = some (.change p) ∧ o1.box.script = some (.change q) ∧
    o1.approved = true ∧ o.approved = false ∧ p ≠ q ∧
    p[2]? ≠ q[2]? ∧ p[2]? ≠ (pathOf (S.start.data.drop 1))[2]? ∧
    p[3]? ≠ (pathOf (S.start.data.drop 1))[3]? ∧
    (S.log.filter (fun e => match e with | .approve => true | _ => false)).length = 1 := by
  have h := runs_boot (key := [1]) (env := toyEnv) (nanoS := false) hiddenRun2 (by decide +kernel)
  generalize hw : (Device.boot [1]).watch toyEnv false [] hiddenRun2 = w at h
  have h2 : isSig (w.2.step toyEnv false .both).2 = true := by subst hw; decide +kernel
  have h3 : (know w.1).sign.map (fun S => ((describe S.log).outputs, S.start.data,
        (S.log.filter (fun e => match e with | .approve => true | _ => false)).length)) =
      some ([⟨⟨10, 105, 1, 0, 0, some .fee, [], []⟩, false⟩,
        ⟨⟨40, 36, 1, 0, 0, some (.change (pathOf farAddress)), [], []⟩, false⟩,
        ⟨⟨50, 36, 1, 0, 0, some (.change (pathOf (demoPath 30))), [], []⟩, true⟩], 0 :: demoPath 0, 1) := by
    subst hw; decide +kernel
  obtain ⟨S, hS, hD⟩ := Option.map_eq_some_iff.1 h3
  obtain ⟨out, hr, hl⟩ : ∃ out, (w.2.step toyEnv false .both).2 = .sw 0x9000 out ∧
      out.length = 56 := isSig_iff (o := w.2.observe toyEnv false .both) |>.1 h2
  simp only [Prod.mk.injEq] at hD
  refine ⟨toyEnv, false, [1], w.1, w.2, out, S, _, _, _, _, _, toyEnv_wf, h, hr, hl, hS, hD.1, by decide, rfl,
    rfl, rfl, rfl, by decide +kernel, by decide +kernel, ?_, ?_, hD.2.2⟩
  · rw [hD.2.1]; decide +kernel
  · rw [hD.2.1]; decide +kernel

/-- The hypotheses of `C34_session_partial`: the second session ends with a signature and has both kinds
of change. -/
example : Runs toyEnv false [1] (seen hiddenRun2) (after hiddenRun2) ∧
    Signs ((after hiddenRun2).observe toyEnv false .both) :=
  ⟨runs_boot _ (by decide +kernel), isSig_iff.1 (by decide +kernel)⟩

end Ergo
