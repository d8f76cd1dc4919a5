import Verif.Proof.RefBoth
import Verif.Props.WhyAll
/-!
# C80: all replies are given by one table
-/
namespace Ergo
open Spec

/-- C80: the table knows which question is on the screen, and what pressing both buttons means. -/
theorem C80_question {env : Env} {nanoS : Bool} {key : Bytes} {tr : List Obs} {d : Device}
    (h : Runs env nanoS key tr d) :
    d.asks = question tr ∧
    (Approves d .both ↔ choice tr = .approve) ∧
    (d.here = some .reject ↔ choice tr = .reject) := by
  refine ⟨(question_eq h).symm, ?_, ?_⟩
  · rw [choice_eq h]
    unfold Approves
    cases hs : d.here with
    | none => simp
    | some s => cases s <;> simp [FlowStep.choice]
  · rw [choice_eq h]
    cases hs : d.here with
    | none => simp
    | some s => cases s <;> simp [FlowStep.choice]

/-- C80: every reply is that of the table, for every event in every state that can be reached; the only
exception is paging while a token is minted by exactly 2^63, where the reply may be undefined. -/
theorem C80_reply {env : Env} (hwf : env.WF) {nanoS : Bool} {key : Bytes} {tr : List Obs} {d : Device}
    (h : Runs env nanoS key tr d) (e : Event) :
    (d.step env nanoS e).2 = expected env key tr e ∨
      (d.step env nanoS e).2 = .ub ∧ (e = .left ∨ e = .right) ∧ question tr = some .approveSigning ∧
        MintsHalf (know tr) := by
  cases e with
  | apdu cla ins p1 p2 data rnd => exact .inl (reply_apdu hwf h cla ins p1 p2 data rnd)
  | left =>
    rcases reply_paged hwf h (e := .left) (.inl rfl) with g | ⟨g1, g2, g3⟩
    · exact .inl g
    · exact .inr ⟨g1, .inl rfl, (question_eq h).trans g2, g3⟩
  | right =>
    rcases reply_paged hwf h (e := .right) (.inr rfl) with g | ⟨g1, g2, g3⟩
    · exact .inl g
    · exact .inr ⟨g1, .inr rfl, (question_eq h).trans g2, g3⟩
  | both => exact .inl (reply_both hwf h)

theorem know_unpaged (tr : List Obs) : know (tr.map unpaged) = know tr := by
  induction tr with
  | nil => rfl
  | cons o tr ih => rw [List.map_cons, know, know, ih]; rfl

theorem position_unpaged (tr : List Obs) : position (tr.map unpaged) = position tr := by
  induction tr with
  | nil => rfl
  | cons o tr ih => rw [List.map_cons, position, position, ih, know_unpaged]; rfl

theorem live_unpaged (tr : List Obs) : (Live (tr.map unpaged) ↔ Live tr) ∧
    (LiveAttest (tr.map unpaged) ↔ LiveAttest tr) := by
  induction tr with
  | nil => exact ⟨Iff.rfl, Iff.rfl⟩
  | cons o tr ih =>
    rw [List.map_cons, Live, Live, LiveAttest, LiveAttest, ih.1, ih.2]
    exact ⟨Iff.rfl, Iff.rfl⟩

theorem expected_unpaged (env : Env) (key : Bytes) (tr : List Obs) (e : Event) :
    question (tr.map unpaged) = question tr ∧
    expected env key (tr.map unpaged) e = expected env key tr e := by
  have hq : question (tr.map unpaged) = question tr := by
    unfold question; rw [position_unpaged, know_unpaged]
  refine ⟨hq, ?_⟩
  unfold expected choice allDemands contDemands
  rw [hq, position_unpaged, know_unpaged, (live_unpaged tr).1, (live_unpaged tr).2]

/-- C80: everything that can be observed of an execution (questions and replies) is a function of the
events, the environment and the key of the application: `foreseen`. -/
theorem C80_run {env : Env} (hwf : env.WF) {nanoS : Bool} {key : Bytes} {tr : List Obs} {d : Device}
    (h : Runs env nanoS key tr d) :
    tr.map unpaged = foreseen env key (tr.map (·.event)) := by
  induction h with
  | boot => rfl
  | @step tr d e h hh hu ih =>
    rw [List.map_cons, List.map_cons, foreseen]
    show _ = ⟨question (foreseen env key (tr.map (·.event))), none, e,
      expected env key (foreseen env key (tr.map (·.event))) e⟩ :: foreseen env key (tr.map (·.event))
    rw [← ih, (expected_unpaged env key tr e).1, (expected_unpaged env key tr e).2]
    congr 1
    rcases C80_reply hwf h e with g | ⟨g, _⟩
    · rw [← g, question_eq h]; rfl
    · exact absurd g hu

/-- C80: devices with a small and with a big screen give the same replies to the same events. -/
theorem C80_models {env : Env} (hwf : env.WF) {n1 n2 : Bool} {key : Bytes} {tr1 tr2 : List Obs}
    {d1 d2 : Device} (h1 : Runs env n1 key tr1 d1) (h2 : Runs env n2 key tr2 d2)
    (he : tr1.map (·.event) = tr2.map (·.event)) :
    tr1.map (·.reply) = tr2.map (·.reply) ∧ tr1.map (·.asked) = tr2.map (·.asked) := by
  have e := (C80_run hwf h1).trans ((congrArg _ he).trans (C80_run hwf h2).symm)
  have a := congrArg (List.map (·.reply)) e
  have b := congrArg (List.map (·.asked)) e
  rw [List.map_map, List.map_map] at a b
  exact ⟨a, b⟩

/-- A signed transaction with a token: what the table says about the last question on its way. -/
example :
    (List.range 10).map (fun k =>
      let tr := seen (demoOpen ++ demoTokTx [0, 0, 0, 0, 0, 0, 0, 4] ++ demoTokEnd ++
        List.replicate k .right)
      (question tr, position tr, choice tr)) =
    (List.range 8).map (fun k => (some .approveSigning, some k, .nothing)) ++
      [(some .approveSigning, some 8, .approve), (some .approveSigning, some 9, .reject)] := by
  decide +kernel

/-- The first page of the question about signing approves; before Approve and Reject there is one more
if the application is not yet known. -/
example : question (seen [cmd 0x21 1 2 (0 :: demoPath 0 ++ [0, 0, 0, 9])]) = some .p2pkSigning ∧
    choice (seen [cmd 0x21 1 2 (0 :: demoPath 0 ++ [0, 0, 0, 9])]) = .approve ∧
    choice (seen [cmd 0x21 1 2 (0 :: demoPath 0 ++ [0, 0, 0, 9]), .right]) = .nothing ∧
    choice (seen [cmd 0x21 1 2 (0 :: demoPath 0 ++ [0, 0, 0, 9]), .right, .right]) = .approve ∧
    choice (seen [cmd 0x21 1 2 (0 :: demoPath 0 ++ [0, 0, 0, 9]), .left]) = .reject := by
  decide +kernel

/-- The table foresees a signature. -/
example : ∃ sig, sig.length = 56 ∧
    (foreseen toyEnv [1] (demoOpen ++ demoTx ++ demoConfirm).reverse).head?.map (·.reply) =
      some (.sw 0x9000 sig) := by
  have h := runs_boot (key := [1]) (env := toyEnv) (nanoS := false) (demoOpen ++ demoTx ++ demoConfirm)
    (by decide +kernel)
  generalize hw : (Device.boot [1]).watch toyEnv false [] (demoOpen ++ demoTx ++ demoConfirm) = w at h
  have h1 : w.1.head?.map (fun o => match o.reply with | .sw 0x9000 sig => sig.length | _ => 0) =
      some 56 := by subst hw; decide +kernel
  have h2 : w.1.map (·.event) = (demoOpen ++ demoTx ++ demoConfirm).reverse := by subst hw; rfl
  have hr := C80_run toyEnv_wf h
  rw [h2] at hr
  rw [← hr]
  cases hl : w.1 with
  | nil => rw [hl] at h1; simp at h1
  | cons o l =>
    rw [hl] at h1
    simp only [List.head?_cons, Option.map_some, Option.some.injEq] at h1
    split at h1
    · rename_i sig e
      exact ⟨sig, h1, by simp [unpaged, e]⟩
    · cases h1

end Ergo
