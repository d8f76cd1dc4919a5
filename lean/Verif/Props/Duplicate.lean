import Verif.Props.Authentic
import Verif.Proof.Demo
import Mathlib.Data.List.Infix
/-!
# C43: the same box twice
-/
namespace Ergo
open Spec

/-- Attestation of a box (see `demoAttest`), then a session with that box as both of two inputs, one
output of value 8 and one fee output of value 10, up to the final screen. -/
def demoTwice (frame : Bytes) : List Event :=
  demoAttest ++ demoOpen ++
  [cmd 0x21 0x10 7 [0, 2, 0, 0, 0, 0, 2], cmd 0x21 0x12 7 (frame ++ [0, 0, 0, 0]),
   cmd 0x21 0x12 7 (frame ++ [0, 0, 0, 0]),
   cmd 0x21 0x15 7 [0, 0, 0, 0, 0, 0, 0, 8, 0, 0, 0, 36, 0, 0, 0, 1, 0, 0, 0, 0, 0],
   cmd 0x21 0x16 7 demoTree, .left, .left, .both,
   cmd 0x21 0x15 7 [0, 0, 0, 0, 0, 0, 0, 10, 0, 0, 0, 105, 0, 0, 0, 1, 0, 0, 0, 0, 0],
   cmd 0x21 0x17 7 [], cmd 0x21 0x20 7 []]

/-- The frame that the toy device sends. -/
def demoSent : Bytes :=
  match ((after (demoAttest.take 5)).step toyEnv false (cmd 0x20 0x05 7 [0])).2 with
  | .sw _ out => out
  | _ => []

/-- Test for `SentFrame`. -/
def sentFrame (tr : List Obs) (out : Bytes) : Bool :=
  tr.any (fun o => match o.event with
    | .apdu _ ins p1 _ _ _ => ins == 0x20 && p1 == 0x05 && o.reply == .sw 0x9000 out
    | _ => false)

/-- Test for `Unforged`: every frame presented was sent before. -/
def unforged : List Obs → Bool
  | [] => true
  | o :: tr => unforged tr && match o.event with
    | .apdu _ ins p1 _ data _ =>
      !(ins == 0x21 && p1 == 0x12) || sentFrame tr (data.take (frameLen data + 16))
    | _ => true

theorem sentFrame_sound {tr : List Obs} {out : Bytes} (h : sentFrame tr out = true) :
    SentFrame tr out := by
  simp only [sentFrame, List.any_eq_true] at h
  obtain ⟨o, ho, h⟩ := h
  refine ⟨o, ho, ?_⟩
  cases he : o.event with
  | apdu cla ins p1 p2 data rnd =>
    rw [he] at h
    simp only [Bool.and_eq_true, beq_iff_eq] at h
    obtain ⟨⟨rfl, rfl⟩, h⟩ := h
    exact ⟨⟨cla, p2, data, rnd, rfl⟩, h⟩
  | _ => rw [he] at h; simp at h

theorem unforged_sound {env : Env} {key : Bytes} : ∀ {tr : List Obs}, unforged tr = true →
    Unforged env key tr
  | [], _ => by intro tr2 o tr1 e; simp at e
  | o :: tr, h => by
    simp only [unforged, Bool.and_eq_true] at h
    intro tr2 o' tr1 e cla p2 data rnd he hlen _
    cases tr2 with
    | nil =>
      simp only [List.nil_append, List.cons.injEq] at e
      obtain ⟨rfl, rfl⟩ := e
      have h2 := h.2
      rw [he] at h2
      simp only [beq_self_eq_true, Bool.and_self, Bool.not_true, Bool.false_or] at h2
      exact sentFrame_sound h2
    | cons a tr2 =>
      simp only [List.cons_append, List.cons.injEq] at e
      obtain ⟨rfl, rfl⟩ := e
      exact unforged_sound h.1 tr2 o' tr1 rfl cla p2 data rnd he hlen (by assumption)

/-- C43 is false: a box of value 9, attested by the device (which alone makes tags), is accepted as
both inputs of a transaction; its value counts twice (8 + 10 = 9 + 9), and the user is asked to sign. -/
theorem C43_negation : ∃ env nanoS key tr d S i, Env.WF env ∧ Runs env nanoS key tr d ∧
    Unforged env key tr ∧ (know tr).sign = some S ∧ (describe S.log).inputs = [i, i] ∧ i.value = 9 ∧
    (describe S.log).sumIn = 18 ∧ d.asks = some .approveSigning := by
  have h := runs_boot (key := [1]) (env := toyEnv) (nanoS := false) (demoTwice demoSent)
    (by decide +kernel)
  generalize hw : (Device.boot [1]).watch toyEnv false [] (demoTwice demoSent) = w at h
  have h1 : w.2.asks = some .approveSigning := by subst hw; decide +kernel
  have h2 : unforged w.1 = true := by subst hw; decide +kernel
  have h3 : (know w.1).sign.map (fun S => ((describe S.log).inputs, (describe S.log).sumIn)) =
      some (List.replicate 2 ⟨demoSent.take 32, 9, 1, 1, [], 0, []⟩, 18) := by
    subst hw; decide +kernel
  obtain ⟨S, hS, hD⟩ := Option.map_eq_some_iff.1 h3
  simp only [Prod.mk.injEq] at hD
  exact ⟨toyEnv, false, [1], w.1, w.2, S, _, toyEnv_wf, h, unforged_sound h2, hS, hD.1, rfl, hD.2, h1⟩

/-- C43, what holds: the inputs of a session are, one for one, boxes that this device attested; each
box counts exactly as often as its id occurs among the inputs of the transaction.  So when these ids
are distinct — the ids are part of the signed bytes, and the network wants them distinct — no box
counts twice: value and token amounts of the inputs are the sums over distinct attested boxes.
(`hone`: boxes with the same id have the same tokens, which is C13.)  Missing: the device does not
check that the ids are distinct. -/
theorem C43_partial {env : Env} (hwf : env.WF) {nanoS : Bool} {key : Bytes} {tr : List Obs}
    {d : Device} (h : Runs env nanoS key tr d) (hun : OwnFrames tr) {S : SignSess}
    (hS : (know tr).sign = some S)
    (hone : ∀ A B, Attested tr A → Attested tr B → A.boxId env = B.boxId env →
      A.box.tokens = B.box.tokens)
    (hc : ∀ i ∈ (describe S.log).inputs, i.complete) :
    ∃ As : List AttestSess, (∀ A ∈ As, Attested tr A) ∧
      As.map (·.boxId env) = (describe S.log).inputs.map (·.boxId) ∧
      (((describe S.log).inputs.map (·.boxId)).Nodup → (As.map (·.boxId env)).Nodup) ∧
      (describe S.log).sumIn = (As.map (·.box.value)).sum ∧
      ∀ id, (describe S.log).tokIn id =
        (As.map (fun A => ((A.box.tokens.filter (·.1 = id)).map (·.2)).sum)).sum := by
  have hw := C09_whole hwf h hun hS hone
  unfold TxDesc.sumIn TxDesc.tokIn
  revert hc hw
  generalize (describe S.log).inputs = l
  intro hc hw
  suffices hs : ∃ As : List AttestSess, (∀ A ∈ As, Attested tr A) ∧
      As.map (fun A => (A.boxId env, A.box.value, A.box.tokens)) =
        l.map (fun i => (i.boxId, i.value, i.tokens)) by
    obtain ⟨As, h1, h2⟩ := hs
    have e : ∀ {β : Type} (f : Bytes × Nat × List (Bytes × Nat) → β),
        As.map (fun A => f (A.boxId env, A.box.value, A.box.tokens)) =
          l.map (fun i => f (i.boxId, i.value, i.tokens)) := by
      intro β f
      have := congrArg (List.map f) h2
      simpa only [List.map_map, Function.comp_def] using this
    refine ⟨As, h1, e (·.1), ?_, ?_, ?_⟩
    · intro hn; rw [show As.map (·.boxId env) = l.map (·.boxId) from e (·.1)]; exact hn
    · rw [show As.map (·.box.value) = l.map (·.value) from e (·.2.1)]
    · intro id
      exact congrArg List.sum (e (fun x => ((x.2.2.filter (·.1 = id)).map (·.2)).sum)).symm
  clear hone hS
  induction l with
  | nil => exact ⟨[], by simp, rfl⟩
  | cons i l ih =>
    obtain ⟨As, h1, h2⟩ := ih (fun j hj => hc j (by simp [hj])) (fun j hj => hw j (by simp [hj]))
    obtain ⟨A, a1, a2, a3, a4⟩ := hw i (by simp) (hc i (by simp))
    refine ⟨A :: As, ?_, ?_⟩
    · intro B hB
      rcases List.mem_cons.1 hB with rfl | hB
      · exact a1
      · exact h1 B hB
    · rw [List.map_cons, List.map_cons, h2, a2, a3, a4]

/-- A test on all attestation sessions of a history. -/
theorem attested_test {p : AttestSess → Bool} {tr : List Obs}
    (ht : tr.tails.all (fun t => (know t).attest.all p) = true) {A : AttestSess}
    (hA : Attested tr A) : p A = true := by
  obtain ⟨⟨tr2, tr1, rfl, hk⟩, _⟩ := hA
  have := List.all_eq_true.1 ht tr1 ((List.mem_tails _ _).2 (List.suffix_append tr2 tr1))
  rw [hk] at this
  exact this

/-- The session of `C43_negation` with the box as only input: the hypotheses hold, with value 9. -/
example : ∃ tr d S, Runs toyEnv false [1] tr d ∧ Unforged toyEnv [1] tr ∧
    (know tr).sign = some S ∧
    (∀ A B, Attested tr A → Attested tr B → A.boxId toyEnv = B.boxId toyEnv →
      A.box.tokens = B.box.tokens) ∧
    (∀ i ∈ (describe S.log).inputs, i.complete) ∧
    (describe S.log).inputs.map (·.boxId) = [demoSent.take 32] ∧ (describe S.log).sumIn = 9 := by
  have h := runs_boot (key := [1]) (env := toyEnv) (nanoS := false) ((demoTwice demoSent).take 10)
    (by decide +kernel)
  generalize hw : (Device.boot [1]).watch toyEnv false [] ((demoTwice demoSent).take 10) = w at h
  have h2 : unforged w.1 = true := by subst hw; decide +kernel
  have h3 : (know w.1).sign.map (fun S => ((describe S.log).inputs, (describe S.log).sumIn)) =
      some ([⟨demoSent.take 32, 9, 1, 1, [], 0, []⟩], 9) := by
    subst hw; decide +kernel
  have h4 : w.1.tails.all (fun t => (know t).attest.all (fun A => A.box.tokens == [])) = true := by
    subst hw; decide +kernel
  obtain ⟨S, hS, hD⟩ := Option.map_eq_some_iff.1 h3
  simp only [Prod.mk.injEq] at hD
  refine ⟨w.1, w.2, S, h, unforged_sound h2, hS, ?_, ?_, ?_, hD.2⟩
  · intro A B hA hB _
    rw [beq_iff_eq.1 (attested_test h4 hA), beq_iff_eq.1 (attested_test h4 hB)]
  · rw [hD.1]; decide +kernel
  · rw [hD.1]; rfl

end Ergo
