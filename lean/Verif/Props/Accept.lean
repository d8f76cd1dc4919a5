import Verif.Proof.Asks
import Verif.Proof.Final
import Verif.Proof.Demo
/-!
# C48, C49: exactly which signing commands are accepted, and which outputs the user is asked about
-/
namespace Ergo
open Spec

/-- C48: in an open signing session, when the user is not being asked anything, a command of the
session is accepted (success, or a question on the screen) exactly if it fits what was sent before;
all others are refused with an error status. -/
theorem C48_exact {env : Env} {nanoS : Bool} {key : Bytes} {tr : List Obs} {d : Device}
    (h : Runs env nanoS key tr d) {S : SignSess} (hS : (know tr).sign = some S) (hL : Live tr)
    (ha : d.asks = none) (sub : UInt8) (data : Bytes) (hl : data.length ≤ 255)
    (hsub : 0x10 ≤ sub ∧ sub ≤ 0x1A ∨ sub = 0x20) (rnd : Rnd) :
    let r := (d.step env nanoS (.apdu 0xE0 0x21 sub S.id data rnd)).2
    Fits env key (describe S.log) sub data ∧ (r = .sw 0x9000 [] ∨ r = .wait) ∨
      ¬ Fits env key (describe S.log) sub data ∧ IsError r := by
  intro r
  rcases sign_reply h hS hL ha hl hsub rnd (r := r) rfl with ⟨h1, h2⟩ | h1
  · left
    refine ⟨h1, ?_⟩
    rcases h2 with h2 | h2
    · exact .inl h2.2
    · exact .inr h2.2
  · exact .inr h1

/-- C48: of the accepted commands, only those that add to an output and the confirmation can put
something on the screen; the confirmation always does. -/
theorem C48_questions {env : Env} {nanoS : Bool} {key : Bytes} {tr : List Obs} {d : Device}
    (h : Runs env nanoS key tr d) {S : SignSess} (hS : (know tr).sign = some S) (hL : Live tr)
    (ha : d.asks = none) (sub : UInt8) (data : Bytes) (hl : data.length ≤ 255)
    (hsub : 0x10 ≤ sub ∧ sub ≤ 0x1A ∨ sub = 0x20) (rnd : Rnd)
    (hf : Fits env key (describe S.log) sub data) :
    let r := (d.step env nanoS (.apdu 0xE0 0x21 sub S.id data rnd)).2
    (sub < 0x16 → r = .sw 0x9000 []) ∧ (sub = 0x20 → r = .wait) := by
  intro r
  rcases sign_reply h hS hL ha hl hsub rnd (r := r) rfl with ⟨_, h2⟩ | h1
  · constructor
    · intro hs
      rcases h2 with h2 | h2
      · exact h2.2
      · have := h2.1
        rw [UInt8.le_iff_toNat_le] at this
        rw [UInt8.lt_iff_toNat_lt] at hs
        omega
    · rintro rfl
      rcases h2 with h2 | h2
      · exact absurd h2.1 (by decide)
      · exact h2.2
  · exact absurd hf h1.1

/-- A session as long as the hypotheses of C48 ask for, with what it answers to a fitting and to some
unfitting commands: number of inputs and outputs given, token table not announced, input frame
before the numbers, confirmation too early. -/
example : Live (seen demoOpen) ∧ (after demoOpen).asks = none ∧
    (know (seen demoOpen)).sign.map (·.id) = some 7 ∧
    ((after demoOpen).step toyEnv false (cmd 0x21 0x10 7 [0, 1, 0, 0, 0, 0, 2])).2 = .sw 0x9000 [] ∧
    ((after demoOpen).step toyEnv false (cmd 0x21 0x10 7 [0, 1, 0, 0, 0, 0, 0])).2 ≠ .sw 0x9000 [] ∧
    ((after demoOpen).step toyEnv false (cmd 0x21 0x11 7 [])).2 = .sw 0xB0FF [] ∧
    ((after demoOpen).step toyEnv false (cmd 0x21 0x20 7 [])).2 = .sw 0xB0FF [] := by
  refine ⟨.inl ⟨rfl, by decide +kernel, [7], by decide +kernel⟩, ?_⟩
  decide +kernel

/-- The description after the numbers and the first input of `demoTx`. -/
def demoFirst : TxDesc := describe [.cmd 0x10 [0, 1, 0, 0, 0, 0, 2],
  .cmd 0x12 (demoFrame 1 1 0 100 [] [0, 0, 0, 0])]

/-- An output of any value fits there; one with a tree of 32769 bytes does not, a second input does
not. -/
example : (∀ v : UInt8, Fits toyEnv [1] demoFirst 0x15
      [0, 0, 0, 0, 0, 0, 0, v, 0, 0, 0, 36, 0, 0, 0, 1, 0, 0, 0, 0, 0]) ∧
    ¬ Fits toyEnv [1] demoFirst 0x15
      [0, 0, 0, 0, 0, 0, 0, 1, 0, 0, 0x80, 1, 0, 0, 0, 1, 0, 0, 0, 0, 0] ∧
    ¬ Fits toyEnv [1] demoFirst 0x12 (demoFrame 1 1 0 100 [] [0, 0, 0, 0]) := by
  refine ⟨fun v => ?_, ?_, ?_⟩
  · exact ⟨by decide +kernel, ⟨by decide +kernel, by decide +kernel⟩, by decide +kernel,
      by decide +kernel, rfl, by simp [field, be], by simp [field, be], by simp [field, be]⟩
  · rintro ⟨_, _, _, _, _, h, _⟩
    exact absurd h (by decide +kernel)
  · rintro ⟨_, _, _, _, _, _, h⟩
    exact absurd h.1 (by decide +kernel)

/-! ## C49 -/

/-- C49: in an open signing session, when the user is not being asked anything, an accepted part of an
output makes the device ask about the output exactly if the output is complete with it and needs a
decision (it is neither a plain fee output nor change of one of the two automatic classes, see C34).
Otherwise the answer is success at once. -/
theorem C49_asked {env : Env} {nanoS : Bool} {key : Bytes} {tr : List Obs} {d : Device}
    (h : Runs env nanoS key tr d) {S : SignSess} (hS : (know tr).sign = some S) (hL : Live tr)
    (ha : d.asks = none) (sub : UInt8) (data : Bytes) (hl : data.length ≤ 255)
    (h1 : 0x16 ≤ sub) (h2 : sub ≤ 0x1A) (rnd : Rnd) (hf : Fits env key (describe S.log) sub data) :
    ∃ o older, (describe (S.log ++ [.cmd sub data])).outputs = o :: older ∧
      let r := (d.step env nanoS (.apdu 0xE0 0x21 sub S.id data rnd)).2
      (r = .wait ↔ o.box.complete = true ∧
        ¬ Automatic (pathOf (S.start.data.drop 1)) older o.box) ∧
      (r = .wait ∨ r = .sw 0x9000 []) := by
  obtain ⟨network, path, token, o, os, i1, hD, hr⟩ := part_asks h hS hL ha hl h1 h2 rnd hf
  obtain ⟨_, hp, _⟩ := parseSignInit_some i1
  refine ⟨o, os, hD, ?_⟩
  rw [hp]
  rcases hr with ⟨hr, h1⟩ | ⟨hr, h1⟩
  · exact ⟨iff_of_true hr h1, .inl hr⟩
  · exact ⟨iff_of_false (by rw [hr]; simp) h1, .inr hr⟩

/-- C49: what is asked then is the confirmation of an output, in every state. -/
theorem C49_screen (env : Env) (nanoS : Bool) (d : Device)
    (sub s : UInt8) (data : Bytes) (h1 : 0x16 ≤ sub) (h2 : sub ≤ 0x1A)
    (rnd : Rnd) (hr : (d.step env nanoS (.apdu 0xE0 0x21 sub s data rnd)).2 = .wait) :
    (d.step env nanoS (.apdu 0xE0 0x21 sub s data rnd)).1.asks = some .confirmOutput := by
  obtain ⟨d', r, hst, hT⟩ := step_cases env nanoS d (.apdu 0xE0 0x21 sub s data rnd)
  rw [hst] at hr ⊢
  simp only at hr ⊢
  subst hr
  cases hT with
  | signAsk => exact absurd h1 (by decide)
  | signConfirm => exact absurd h2 (by decide)
  | signShow => rfl
  | idle he => rcases he with he | he | he <;> cases he
  | move he => rcases he with ⟨he, _⟩ | ⟨he, _⟩ <;> cases he

/-- Own script: asked; fee output: not asked. -/
example : (after (demoOpen ++ demoTx.take 4)).asks = some .confirmOutput ∧
    (after (demoOpen ++ demoTx.take 3)).asks = none ∧
    (after (demoOpen ++ demoTx)).asks = none ∧
    (know (seen (demoOpen ++ demoTx.take 3))).sign.map (·.id) = some 7 := by decide +kernel

end Ergo
