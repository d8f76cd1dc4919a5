import Verif.Proof.Start
import Verif.Proof.Demo
/-!
# C51: exactly which commands that start an operation are accepted, asked, or refused
-/
namespace Ergo
open Spec

/-- C51: when the user is not being asked anything, a command that starts an operation is answered at
once with success, put on the screen, left without an answer (no session id can be drawn), or refused
with an error status, exactly under the stated conditions on its data and on the application token of
the last approval.  There is no other kind of reply. -/
theorem C51_reply {env : Env} (hwf : env.WF) {nanoS : Bool} {key : Bytes} {tr : List Obs} {d : Device}
    (h : Runs env nanoS key tr d) (ha : d.asks = none) (a : Request) (hl : a.data.length ≤ 255)
    (hs : starts a.ins a.p1 a.p2 = true) :
    let r := (d.step env nanoS a.event).2
    let app := (know tr).app
    ((∃ out, r = .sw 0x9000 out) ↔ a.Good env ∧ a.IdDrawn ∧ a.AtOnce app) ∧
    (r = .wait ↔ a.Good env ∧ a.IdDrawn ∧ ¬ a.AtOnce app ∧ a.Showable) ∧
    (r = .hang ↔ a.Good env ∧ ¬ a.IdDrawn) ∧
    (IsError r ↔ ¬ a.Good env ∨ a.IdDrawn ∧ ¬ a.AtOnce app ∧ ¬ a.Showable) ∧
    ((∃ out, r = .sw 0x9000 out) ∨ r = .wait ∨ r = .hang ∨ IsError r) := by
  intro r app
  have h1 := start_reply (nanoS := nanoS) hwf (idle_notBusy h.inv ha) hl hs
  rw [h.inv.app] at h1
  change StartReply env a app r at h1
  rcases h1 with ⟨⟨out, h1⟩, h2, h3, h4⟩ | ⟨h1, h2, h3, h4, h5⟩ | ⟨h1, h2, h3⟩ | ⟨⟨e, he, h1⟩, h2⟩
  · refine ⟨iff_of_true ⟨out, h1⟩ ⟨h2, h3, h4⟩, iff_of_false (by rw [h1]; simp) (fun g => g.2.2.1 h4),
      iff_of_false (by rw [h1]; simp) (fun g => g.2 h3), iff_of_false ?_ ?_, ?_⟩
    · rintro ⟨e, he, h5⟩
      rw [h1] at h5
      cases h5
      exact he rfl
    · rintro (g | g)
      · exact g h2
      · exact g.2.1 h4
    · exact .inl ⟨out, h1⟩
  · refine ⟨iff_of_false (by rw [h1]; simp) (fun g => h4 g.2.2), iff_of_true h1 ⟨h2, h3, h4, h5⟩,
      iff_of_false (by rw [h1]; simp) (fun g => g.2 h3), iff_of_false ?_ ?_, ?_⟩
    · rintro ⟨e, he, h5⟩
      rw [h1] at h5
      cases h5
    · rintro (g | g)
      · exact g h2
      · exact g.2.2 h5
    · exact .inr (.inl h1)
  · refine ⟨iff_of_false (by rw [h1]; simp) (fun g => h3 g.2.1), iff_of_false (by rw [h1]; simp)
      (fun g => h3 g.2.1), iff_of_true h1 ⟨h2, h3⟩, iff_of_false ?_ ?_, ?_⟩
    · rintro ⟨e, he, h5⟩
      rw [h1] at h5
      cases h5
    · rintro (g | g)
      · exact g h2
      · exact h3 g.1
    · exact .inr (.inr (.inl h1))
  · refine ⟨iff_of_false ?_ ?_, iff_of_false (by rw [h1]; simp) ?_, iff_of_false (by rw [h1]; simp) ?_,
      iff_of_true ⟨e, he, h1⟩ h2, .inr (.inr (.inr ⟨e, he, h1⟩))⟩
    · rintro ⟨out, h5⟩
      rw [h1] at h5
      cases h5
      exact he rfl
    · rintro ⟨g1, g2, g3⟩
      rcases h2 with h2 | h2
      · exact h2 g1
      · exact h2.2.1 g3
    · rintro ⟨g1, g2, g3, g4⟩
      rcases h2 with h2 | h2
      · exact h2 g1
      · exact h2.2.2 g4
    · rintro ⟨g1, g2⟩
      rcases h2 with h2 | h2
      · exact h2 g1
      · exact g2 h2.1

/-- C51: an export needs no session id, so it is never left without an answer; the start of signing is
never answered at once, whatever was approved before. -/
theorem C51_kinds (a : Request) (app : UInt32) :
    (a.ins = 0x10 ∨ a.ins = 0x11 → a.IdDrawn) ∧ (a.ins = 0x21 → ¬ a.AtOnce app) ∧
    (a.token = 0 → ¬ a.AtOnce app) ∧ (a.ins = 0x11 → a.p1 = 2 → ¬ a.AtOnce app) := by
  refine ⟨?_, ?_, fun h g => g.1 h, ?_⟩
  · rintro (h | h) (g | g) <;> rw [h] at g <;> exact absurd g (by decide)
  · rintro h ⟨_, _, g | g | g⟩
    · rw [h] at g; exact absurd g (by decide)
    · rw [h] at g; exact absurd g.1 (by decide)
    · rw [h] at g; exact absurd g (by decide)
  · rintro h h2 ⟨_, _, g | g | g⟩
    · rw [h] at g; exact absurd g (by decide)
    · rw [h2] at g; exact absurd g.2 (by decide)
    · rw [h] at g; exact absurd g (by decide)

/-- C51: a path is shown exactly if its text fits with one character for the last component when that
is not hardened; the bound is 59 characters. -/
theorem C51_showable (p : List UInt32) (n : Nat) :
    (pathFormat p n).isSome = true ↔ p ≠ [] ∧ p.length ≤ 10 ∧ pathNeed p < n :=
  pathFormat_iff p n

/-- Starts of the toy device: the export of an account key is asked, with a path that is no account
path refused, with the approved application token answered at once. -/
example : let a : Request := ⟨0x10, 2, 0, demoPath3 ++ [0, 0, 0, 5], demoRnd⟩
    a.Good toyEnv ∧ a.IdDrawn ∧ ¬ a.AtOnce 0 ∧ a.AtOnce 5 ∧ a.Showable := by
  refine ⟨⟨by decide +kernel, ?_⟩, ?_, ?_, ?_, ?_⟩
  · refine ⟨by decide +kernel, ?_, by decide +kernel⟩
    show IsAccountPath _
    rw [← validate_account]
    decide +kernel
  · rintro (h | h) <;> exact absurd h (by decide)
  · rintro ⟨_, h, _⟩; exact absurd h (by decide +kernel)
  · exact ⟨by decide +kernel, by decide +kernel, .inl rfl⟩
  · right; decide +kernel

/-- Replies to the start of signing: asked, no session id, wrong network, path too long to be shown. -/
example : ((after []).step toyEnv false (cmd 0x21 0x01 1 (0 :: demoPath 0))).2 = .wait ∧
    ((after []).step toyEnv false (.apdu 0xE0 0x21 0x01 1 (0 :: demoPath 0)
      ⟨[0, 0], demoRnd.keys⟩)).2 = .hang ∧
    ((after []).step toyEnv false (cmd 0x21 0x01 1 (5 :: demoPath 0))).2 ≠ .wait ∧
    ((after []).step toyEnv false (cmd 0x21 0x01 1 ([0, 10] ++ (demoPath 0).drop 1 ++
      (List.replicate 4 [127, 255, 255, 255]).flatten ++ [0, 0, 0, 1]))).2 = .sw 0xE101 [] ∧
    pathNeed [0x8000002C, 0x800001AD, 0x80000000, 0, 0, 2147483647, 2147483647, 2147483647,
      2147483647, 1] = 61 := by
  decide +kernel

end Ergo
