import Verif.Proof.WhyAll
import Verif.Proof.Demo
import Verif.Props.Why
import Verif.Props.Attest
/-!
# C79: every refused command says why
-/
namespace Ergo
open Spec

/-- C79: whatever bytes are sent and whenever, a status word other than success is the one that
belongs to the first unmet demand, comes without data, and is sent for no other reason. -/
theorem C79_refused {env : Env} {nanoS : Bool} (hwf : env.WF) {key : Bytes} {tr : List Obs} {d : Device}
    (h : Runs env nanoS key tr d) (cla ins p1 p2 : UInt8) (data : Bytes) (rnd : Rnd) (c : UInt16)
    (out : Bytes) :
    (d.step env nanoS (.apdu cla ins p1 p2 data rnd)).2 = .sw c out ∧ c ≠ 0x9000 ↔
      FirstUnmet (allDemands env key tr d.asks cla ⟨ins, p1, p2, data, rnd⟩) c ∧ out = [] := by
  have hall := why_all hwf h cla ⟨ins, p1, p2, data, rnd⟩
  simp only at hall
  rcases hall with ⟨h1, h2⟩ | ⟨c', h1, h2, h3⟩
  · constructor
    · rintro ⟨hr, hc⟩
      rw [hr] at h2
      rcases h2 with ⟨o, h2⟩ | h2 | h2
      · simp only [Reply.sw.injEq] at h2
        exact absurd h2.1 hc
      · cases h2
      · cases h2.1
    · exact fun hu => absurd h1 hu.1.notMet
  · constructor
    · rintro ⟨hr, hc⟩
      rw [h3] at hr
      simp only [Reply.sw.injEq] at hr
      rw [← hr.1, ← hr.2]
      exact ⟨h1, rfl⟩
    · rintro ⟨hu, rfl⟩
      rw [hu.unique h1]
      exact ⟨h3, h2⟩

/-- C79: and a command that meets all demands succeeds, or the user is asked, or no session id can be
drawn for it. -/
theorem C79_accepted {env : Env} {nanoS : Bool} (hwf : env.WF) {key : Bytes} {tr : List Obs} {d : Device}
    (h : Runs env nanoS key tr d) (cla ins p1 p2 : UInt8) (data : Bytes) (rnd : Rnd) :
    let r := (d.step env nanoS (.apdu cla ins p1 p2 data rnd)).2
    ((∃ out, r = .sw 0x9000 out) ∨ r = .wait ∨ r = .hang ∧ (∀ i ∈ rnd.u8s, i = 0) ↔
      AllMet (allDemands env key tr d.asks cla ⟨ins, p1, p2, data, rnd⟩)) := by
  have hall := why_all hwf h cla ⟨ins, p1, p2, data, rnd⟩
  intro r
  simp only at hall
  have hr : (d.step env nanoS (.apdu cla ins p1 p2 data rnd)).2 = r := rfl
  rw [hr] at hall
  rcases hall with ⟨h1, h2⟩ | ⟨c', h1, h2, h3⟩
  · refine iff_of_true ?_ h1
    exact h2
  · refine iff_of_false ?_ h1.notMet
    rw [h3]
    simp [h2]

/-- The reply of the toy device to these bytes after these events. -/
def answerTo (es : List Event) (cla ins p1 p2 : UInt8) (data : Bytes) : Reply :=
  ((after es).step toyEnv false (.apdu cla ins p1 p2 data demoRnd)).2

/-- The dispatcher: too long, wrong class, unknown instruction, wrong parameters, busy, unknown
subcommand, no session, wrong session. -/
example : answerTo [] 0xE1 0x30 0 0 (List.replicate 256 0) = .sw 0x6A87 [] ∧
    answerTo [] 0xE1 0x30 0 0 [] = .sw 0x6E00 [] ∧ answerTo [] 0xE0 0x30 0 0 [] = .sw 0x6D00 [] ∧
    answerTo [] 0xE0 0x10 3 0 [] = .sw 0x6A86 [] ∧
    answerTo [cmd 0x10 1 0 demoPath3] 0xE0 0x21 0x30 7 [] = .sw 0xB000 [] ∧
    answerTo [] 0xE0 0x21 0x30 7 [] = .sw 0xB003 [] ∧ answerTo [] 0xE0 0x21 0x10 7 [] = .sw 0xB0FF [] ∧
    answerTo demoOpen 0xE0 0x21 0x10 8 [] = .sw 0xB002 [] ∧
    answerTo demoOpen 0xE0 0x20 0x02 7 [] = .sw 0xB0FF [] := by
  decide +kernel

/-- The start commands: too short, too long, wrong path, wrong network; too many tokens, too big a
tree. -/
example : answerTo [] 0xE0 0x10 1 0 (demoPath3.take 12) = .sw 0xE014 [] ∧
    answerTo [] 0xE0 0x10 1 0 (demoPath3 ++ [0]) = .sw 0xE015 [] ∧
    answerTo [] 0xE0 0x11 1 1 (0 :: demoPath3) = .sw 0xE012 [] ∧
    answerTo [] 0xE0 0x11 1 1 (253 :: demoPath 0) = .sw 0xE016 [] ∧
    answerTo [] 0xE0 0x21 1 1 (0 :: (demoPath 0).take 20) = .sw 0xE010 [] ∧
    answerTo [] 0xE0 0x21 1 1 (1 :: demoPath 0) = .sw 0xE019 [] ∧
    answerTo [] 0xE0 0x20 1 3 [] = .sw 0x6A86 [] ∧
    answerTo [] 0xE0 0x20 1 1 (List.replicate 50 0 ++ [21, 0, 0, 0, 0]) = .sw 0xE00A [] ∧
    answerTo [] 0xE0 0x20 1 1 (List.replicate 42 0 ++ [0, 0, 128, 1] ++ List.replicate 9 0) =
      .sw 0xE015 [] := by
  decide +kernel

/-- An attestation: tree too long, frame before the box is complete, half a token, the same token
twice, frame number too high. -/
example : answerTo (demoAttest.take 4) 0xE0 0x20 2 7 (demoTree ++ [0]) = .sw 0xE015 [] ∧
    answerTo (demoAttest.take 4) 0xE0 0x20 5 7 [0] = .sw 0xB0FF [] ∧
    answerTo (demoAttestTok.take 5) 0xE0 0x20 3 7 (List.replicate 39 6) = .sw 0xE002 [] ∧
    answerTo (demoAttestTok.take 6) 0xE0 0x20 3 7 (List.replicate 40 6) = .sw 0xE001 [] ∧
    answerTo demoAttestTok 0xE0 0x20 5 7 [1] = .sw 0xE007 [] ∧
    answerTo demoAttestTok 0xE0 0x20 5 7 [] = .sw 0xE014 [] := by
  decide +kernel

/-- What C79 says of one of them: a wrong class is reported before an unknown instruction. -/
example (key : Bytes) (tr : List Obs) (asks : Option Title) (rnd : Rnd) :
    FirstUnmet (allDemands toyEnv key tr asks 0xE1 ⟨0x30, 0, 0, [], rnd⟩) 0x6E00 :=
  .later (by simp) (.here (by decide))

end Ergo
