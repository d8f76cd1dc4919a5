import Verif.Proof.WhyDev
import Verif.Proof.Demo
/-!
# C78: a refused signing command says why
-/
namespace Ergo
open Spec

/-- C78: in an open signing session, when the user is not being asked anything, the status word of a
refused command is the one that belongs to the first unmet demand, and to no other. -/
theorem C78_refused {env : Env} {nanoS : Bool} {key : Bytes} {tr : List Obs} {d : Device}
    (h : Runs env nanoS key tr d) {S : SignSess} (hS : (know tr).sign = some S) (hL : Live tr)
    (ha : d.asks = none) (sub : UInt8) (data : Bytes) (hl : data.length ≤ 255)
    (hsub : 0x10 ≤ sub ∧ sub ≤ 0x1A ∨ sub = 0x20) (rnd : Rnd) (c : UInt16) :
    (d.step env nanoS (.apdu 0xE0 0x21 sub S.id data rnd)).2 = .sw c [] ∧ c ≠ 0x9000 ↔
      FirstUnmet (signDemands env key (describe S.log) sub data) c := by
  rcases sign_why h hS hL ha hl hsub rnd rfl with ⟨h1, h2⟩ | ⟨c', h1, h2, h3⟩
  · constructor
    · rintro ⟨hr, hc⟩
      rcases h2 with h2 | h2
      · rw [hr] at h2
        simp only [Reply.sw.injEq, and_true] at h2
        exact absurd h2 hc
      · rw [hr] at h2; cases h2
    · exact fun hu => absurd h1 hu.notMet
  · constructor
    · rintro ⟨hr, hc⟩
      rw [h3] at hr
      simp only [Reply.sw.injEq, and_true] at hr
      rw [← hr]; exact h1
    · intro hu
      rw [hu.unique h1]
      exact ⟨h3, h2⟩

/-- C78: and it is accepted if and only if all demands are met. -/
theorem C78_accepted {env : Env} {nanoS : Bool} {key : Bytes} {tr : List Obs} {d : Device}
    (h : Runs env nanoS key tr d) {S : SignSess} (hS : (know tr).sign = some S) (hL : Live tr)
    (ha : d.asks = none) (sub : UInt8) (data : Bytes) (hl : data.length ≤ 255)
    (hsub : 0x10 ≤ sub ∧ sub ≤ 0x1A ∨ sub = 0x20) (rnd : Rnd) :
    let r := (d.step env nanoS (.apdu 0xE0 0x21 sub S.id data rnd)).2
    r = .sw 0x9000 [] ∨ r = .wait ↔ AllMet (signDemands env key (describe S.log) sub data) := by
  intro r
  rcases sign_why h hS hL ha hl hsub rnd (r := r) rfl with ⟨h1, h2⟩ | ⟨c', h1, h2, h3⟩
  · exact iff_of_true h2 h1
  · refine iff_of_false ?_ h1.notMet
    rw [h3]
    simp [h2]

/-- A session with one token: the numbers, the token table. -/
def demoTok : List Event := demoOpen ++
  [cmd 0x21 0x10 7 [0, 1, 0, 0, 1, 0, 1], cmd 0x21 0x11 7 (List.replicate 32 8)]

/-- A token entry of an input: amount `n` of the token of bytes `b`. -/
def demoEntry (b n : UInt8) : Bytes := List.replicate 32 b ++ [0, 0, 0, 0, 0, 0, 0, n]

/-- And its input, of value 100 with 6 of the token, in one frame; an output of value 90 with one
token entry; its tree. -/
def demoTokOut : List Event := demoTok ++
  [cmd 0x21 0x12 7 (demoFrame 1 1 0 100 [demoEntry 8 6] [0, 0, 0, 0]),
   cmd 0x21 0x15 7 [0, 0, 0, 0, 0, 0, 0, 90, 0, 0, 0, 36, 0, 0, 0, 1, 1, 0, 0, 0, 0]]

/-- The reply of the toy device to a command of session 7 after these events. -/
def replyTo (es : List Event) (sub : UInt8) (data : Bytes) : Reply :=
  ((after es).step toyEnv false (cmd 0x21 sub 7 data)).2

/-- The hypotheses of C78 hold after the token table and after the output. -/
example : Live (seen demoTok) ∧ (after demoTok).asks = none ∧
    (know (seen demoTok)).sign.map (·.id) = some 7 ∧
    Live (seen demoTokOut) ∧ (after demoTokOut).asks = none ∧
    (know (seen demoTokOut)).sign.map (·.id) = some 7 := by
  have hL : ∀ es, (∀ o ∈ (seen es), ¬ ∃ cla p2 data rnd out, o.event = .apdu cla 0x20 0x01 p2 data rnd ∧
      p2 ≠ 0 ∧ o.reply = .sw 0x6A86 out) → Live (seen es) := by
    intro es
    generalize seen es = tr
    intro h
    induction tr with
    | nil => trivial
    | cons o tr ih =>
      exact .inr ⟨ih (fun o ho => h o (List.mem_cons_of_mem _ ho)), h o List.mem_cons_self⟩
  have hN : ∀ es, (seen es).all (fun o => match o.event with
      | .apdu _ i _ _ _ _ => i != 0x20
      | _ => true) = true → Live (seen es) := by
    intro es h
    refine hL es ?_
    rintro o ho ⟨cla, p2, data, rnd, out, he, _⟩
    have := List.all_eq_true.1 h o ho
    rw [he] at this
    simp at this
  refine ⟨hN _ (by decide +kernel), by decide +kernel, by decide +kernel, hN _ (by decide +kernel),
    by decide +kernel, by decide +kernel⟩

/-- Refusals of the numbers and of the token table: too short, too long, no inputs, no outputs, too
many tokens; one id too many, half an id; repeated numbers. -/
example : replyTo demoOpen 0x10 [0, 1, 0, 0, 0, 0] = .sw 0xE014 [] ∧
    replyTo demoOpen 0x10 [0, 1, 0, 0, 0, 0, 1, 0] = .sw 0xE015 [] ∧
    replyTo demoOpen 0x10 [0, 0, 0, 0, 0, 0, 1] = .sw 0xE008 [] ∧
    replyTo demoOpen 0x10 [0, 1, 0, 0, 0, 0, 0] = .sw 0xE009 [] ∧
    replyTo demoOpen 0x10 [0, 1, 0, 0, 21, 0, 1] = .sw 0xE00A [] ∧
    replyTo (demoOpen ++ [cmd 0x21 0x10 7 [0, 1, 0, 0, 1, 0, 1]]) 0x11 (List.replicate 64 8) =
      .sw 0xE00A [] ∧
    replyTo (demoOpen ++ [cmd 0x21 0x10 7 [0, 1, 0, 0, 1, 0, 1]]) 0x11 (List.replicate 31 8) =
      .sw 0xE001 [] ∧
    replyTo demoTok 0x10 [0, 1, 0, 0, 1, 0, 1] = .sw 0xB0FF [] := by
  decide +kernel

/-- Refusals of a frame: too short, wrong tag, extension of one byte, no frames announced, wrong
state; and the one that fits. -/
example : replyTo demoTok 0x12 (List.replicate 58 9) = .sw 0xE014 [] ∧
    replyTo demoTok 0x12 (List.replicate 42 1 ++ [0] ++ List.replicate 16 8 ++ [0, 0, 0, 0]) =
      .sw 0xE018 [] ∧
    replyTo demoTok 0x12 (demoFrame 1 1 0 100 [] [0, 0, 0, 1]) = .sw 0xE003 [] ∧
    replyTo demoTok 0x12 (demoFrame 1 0 0 100 [] [0, 0, 0, 0]) = .sw 0xE00D [] ∧
    replyTo demoTok 0x12 (demoFrame 1 2 1 100 [] []) = .sw 0xB0FF [] ∧
    replyTo demoTok 0x12 (demoFrame 1 1 0 100 [demoEntry 8 6] [0, 0, 0, 0]) = .sw 0x9000 [] := by
  decide +kernel

/-- Refusals of the second frame of an input: other box, more frames than announced, wrong number. -/
example :
    let es := demoTok ++ [cmd 0x21 0x12 7 (demoFrame 1 3 0 100 [] [0, 0, 0, 0])]
    replyTo es 0x12 (demoFrame 2 3 1 100 [] []) = .sw 0xE005 [] ∧
    replyTo es 0x12 (demoFrame 1 3 3 100 [] []) = .sw 0xE00D [] ∧
    replyTo es 0x12 (demoFrame 1 3 2 100 [] []) = .sw 0xE007 [] ∧
    replyTo es 0x12 (demoFrame 1 3 1 100 [] []) = .sw 0x9000 [] := by
  decide +kernel

/-- Refusals of the parts of an output: tree too long, incomplete tree in a short chunk, bad path,
fee with data, tokens before the tree; then token index outside the table, half an amount, the same
token twice, more entries than announced. -/
example : replyTo demoTokOut 0x16 (demoTree ++ [0]) = .sw 0xE015 [] ∧
    replyTo demoTokOut 0x16 (demoTree.take 35) = .sw 0xE01A [] ∧
    replyTo demoTokOut 0x18 demoPath3 = .sw 0xE012 [] ∧
    replyTo demoTokOut 0x18 [0] = .sw 0xE010 [] ∧
    replyTo demoTokOut 0x17 [0] = .sw 0xE015 [] ∧
    replyTo demoTokOut 0x19 [0, 0, 0, 0, 0, 0, 0, 0, 0, 0, 0, 1] = .sw 0xB0FF [] ∧
    replyTo (demoTokOut ++ [cmd 0x21 0x16 7 demoTree]) 0x19 [0, 0, 0, 1, 0, 0, 0, 0, 0, 0, 0, 1] =
      .sw 0xE006 [] ∧
    replyTo (demoTokOut ++ [cmd 0x21 0x16 7 demoTree]) 0x19 [0, 0, 0, 0, 0, 0, 0, 0, 0, 0, 1] =
      .sw 0xE002 [] ∧
    replyTo (demoTokOut ++ [cmd 0x21 0x16 7 demoTree]) 0x19
      ([0, 0, 0, 0, 0, 0, 0, 0, 0, 0, 0, 1] ++ [0, 0, 0, 0, 0, 0, 0, 0, 0, 0, 0, 1]) = .sw 0xE00A [] ∧
    replyTo demoTokOut 0x20 [] = .sw 0xB0FF [] := by
  decide +kernel

/-- What C78 says of one of them: the box id is demanded before the number. -/
example (key : Bytes) (D : TxDesc) (i : InDesc) (is : List InDesc) (hD : D.inputs = i :: is)
    (hg : i.got < i.frames) (data : Bytes) (h1 : 59 ≤ data.length)
    (h2 : frameLen data % 256 + 16 ≤ data.length) (h3 : TagAt toyEnv key (frameLen data % 256) data)
    (h4 : leastLen 0x21 0x12 data ≤ data.length) (h5 : field data 33 1 ≠ 0)
    (h6 : data.take 32 ≠ i.boxId) : FirstUnmet (signDemands toyEnv key D 0x12 data) 0xE005 := by
  show FirstUnmet (frameDemands toyEnv key D data) 0xE005
  unfold frameDemands
  simp only [List.cons_append, List.nil_append]
  refine .later h1 (.later h2 (.later h3 (.later h4 ?_)))
  rw [if_neg h5, hD]
  exact .later ⟨i, rfl, hg⟩ (.here (fun h => h6 (h i rfl)))

end Ergo
