import Verif.Proof.Words
import Verif.Props.Pages
/-!
# C93: the status words of each command
-/
namespace Ergo
open Spec

/-- A device on which every hash is 0 and only keys for paths with 5 components can be derived. -/
def oddEnv : Env where
  blake _ := List.replicate 32 0
  hmac := toyEnv.hmac
  derive p := if p.length = 5 then toyEnv.derive p else none
  pubOf := toyEnv.pubOf
  mulG := toyEnv.mulG
  appName := []
  appVersion := []

theorem oddEnv_wf : oddEnv.WF where
  blake_len b := by simp [oddEnv]
  hmac_len k b := toyEnv_wf.hmac_len k b
  derive_len p k c h := by
    simp only [oddEnv] at h
    split at h
    · exact toyEnv_wf.derive_len p k c h
    · cases h
  pub_len k p h := toyEnv_wf.pub_len k p h
  mul_len k p h := toyEnv_wf.mul_len k p h

/-- A command and what happens before it: on the odd device or on the toy device, after these events,
with this P2 and this data, this status word. -/
structure Trial where
  word : UInt16
  before : List Event
  p2 : UInt8
  data : Bytes
  odd : Bool := false

/-- The device of a trial. -/
def Trial.env (t : Trial) : Env := if t.odd then oddEnv else toyEnv

theorem Trial.wf (t : Trial) : t.env.WF := by
  unfold Trial.env
  split
  · exact oddEnv_wf
  · exact toyEnv_wf

/-- The reply has this status word. -/
def hasWord (c : UInt16) : Reply → Bool
  | .sw c' _ => c' = c
  | _ => false

theorem hasWord_iff {c : UInt16} {r : Reply} : hasWord c r = true ↔ ∃ out, r = .sw c out := by
  cases r <;> simp [hasWord]

/-- These events lead, without `hang` and `ub`, to a state where this event is answered with this
word. -/
def leads (env : Env) (es : List Event) (e : Event) (c : UInt16) : Bool :=
  ((Device.boot [1]).run env false es).2.all (fun r => r != .hang && r != .ub) &&
    hasWord c (((Device.boot [1]).watch env false [] es).2.step env false e).2

theorem leads_occurs {env : Env} (hwf : env.WF) {es : List Event} {e : Event} {c : UInt16}
    (h : leads env es e c = true) : Occurs e c := by
  simp only [leads, Bool.and_eq_true] at h
  obtain ⟨out, ho⟩ := hasWord_iff.1 h.2
  exact ⟨env, false, [1], _, _, out, hwf, runs_boot es h.1, ho⟩

/-- The trial succeeds. -/
def Trial.ok (t : Trial) (ins p1 : UInt8) : Bool :=
  paramsOk ins p1 t.p2 && decide (t.data.length ≤ 255) &&
    leads t.env t.before (cmd ins p1 t.p2 t.data) t.word

/-- Every word of the table has a trial. -/
def covered (ins p1 : UInt8) (ts : List Trial) : Bool :=
  (wordsOf ins p1).all (fun c => ts.any (fun t => t.word = c && t.ok ins p1))

/-- Some command with this instruction, this P1 and otherwise valid header is answered with this word. -/
def Sendable (ins p1 : UInt8) (c : UInt16) : Prop :=
  ∃ p2 data rnd, ValidHeader 0xE0 ins p1 p2 data ∧ Occurs (.apdu 0xE0 ins p1 p2 data rnd) c

theorem covered_sendable {ins p1 : UInt8} {ts : List Trial}
    (hi : ins ∈ [0x01, 0x02, 0x10, 0x11, 0x20, 0x21]) (h : covered ins p1 ts = true) {c : UInt16}
    (hc : c ∈ wordsOf ins p1) : Sendable ins p1 c := by
  have := List.all_eq_true.1 h c hc
  obtain ⟨t, _, ht⟩ := List.any_eq_true.1 this
  simp only [Trial.ok, Bool.and_eq_true, decide_eq_true_eq] at ht
  obtain ⟨rfl, ⟨h1, h2⟩, h3⟩ := ht
  exact ⟨t.p2, t.data, demoRnd, ⟨rfl, hi, h1, h2⟩, leads_occurs t.wf h3⟩

/-! ## The trials -/

/-- The user is being asked. -/
def trialAsk : List Event := [cmd 0x10 1 0 demoPath3]
/-- Application 9 is known. -/
def trialApp : List Event := [cmd 0x10 2 0 (demoPath3 ++ [0, 0, 0, 9]), .left, .left, .both]
/-- A path of 6 components. -/
def trialPath6 : Bytes :=
  [6, 0x80, 0, 0, 44, 0x80, 0, 1, 0xAD, 0x80, 0, 0, 0, 0, 0, 0, 0, 0, 0, 0, 0, 0, 0, 0, 0]
/-- A long account path. -/
def trialLong3 : Bytes := [10, 0x80, 0, 0, 44, 0x80, 0, 1, 0xAD] ++ List.replicate 32 0xFF
/-- A long address path. -/
def trialLong5 : Bytes := [10, 0x80, 0, 0, 44, 0x80, 0, 1, 0xAD, 0xFF, 0xFF, 0xFF, 0xFF, 0, 0, 0, 0] ++
  (List.replicate 6 [0x7F, 0xFF, 0xFF, 0xFF]).flatten
/-- A box to be attested: `n` tokens. -/
def trialBox (n : UInt8) : Bytes :=
  List.replicate 32 1 ++ [0, 2, 0, 0, 0, 0, 0, 0, 0, 9, 0, 0, 0, 36, 0, 0, 0, 1, n, 0, 0, 0, 0]
/-- Different token ids. -/
def trialIds (i n : Nat) : Bytes := (List.range' i n).flatMap (fun i => List.replicate 32 (UInt8.ofNat i))
/-- A session with a full token table. -/
def trialFull : List Event := demoOpen ++
  [cmd 0x21 0x10 7 [0, 1, 0, 0, 20, 0, 1], cmd 0x21 0x11 7 (trialIds 0 7), cmd 0x21 0x11 7 (trialIds 7 7),
   cmd 0x21 0x11 7 (trialIds 14 6)]
/-- A session with two frames to come. -/
def trialFrames : List Event := demoTok ++ [cmd 0x21 0x12 7 (demoFrame 1 3 0 100 [] [0, 0, 0, 0])]
/-- A session with one input, and an output of this value, tree size 36, with `n` tokens and `r` bytes of
registers. -/
def trialOut (v n r : UInt8) : List Event := demoTok ++
  [cmd 0x21 0x12 7 (demoFrame 1 1 0 100 [demoEntry 8 6] [0, 0, 0, 0]),
   cmd 0x21 0x15 7 [0, 0, 0, 0, 0, 0, 0, v, 0, 0, 0, 36, 0, 0, 0, 1, n, 0, 0, 0, r]]
/-- And its tree. -/
def trialTree (v n r : UInt8) : List Event := trialOut v n r ++ [cmd 0x21 0x16 7 demoTree]
/-- A frame with a strange number of tokens. -/
def trialFrame (count : UInt8) (n : Nat) : Bytes :=
  List.replicate 32 1 ++ [1, 0, 0, 0, 0, 0, 0, 0, 0, 100, count] ++ List.replicate n 8 ++
    List.replicate 16 9 ++ [0, 0, 0, 0]

/-- Busy, no session, other session. -/
def trialSession (es : List Event) : List Trial :=
  [⟨0xB000, trialAsk, 7, [], false⟩, ⟨0xB0FF, [], 7, [], false⟩, ⟨0xB002, es, 8, [], false⟩]

theorem trials_export : covered 0x01 0 [⟨0x9000, [], 0, [], false⟩] = true ∧
    covered 0x02 0 [⟨0x9000, [], 0, [], false⟩] = true ∧
    covered 0x10 1 [⟨0xB000, trialAsk, 0, [], false⟩, ⟨0xE012, [], 0, demoPath 0, false⟩,
      ⟨0xE013, [], 0, demoPath3, true⟩, ⟨0xE014, [], 0, [], false⟩,
      ⟨0xE015, [], 0, demoPath3 ++ [0], false⟩, ⟨0xE101, [], 0, trialLong3, false⟩] = true ∧
    covered 0x10 2 [⟨0x9000, trialApp, 0, demoPath3 ++ [0, 0, 0, 9], false⟩,
      ⟨0xB000, trialAsk, 0, [], false⟩, ⟨0xE012, [], 0, demoPath 0 ++ [0, 0, 0, 9], false⟩,
      ⟨0xE013, [], 0, demoPath3 ++ [0, 0, 0, 9], true⟩, ⟨0xE014, [], 0, demoPath3, false⟩,
      ⟨0xE015, [], 0, demoPath3 ++ [0, 0, 0, 9, 0], false⟩,
      ⟨0xE101, [], 0, trialLong3 ++ [0, 0, 0, 9], false⟩] = true ∧
    covered 0x11 1 [⟨0x9000, trialApp, 2, 0 :: demoPath 0 ++ [0, 0, 0, 9], false⟩,
      ⟨0xB000, trialAsk, 1, [], false⟩, ⟨0xE012, [], 1, 0 :: demoPath3, false⟩,
      ⟨0xE013, [], 1, 0 :: trialPath6, true⟩, ⟨0xE014, [], 1, [], false⟩,
      ⟨0xE015, [], 1, 0 :: demoPath 0 ++ [0], false⟩, ⟨0xE016, [], 1, 253 :: demoPath 0, false⟩,
      ⟨0xE101, [], 1, 0 :: trialLong5, false⟩] = true ∧
    covered 0x11 2 [⟨0xB000, trialAsk, 1, [], false⟩, ⟨0xE012, [], 1, 0 :: demoPath3, false⟩,
      ⟨0xE013, [], 1, 0 :: trialPath6, true⟩, ⟨0xE014, [], 1, [], false⟩,
      ⟨0xE015, [], 1, 0 :: demoPath 0 ++ [0], false⟩, ⟨0xE016, [], 1, 253 :: demoPath 0, false⟩,
      ⟨0xE101, [], 1, 0 :: trialLong5, false⟩] = true := by
  decide +kernel

theorem trials_attest :
    covered 0x20 1 [⟨0x9000, trialApp, 2, trialBox 0 ++ [0, 0, 0, 9], false⟩, ⟨0x6A86, [], 3, [], false⟩,
      ⟨0xB000, trialAsk, 1, [], false⟩, ⟨0xE00A, [], 1, trialBox 21, false⟩, ⟨0xE014, [], 1, [], false⟩,
      ⟨0xE015, [], 1, trialBox 0 ++ [0], false⟩] = true ∧
    covered 0x20 2 ([⟨0x9000, demoAttest.take 4, 7, demoTree, false⟩,
      ⟨0xE015, demoAttest.take 4, 7, demoTree ++ [0], false⟩,
      ⟨0xE01A, demoAttest.take 4, 7, demoTree.take 35, false⟩] ++ trialSession demoAttest) = true ∧
    covered 0x20 3 ([⟨0x9000, demoAttestTok.take 5, 7, List.replicate 40 6, false⟩,
      ⟨0xE001, demoAttestTok.take 5, 7, List.replicate 31 6, false⟩,
      ⟨0xE002, demoAttestTok.take 5, 7, List.replicate 39 6, false⟩,
      ⟨0xE00A, demoAttestTok.take 5, 7, List.replicate 40 6 ++ List.replicate 40 7 ++
        List.replicate 40 8, false⟩] ++ trialSession demoAttest) = true ∧
    covered 0x20 4 ([⟨0x9000, demoAttestTok.take 7, 7, [1, 2], false⟩,
      ⟨0xE015, demoAttestTok.take 7, 7, [1, 2, 3, 4], false⟩] ++ trialSession demoAttest) = true ∧
    covered 0x20 5 ([⟨0x9000, demoAttestTok, 7, [0], false⟩, ⟨0xE007, demoAttestTok, 7, [1], false⟩,
      ⟨0xE014, demoAttestTok, 7, [], false⟩, ⟨0xE015, demoAttestTok, 7, [0, 0], false⟩] ++
        trialSession demoAttest) = true := by
  decide +kernel

theorem trials_sign_start :
    covered 0x21 0x01 [⟨0x6A86, [], 3, [], false⟩, ⟨0xB000, trialAsk, 1, [], false⟩,
      ⟨0xE010, [], 1, 0 :: (demoPath 0).take 20, false⟩, ⟨0xE012, [], 1, 0 :: demoPath3, false⟩,
      ⟨0xE013, [], 1, 0 :: trialPath6, true⟩, ⟨0xE014, [], 1, [], false⟩,
      ⟨0xE015, [], 1, 0 :: demoPath 0 ++ [0], false⟩, ⟨0xE019, [], 1, 1 :: demoPath 0, false⟩,
      ⟨0xE101, [], 1, 0 :: trialLong5, false⟩] = true ∧
    covered 0x21 0x10 ([⟨0x9000, demoOpen, 7, [0, 1, 0, 0, 0, 0, 1], false⟩,
      ⟨0xE008, demoOpen, 7, [0, 0, 0, 0, 0, 0, 1], false⟩,
      ⟨0xE009, demoOpen, 7, [0, 1, 0, 0, 0, 0, 0], false⟩,
      ⟨0xE00A, demoOpen, 7, [0, 1, 0, 0, 21, 0, 1], false⟩, ⟨0xE014, demoOpen, 7, [], false⟩,
      ⟨0xE015, demoOpen, 7, [0, 1, 0, 0, 0, 0, 1, 0], false⟩] ++ trialSession demoOpen) = true ∧
    covered 0x21 0x11 ([⟨0x9000, demoTok.dropLast, 7, List.replicate 32 8, false⟩,
      ⟨0xE001, demoTok.dropLast, 7, List.replicate 31 8, false⟩,
      ⟨0xE00A, demoTok.dropLast, 7, List.replicate 64 8, false⟩] ++ trialSession demoOpen) = true := by
  decide +kernel

theorem trials_sign_input :
    covered 0x21 0x12 ([⟨0x9000, demoTok, 7, demoFrame 1 1 0 100 [] [0, 0, 0, 0], false⟩,
      ⟨0xE001, demoTok, 7, trialFrame 7 24, false⟩, ⟨0xE002, demoTok, 7, trialFrame 20 32, false⟩,
      ⟨0xE003, demoTok, 7, demoFrame 1 1 0 100 [] [0, 0, 0, 1], false⟩,
      ⟨0xE005, trialFrames, 7, demoFrame 2 3 1 100 [] [], false⟩,
      ⟨0xE007, trialFrames, 7, demoFrame 1 3 2 100 [] [], false⟩,
      ⟨0xE00A, trialFull, 7, demoFrame 1 1 0 100 [demoEntry 99 6] [0, 0, 0, 0], false⟩,
      ⟨0xE00D, demoTok, 7, demoFrame 1 0 0 100 [] [0, 0, 0, 0], false⟩,
      ⟨0xE011, demoTok, 7, demoFrame 1 1 0 100 [List.replicate 32 8 ++ [0x80, 0, 0, 0, 0, 0, 0, 0]]
        [0, 0, 0, 0], false⟩,
      ⟨0xE014, demoTok, 7, [], false⟩, ⟨0xE018, demoTok, 7, List.replicate 42 1 ++ [0] ++
        List.replicate 16 8 ++ [0, 0, 0, 0], false⟩] ++ trialSession demoOpen) = true ∧
    covered 0x21 0x13
      ([⟨0x9000, demoTok ++ [cmd 0x21 0x12 7 (demoFrame 1 1 0 100 [] [0, 0, 0, 5])], 7, [1, 2], false⟩,
        ⟨0xE015, demoTok ++ [cmd 0x21 0x12 7 (demoFrame 1 1 0 100 [] [0, 0, 0, 5])], 7,
          [1, 2, 3, 4, 5, 6], false⟩] ++ trialSession demoOpen) = true ∧
    covered 0x21 0x14
      ([⟨0x9000, demoOpen ++ [cmd 0x21 0x10 7 [0, 1, 0, 2, 0, 0, 1],
          cmd 0x21 0x12 7 (demoFrame 1 1 0 100 [] [0, 0, 0, 0])], 7, List.replicate 32 4, false⟩,
        ⟨0xE004, demoOpen ++ [cmd 0x21 0x10 7 [0, 1, 0, 2, 0, 0, 1],
          cmd 0x21 0x12 7 (demoFrame 1 1 0 100 [] [0, 0, 0, 0])], 7, List.replicate 31 4, false⟩,
        ⟨0xE00C, demoOpen ++ [cmd 0x21 0x10 7 [0, 1, 0, 2, 0, 0, 1],
          cmd 0x21 0x12 7 (demoFrame 1 1 0 100 [] [0, 0, 0, 0])], 7, List.replicate 96 4, false⟩] ++
        trialSession demoOpen) = true := by
  decide +kernel

theorem trials_sign_output :
    covered 0x21 0x15 ([⟨0x9000, demoOpen ++ demoTx.take 2, 7,
        [0, 0, 0, 0, 0, 0, 0, 90, 0, 0, 0, 36, 0, 0, 0, 1, 0, 0, 0, 0, 0], false⟩,
      ⟨0xE00A, demoOpen ++ demoTx.take 2, 7,
        [0, 0, 0, 0, 0, 0, 0, 90, 0, 0, 0, 36, 0, 0, 0, 1, 21, 0, 0, 0, 0], false⟩,
      ⟨0xE014, demoOpen ++ demoTx.take 2, 7, [], false⟩,
      ⟨0xE015, demoOpen ++ demoTx.take 2, 7, List.replicate 22 0, false⟩] ++
      trialSession demoOpen) = true ∧
    covered 0x21 0x16 ([⟨0x9000, trialOut 90 1 0, 7, demoTree, false⟩,
      ⟨0xE015, trialOut 90 1 0, 7, demoTree ++ [0], false⟩,
      ⟨0xE01A, trialOut 90 1 0, 7, demoTree.take 35, false⟩] ++ trialSession demoOpen) = true ∧
    covered 0x21 0x17 ([⟨0x9000, trialOut 90 0 0, 7, [], false⟩, ⟨0xE011, trialOut 200 0 0, 7, [], false⟩,
      ⟨0xE015, trialOut 90 0 0, 7, [0], false⟩] ++ trialSession demoOpen) = true ∧
    covered 0x21 0x18 ([⟨0x9000, trialOut 90 1 0, 7, demoPath 0, false⟩,
      ⟨0xE010, trialOut 90 1 0, 7, [0], false⟩, ⟨0xE011, trialOut 200 1 0, 7, demoPath 0, false⟩,
      ⟨0xE012, trialOut 90 1 0, 7, demoPath3, false⟩, ⟨0xE013, trialOut 90 1 0, 7, trialPath6, true⟩] ++
      trialSession demoOpen) = true ∧
    covered 0x21 0x19 ([⟨0x9000, trialTree 90 2 0, 7, [0, 0, 0, 0, 0, 0, 0, 0, 0, 0, 0, 1], false⟩,
      ⟨0xE002, trialTree 90 2 0, 7, [0, 0, 0, 0, 0, 0, 0, 0, 0, 0, 1], false⟩,
      ⟨0xE006, trialTree 90 2 0, 7, [0, 0, 0, 1, 0, 0, 0, 0, 0, 0, 0, 1], false⟩,
      ⟨0xE00A, trialTree 90 1 0, 7, [0, 0, 0, 0, 0, 0, 0, 0, 0, 0, 0, 1] ++
        [0, 0, 0, 0, 0, 0, 0, 0, 0, 0, 0, 1], false⟩,
      ⟨0xE011, trialTree 90 2 0, 7, [0, 0, 0, 0] ++ List.replicate 8 0xFF, false⟩] ++
      trialSession demoOpen) = true ∧
    covered 0x21 0x1A ([⟨0x9000, trialTree 90 0 3, 7, [1, 2], false⟩,
      ⟨0xE015, trialTree 90 0 3, 7, [1, 2, 3, 4], false⟩] ++ trialSession demoOpen) = true ∧
    covered 0x21 0x20 (trialSession demoOpen) = true := by
  decide +kernel

/-- Unknown subcommands. -/
theorem trials_unknown (p : UInt8) : p ≠ 0 →
    leads toyEnv trialAsk (cmd 0x20 p 7 []) 0xB000 = true ∧
    leads toyEnv trialAsk (cmd 0x21 p 7 []) 0xB000 = true ∧
    (p ≠ 1 → attestCont p = false → leads toyEnv [] (cmd 0x20 p 7 []) 0xB003 = true) ∧
    (p ≠ 1 → signCont p = false → leads toyEnv [] (cmd 0x21 p 7 []) 0xB003 = true) :=
  every_byte (P := fun p => p ≠ 0 →
    leads toyEnv trialAsk (cmd 0x20 p 7 []) 0xB000 = true ∧
    leads toyEnv trialAsk (cmd 0x21 p 7 []) 0xB000 = true ∧
    (p ≠ 1 → attestCont p = false → leads toyEnv [] (cmd 0x20 p 7 []) 0xB003 = true) ∧
    (p ≠ 1 → signCont p = false → leads toyEnv [] (cmd 0x21 p 7 []) 0xB003 = true))
    (by decide +kernel) p

/-! ## C93 -/

/-- C93: a reply at once to a command with a valid header has a status word of the table; to a command
without, one of the four others. -/
theorem C93_command {env : Env} (hwf : env.WF) {nanoS : Bool} {key : Bytes} {tr : List Obs} {d : Device}
    (h : Runs env nanoS key tr d) {cla ins p1 p2 : UInt8} {data : Bytes} {rnd : Rnd} {c : UInt16}
    {out : Bytes} (hr : (d.step env nanoS (.apdu cla ins p1 p2 data rnd)).2 = .sw c out) :
    (ValidHeader cla ins p1 p2 data → c ∈ wordsOf ins p1) ∧
    (¬ ValidHeader cla ins p1 p2 data → c ∈ headerWords) := by
  rcases C80_reply hwf h (.apdu cla ins p1 p2 data rnd) with e | ⟨e, _⟩
  · rw [e] at hr
    exact ⟨fun hv => mem_words hv hr, fun hv => mem_headerWords hv hr⟩
  · rw [e] at hr; cases hr

/-- C93: a button is answered with a status word of the table. -/
theorem C93_button {env : Env} (hwf : env.WF) {nanoS : Bool} {key : Bytes} {tr : List Obs} {d : Device}
    (h : Runs env nanoS key tr d) {e : Event} (he : e = .left ∨ e = .right ∨ e = .both) {c : UInt16}
    {out : Bytes} (hr : (d.step env nanoS e).2 = .sw c out) : c ∈ buttonWords e := by
  rcases C80_reply hwf h e with g | ⟨g, _⟩
  · rw [g] at hr
    exact mem_buttonWords he hr
  · rw [g] at hr; cases hr

/-- C93: no word of the table is superfluous: for every instruction and every P1 that can be valid, every
word in its line is sent in some execution. -/
theorem C93_sent {ins p1 p2 : UInt8} (hi : ins ∈ [0x01, 0x02, 0x10, 0x11, 0x20, 0x21])
    (hp : paramsOk ins p1 p2 = true) {c : UInt16} (hc : c ∈ wordsOf ins p1) : Sendable ins p1 c := by
  obtain ⟨e1, e2, e3, e4, e5, e6⟩ := trials_export
  obtain ⟨a1, a2, a3, a4, a5⟩ := trials_attest
  obtain ⟨s1, s2, s3⟩ := trials_sign_start
  obtain ⟨i1, i2, i3⟩ := trials_sign_input
  obtain ⟨o1, o2, o3, o4, o5, o6, o7⟩ := trials_sign_output
  have hi' := hi
  simp only [List.mem_cons, List.not_mem_nil, or_false] at hi'
  rcases hi' with rfl | rfl | rfl | rfl | rfl | rfl
  · obtain ⟨rfl, rfl⟩ : p1 = 0 ∧ p2 = 0 := by simpa [paramsOk] using hp
    exact covered_sendable hi e1 hc
  · obtain ⟨rfl, rfl⟩ : p1 = 0 ∧ p2 = 0 := by simpa [paramsOk] using hp
    exact covered_sendable hi e2 hc
  · obtain ⟨rfl | rfl, rfl⟩ : (p1 = 1 ∨ p1 = 2) ∧ p2 = 0 := by simpa [paramsOk] using hp
    · exact covered_sendable hi e3 hc
    · exact covered_sendable hi e4 hc
  · obtain ⟨rfl | rfl, _⟩ : (p1 = 1 ∨ p1 = 2) ∧ (p2 = 1 ∨ p2 = 2) := by simpa [paramsOk] using hp
    · exact covered_sendable hi e5 hc
    · exact covered_sendable hi e6 hc
  · obtain ⟨hp1, _⟩ : p1 ≠ 0 ∧ p2 ≠ 0 := by simpa [paramsOk] using hp
    by_cases h1 : p1 = 1
    · subst h1; exact covered_sendable hi a1 hc
    by_cases ha : attestCont p1 = true
    · rcases attestCont_cases ha with rfl | rfl | rfl | rfl
      · exact covered_sendable hi a2 hc
      · exact covered_sendable hi a3 hc
      · exact covered_sendable hi a4 hc
      · exact covered_sendable hi a5 hc
    · have ha' : attestCont p1 = false := by simpa using ha
      rw [cont_unknown_attest ha' h1] at hc
      simp only [List.mem_cons, List.not_mem_nil, or_false] at hc
      obtain ⟨t1, _, t3, _⟩ := trials_unknown p1 hp1
      have hv : ValidHeader 0xE0 0x20 p1 7 [] := ⟨rfl, hi, by simp [paramsOk, hp1], by simp⟩
      rcases hc with rfl | rfl
      · exact ⟨7, [], demoRnd, hv, leads_occurs toyEnv_wf t1⟩
      · exact ⟨7, [], demoRnd, hv, leads_occurs toyEnv_wf (t3 h1 ha')⟩
  · obtain ⟨hp1, _⟩ : p1 ≠ 0 ∧ p2 ≠ 0 := by simpa [paramsOk] using hp
    by_cases h1 : p1 = 1
    · subst h1; exact covered_sendable hi s1 hc
    by_cases ha : signCont p1 = true
    · have hs := signCont_cases ha
      simp only [List.mem_cons, List.not_mem_nil, or_false] at hs
      rcases hs with rfl | rfl | rfl | rfl | rfl | rfl | rfl | rfl | rfl | rfl | rfl | rfl
      · exact covered_sendable hi s2 hc
      · exact covered_sendable hi s3 hc
      · exact covered_sendable hi i1 hc
      · exact covered_sendable hi i2 hc
      · exact covered_sendable hi i3 hc
      · exact covered_sendable hi o1 hc
      · exact covered_sendable hi o2 hc
      · exact covered_sendable hi o3 hc
      · exact covered_sendable hi o4 hc
      · exact covered_sendable hi o5 hc
      · exact covered_sendable hi o6 hc
      · exact covered_sendable hi o7 hc
    · have ha' : signCont p1 = false := by simpa using ha
      rw [cont_unknown_sign ha' h1] at hc
      simp only [List.mem_cons, List.not_mem_nil, or_false] at hc
      obtain ⟨_, t2, _, t4⟩ := trials_unknown p1 hp1
      have hv : ValidHeader 0xE0 0x21 p1 7 [] := ⟨rfl, hi, by simp [paramsOk, hp1], by simp⟩
      rcases hc with rfl | rfl
      · exact ⟨7, [], demoRnd, hv, leads_occurs toyEnv_wf t2⟩
      · exact ⟨7, [], demoRnd, hv, leads_occurs toyEnv_wf (t4 h1 ha')⟩

/-- C93: nor is any of the words for buttons. -/
theorem C93_pressed (e : Event) {c : UInt16} (hc : c ∈ buttonWords e) : Occurs e c := by
  have h1 : leads toyEnv (demoOpen ++ demoTx.take 3 ++ [cmd 0x21 0x18 7 trialLong5]) .right 0xE101 =
      true ∧
    leads toyEnv (demoOpen ++ demoTx.take 3 ++ [cmd 0x21 0x18 7 trialLong5, .left, .left]) .left
      0xE101 = true ∧
    leads toyEnv (demoOpen.take 1) .both 0x9000 = true ∧
    leads toyEnv (trialAsk ++ [.left]) .both 0x6985 = true ∧
    leads oddEnv (demoOpen ++ demoTx ++ demoConfirm.dropLast) .both 0xE017 = true := by
    decide +kernel
  obtain ⟨h1, h2, h3, h4, h5⟩ := h1
  cases e with
  | apdu => simp [buttonWords] at hc
  | left =>
    simp only [buttonWords, List.mem_cons, List.not_mem_nil, or_false] at hc
    subst hc
    exact leads_occurs toyEnv_wf h2
  | right =>
    simp only [buttonWords, List.mem_cons, List.not_mem_nil, or_false] at hc
    subst hc
    exact leads_occurs toyEnv_wf h1
  | both =>
    simp only [buttonWords, List.mem_cons, List.not_mem_nil, or_false] at hc
    rcases hc with rfl | rfl | rfl
    · exact leads_occurs toyEnv_wf h3
    · exact leads_occurs toyEnv_wf h4
    · exact leads_occurs oddEnv_wf h5

theorem words_sent {ins p1 : UInt8} (hi : ins ∈ [0x01, 0x02, 0x10, 0x11, 0x20, 0x21]) :
    ∀ c ∈ wordsOf ins p1, c ∈ sentWords := by
  have k := every_byte (P := fun p => ∀ ins ∈ [0x01, 0x02, 0x10, 0x11, 0x20, 0x21],
    ∀ c ∈ wordsOf ins p, c ∈ sentWords) (by decide +kernel) p1
  exact k ins hi

/-- C93: of the forty status words of src/sw.h these thirty-four are sent by some device at some time, and
the other six never. -/
theorem C93_all (c : UInt16) : (∃ e, Occurs e c) ↔ c ∈ sentWords := by
  constructor
  · rintro ⟨e, env, nanoS, key, tr, d, out, hwf, h, hr⟩
    cases e with
    | apdu cla ins p1 p2 data rnd =>
      obtain ⟨h1, h2⟩ := C93_command hwf h hr
      by_cases hv : ValidHeader cla ins p1 p2 data
      · exact words_sent hv.2.1 c (h1 hv)
      · have h3 := h2 hv
        revert h3 c
        simp only [headerWords, List.mem_cons, List.not_mem_nil, or_false]
        rintro c - - - (rfl | rfl | rfl | rfl) <;> decide
    | left =>
      have := C93_button hwf h (.inl rfl) hr
      simp only [buttonWords, List.mem_cons, List.not_mem_nil, or_false] at this
      subst this; decide
    | right =>
      have := C93_button hwf h (.inr (.inl rfl)) hr
      simp only [buttonWords, List.mem_cons, List.not_mem_nil, or_false] at this
      subst this; decide
    | both =>
      have := C93_button hwf h (.inr (.inr rfl)) hr
      simp only [buttonWords, List.mem_cons, List.not_mem_nil, or_false] at this
      rcases this with rfl | rfl | rfl <;> decide
  · intro hc
    have hw : ∀ c ∈ sentWords, c ∈ wordsOf 0x11 1 ∨ c ∈ wordsOf 0x20 2 ∨ c ∈ wordsOf 0x20 6 ∨
        c ∈ wordsOf 0x21 0x01 ∨ c ∈ wordsOf 0x21 0x10 ∨ c ∈ wordsOf 0x21 0x12 ∨ c ∈ wordsOf 0x21 0x14 ∨
        c ∈ wordsOf 0x21 0x19 ∨ c ∈ buttonWords .both ∨ c ∈ [0x6A87, 0x6E00, 0x6D00] := by
      decide +kernel
    have use : ∀ {ins p1 p2 : UInt8}, ins ∈ [0x01, 0x02, 0x10, 0x11, 0x20, 0x21] →
        paramsOk ins p1 p2 = true → c ∈ wordsOf ins p1 → ∃ e, Occurs e c := by
      intro ins p1 p2 hi hp hm
      obtain ⟨_, _, _, _, ho⟩ := C93_sent hi hp hm
      exact ⟨_, ho⟩
    rcases hw c hc with h | h | h | h | h | h | h | h | h | h
    · exact use (p2 := 1) (by decide) (by decide) h
    · exact use (p2 := 1) (by decide) (by decide) h
    · exact use (p2 := 1) (by decide) (by decide) h
    · exact use (p2 := 1) (by decide) (by decide) h
    · exact use (p2 := 1) (by decide) (by decide) h
    · exact use (p2 := 1) (by decide) (by decide) h
    · exact use (p2 := 1) (by decide) (by decide) h
    · exact use (p2 := 1) (by decide) (by decide) h
    · exact ⟨_, C93_pressed .both h⟩
    · simp only [List.mem_cons, List.not_mem_nil, or_false] at h
      have k : leads toyEnv [] (.apdu 0xE0 0 0 0 (List.replicate 256 0) demoRnd) 0x6A87 = true ∧
          leads toyEnv [] (.apdu 0xE1 0 0 0 [] demoRnd) 0x6E00 = true ∧
          leads toyEnv [] (.apdu 0xE0 0 0 0 [] demoRnd) 0x6D00 = true := by
        decide +kernel
      rcases h with rfl | rfl | rfl
      · exact ⟨_, leads_occurs toyEnv_wf k.1⟩
      · exact ⟨_, leads_occurs toyEnv_wf k.2.1⟩
      · exact ⟨_, leads_occurs toyEnv_wf k.2.2⟩

/-- C93: the six that are never sent. -/
theorem C93_never {c : UInt16} (hc : c ∈ unsentWords) (e : Event) : ¬ Occurs e c := by
  intro h
  have h1 := (C93_all c).1 ⟨e, h⟩
  have : ∀ c ∈ unsentWords, c ∉ sentWords := by decide
  exact this c hc h1

example : (sentWords ++ unsentWords).Nodup ∧ (sentWords ++ unsentWords).length = 40 := by decide

/-- Two lines of the table: asking for an address to be shown is never granted at once, and the start of
signing never is. -/
example : wordsOf 0x11 2 = [0xB000, 0xE012, 0xE013, 0xE014, 0xE015, 0xE016, 0xE101] ∧
    0x9000 ∉ wordsOf 0x21 0x01 := by decide

/-- A command whose header is valid although the subcommand does not exist. -/
example : ValidHeader 0xE0 0x21 0x30 7 [] ∧ wordsOf 0x21 0x30 = [0xB000, 0xB003] := by
  refine ⟨⟨rfl, by decide, by decide, by decide⟩, by decide⟩

/-- A frame can be refused for half a token only because the length under the tag is a one-byte number:
20 tokens announced, 32 bytes under the tag. -/
example : leads toyEnv demoTok (cmd 0x21 0x12 7 (trialFrame 20 32)) 0xE002 = true ∧
    frameLen (trialFrame 20 32) = 43 + 32 := by decide +kernel

end Ergo
