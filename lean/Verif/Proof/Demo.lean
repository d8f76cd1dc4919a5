import Verif.Spec.Commands
import Verif.Proof.Toy
/-!
# Concrete executions, used in examples and counterexamples
-/
namespace Ergo
open Spec

/-- Observations (newest first) and final device of a list of events. -/
def Device.watch (env : Env) (nanoS : Bool) : List Obs → Device → List Event → List Obs × Device
  | tr, d, [] => (tr, d)
  | tr, d, e :: es => Device.watch env nanoS (d.observe env nanoS e :: tr) (d.step env nanoS e).1 es

/-- A list of events without `hang` and `ub` is an execution. -/
theorem runs_watch {env : Env} {nanoS : Bool} {key : Bytes} : ∀ (es : List Event) (tr : List Obs)
    (d : Device), Runs env nanoS key tr d →
    (d.run env nanoS es).2.all (fun r => r != .hang && r != .ub) = true →
    Runs env nanoS key (d.watch env nanoS tr es).1 (d.watch env nanoS tr es).2
  | [], _, _, h, _ => h
  | e :: es, tr, d, h, hr => by
    simp only [Device.run, List.all_cons, Bool.and_eq_true, bne_iff_ne, ne_eq] at hr
    exact runs_watch es _ _ (.step e h hr.1.1 hr.1.2) hr.2

/-- Execution from power-on. -/
theorem runs_boot {env : Env} {nanoS : Bool} {key : Bytes} (es : List Event)
    (h : ((Device.boot key).run env nanoS es).2.all (fun r => r != .hang && r != .ub) = true) :
    Runs env nanoS key ((Device.boot key).watch env nanoS [] es).1
      ((Device.boot key).watch env nanoS [] es).2 :=
  runs_watch es [] _ .boot h

/-- Random values: session id 7, ephemeral key 3. -/
def demoRnd : Rnd := ⟨[0, 7], fun _ => List.replicate 31 0 ++ [3]⟩

/-- A command with these random values. -/
def cmd (ins p1 p2 : UInt8) (data : Bytes) : Event := .apdu 0xE0 ins p1 p2 data demoRnd

/-- The path m/44'/429'/0'/0/i. -/
def demoPath (i : UInt8) : Bytes :=
  [5, 0x80, 0, 0, 44, 0x80, 0, 1, 0xAD, 0x80, 0, 0, 0, 0, 0, 0, 0, 0, 0, 0, i]

/-- The path m/44'/429'/0'. -/
def demoPath3 : Bytes := [3, 0x80, 0, 0, 44, 0x80, 0, 1, 0xAD, 0x80, 0, 0, 0]

/-- An input frame as the toy device tags it: `boxId` 32 times `b`, `n` frames, index `i`, value `v`,
token entries `toks`, extension size (frame 0 only) `ext`. -/
def demoFrame (b n i v : UInt8) (toks : List Bytes) (ext : Bytes) : Bytes :=
  List.replicate 32 b ++ [n, i, 0, 0, 0, 0, 0, 0, 0, v, UInt8.ofNat toks.length] ++ toks.flatten ++
    List.replicate 16 9 ++ ext

/-- A P2PK tree. -/
def demoTree : Bytes := [0x00, 0x08, 0xcd, 0x02] ++ List.replicate 32 5

/-- Start of a session and its approval. -/
def demoOpen : List Event := [cmd 0x21 0x01 1 (0 :: demoPath 0), .both]

/-- One input of value 100, one output of value 90 to `demoTree`, one fee output of value 10. -/
def demoTx : List Event :=
  [cmd 0x21 0x10 7 [0, 1, 0, 0, 0, 0, 2], cmd 0x21 0x12 7 (demoFrame 1 1 0 100 [] [0, 0, 0, 0]),
   cmd 0x21 0x15 7 [0, 0, 0, 0, 0, 0, 0, 90, 0, 0, 0, 36, 0, 0, 0, 1, 0, 0, 0, 0, 0],
   cmd 0x21 0x16 7 demoTree, .left, .left, .both,
   cmd 0x21 0x15 7 [0, 0, 0, 0, 0, 0, 0, 10, 0, 0, 0, 105, 0, 0, 0, 1, 0, 0, 0, 0, 0],
   cmd 0x21 0x17 7 []]

/-- Confirmation: to Approve, then both buttons. -/
def demoConfirm : List Event := [cmd 0x21 0x20 7 [], .left, .left, .both]

/-- Attestation of a box with value 9, `demoTree`, no tokens, no registers, application token 5;
approval; the frame. -/
def demoAttest : List Event :=
  [cmd 0x20 0x01 2 (List.replicate 32 1 ++ [0, 2, 0, 0, 0, 0, 0, 0, 0, 9, 0, 0, 0, 36, 0, 0, 0, 1, 0,
    0, 0, 0, 0, 0, 0, 0, 5]), .left, .left, .both, cmd 0x20 0x02 7 demoTree, cmd 0x20 0x05 7 [0]]

/-- The toy device after these events. -/
def after (es : List Event) : Device := ((Device.boot [1]).watch toyEnv false [] es).2
/-- The observations of these events. -/
def seen (es : List Event) : List Obs := ((Device.boot [1]).watch toyEnv false [] es).1

/-- The whole signing session runs and ends with a signature. -/
theorem demo_sign : Runs toyEnv false [1]
    ((Device.boot [1]).watch toyEnv false [] (demoOpen ++ demoTx ++ demoConfirm)).1
    ((Device.boot [1]).watch toyEnv false [] (demoOpen ++ demoTx ++ demoConfirm)).2 :=
  runs_boot _ (by decide +kernel)

example : ((Device.boot [1]).run toyEnv false (demoOpen ++ demoTx ++ demoConfirm)).2.map
      (fun r => match r with | .sw c d => (c, d.length) | _ => (0, 0)) =
    [(0, 0), (0x9000, 1), (0x9000, 0), (0x9000, 0), (0x9000, 0), (0, 0), (0, 0), (0, 0), (0x9000, 0),
     (0x9000, 0), (0x9000, 0), (0, 0), (0, 0), (0, 0), (0x9000, 56)] := by decide +kernel

example : ((Device.boot [1]).run toyEnv false demoAttest).2.map
      (fun r => match r with | .sw c d => (c, d.length) | _ => (0, 0)) =
    [(0, 0), (0, 0), (0, 0), (0x9000, 1), (0x9000, 1), (0x9000, 59)] := by decide +kernel

end Ergo
