import Verif.Proof.CostsTight
import Verif.Props.CallFaults
/-!
# C88: the work done for one event
-/
namespace Ergo
open Spec

/-- C88: for whatever device, event and failing calls, an event makes at most 902 calls to the
operating system's hash, curve and key functions; any command other than the start of a signing
session makes at most 515, and a button at most five. -/
theorem C88_event (env : Env) (ok : Nat → Bool) (nanoS : Bool) (d : Device) (e : Event) (n : Nat) :
    (d.stepF env ok nanoS e n).2 ≤ n +
      match e with
      | .apdu _ ins p1 _ _ _ => if ins = 0x21 ∧ p1 = 0x01 then 902 else 515
      | .left => 1
      | .right => 1
      | .both => 5 := by
  refine Costs.le ?_ n
  cases e with
  | apdu cla ins p1 p2 data rnd =>
    unfold Device.stepF
    dsimp only
    split
    · exact .ret _ _
    · exact costs_dispatch _ _ _ _ _ _ _ (by omega)
  | left =>
    unfold Device.stepF
    dsimp only
    split
    · exact .ret _ _
    · exact costs_move ..
  | right =>
    unfold Device.stepF
    dsimp only
    split
    · exact .ret _ _
    · exact costs_move ..
  | both =>
    unfold Device.stepF
    dsimp only
    split
    · exact .ret _ _
    · exact costs_both ..

/-- C88: in every device that can be reached, with calls failing at any moments, no event but the start
of a signing session makes more than 42 calls. -/
theorem C88_reached {env : Env} {nanoS : Bool} {key : Bytes} {tr : List Obs} {d : Device}
    (h : CallRuns env nanoS key tr d) (ok : Nat → Bool) (e : Event)
    (he : ∀ cla p2 data rnd, e ≠ .apdu cla 0x21 0x01 p2 data rnd) :
    (d.stepF env ok nanoS e 0).2 ≤ 42 := by
  obtain ⟨_, tr2, _, _, h3⟩ := C86_mirror h
  have hI := h3.inv
  cases e with
  | apdu cla ins p1 p2 data rnd =>
    unfold Device.stepF
    dsimp only
    split
    · exact Nat.zero_le _
    · refine Nat.le_trans ((tight_dispatch ?_ _ _ _ _ _ _ ?_ (by omega)).le 0) (by omega)
      · intro hb hc x hx ha
        have hid := hI.idle (idle_of hI hb)
        unfold Idle at hid
        rw [hc] at hid
        obtain ⟨y, S, hy, hS, _⟩ := hid
        obtain ⟨_, _, _, _, _, _, _, _, _, hP, _⟩ := sign_rel h3 hx ha hS
        exact hP.small
      · rintro ⟨rfl, rfl⟩
        exact he _ _ _ _ rfl
  | left => exact Nat.le_trans (C88_event env ok nanoS d .left 0) (by dsimp only; omega)
  | right => exact Nat.le_trans (C88_event env ok nanoS d .right 0) (by dsimp only; omega)
  | both => exact Nat.le_trans (C88_event env ok nanoS d .both 0) (by dsimp only; omega)

/-- The number of calls made by an execution of the given events and working calls. -/
def callCount (env : Env) (nanoS : Bool) : Device → List (Event × (Nat → Bool)) → Nat
  | _, [] => 0
  | d, (e, ok) :: es =>
    (d.stepF env ok nanoS e 0).2 + callCount env nanoS (d.stepF env ok nanoS e 0).1.1 es

/-- C88: the work of a session grows at most linearly with the number of its events. -/
theorem C88_session (env : Env) (nanoS : Bool) : ∀ (es : List (Event × (Nat → Bool))) (d : Device),
    callCount env nanoS d es ≤ 902 * es.length
  | [], _ => Nat.le_refl _
  | (e, ok) :: es, d => by
    have h := C88_session env nanoS es (d.stepF env ok nanoS e 0).1.1
    have h' : (d.stepF env ok nanoS e 0).2 ≤ 902 := by
      refine Nat.le_trans (C88_event env ok nanoS d e 0) ?_
      cases e <;> dsimp only
      · split <;> omega
      all_goals omega
    simp only [callCount, List.length_cons]
    omega

/-- C88: the bound is reached, if in each of the hundred tries the last call fails. -/
theorem C88_sharp : ∃ (env : Env) (ok : Nat → Bool) (e : Event), env.WF ∧
    ((Device.boot [1]).stepF env ok false e 0).2 = 902 :=
  ⟨toyEnv, fun n => decide (n < 2 ∨ n % 9 ≠ 1), cmd 0x21 0x01 1 (0 :: demoPath 0), toyEnv_wf, by decide +kernel⟩

/-- A session with twenty kinds of tokens, up to the script of its output. -/
def manyTokens : List Event := demoOpen ++
  [cmd 0x21 0x10 7 [0, 1, 0, 0, 20, 0, 1],
   cmd 0x21 0x11 7 ((List.range 7).flatMap fun i => List.replicate 32 (UInt8.ofNat (i + 1))),
   cmd 0x21 0x11 7 ((List.range 7).flatMap fun i => List.replicate 32 (UInt8.ofNat (i + 8))),
   cmd 0x21 0x11 7 ((List.range 6).flatMap fun i => List.replicate 32 (UInt8.ofNat (i + 15))),
   cmd 0x21 0x12 7 (demoFrame 1 1 0 100 [] [0, 0, 0, 0]),
   cmd 0x21 0x15 7 [0, 0, 0, 0, 0, 0, 0, 90, 0, 0, 0, 5, 0, 0, 0, 1, 20, 0, 0, 0, 0],
   cmd 0x21 0x16 7 [1, 2, 3, 4, 5]]

/-- C88: the bound 42 is reached, by twenty tokens in one command, with all calls working. -/
theorem C88_reached_sharp : ∃ tr d, CallRuns toyEnv false [1] tr d ∧
    (d.stepF toyEnv (fun _ => true) false (cmd 0x21 0x19 7
      ((List.range 20).flatMap fun i => [0, 0, 0, UInt8.ofNat i, 0, 0, 0, 0, 0, 0, 0, 1])) 0).2 = 42 :=
  ⟨_, _, callRuns_watch (env := toyEnv) (nanoS := false) (key := [1]) (manyTokens.map (·, none)) [] _
    .boot (by decide +kernel), by decide +kernel⟩

end Ergo
