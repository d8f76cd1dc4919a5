import Verif.Spec.CallFaults
import Verif.Spec.Mac
/-!
# Executions in which the authentication function may fail too

The result of `cx_hmac_sha256` is not tested (stx_handler.c:131-136, ainpt_response.c:49-54).  A failed
call leaves in its array what was there before: any 32 bytes.
-/
namespace Ergo.Spec

/-- The functions at one event: with a failing authentication function if `g` is what it leaves. -/
def garbled (env : Env) : Option Bytes → Env
  | none => env
  | some g => { env with hmac := fun _ _ => g }

/-- The observation of one event. -/
def observeMac (env : Env) (nanoS : Bool) (g : Option Bytes) (ok : Nat → Bool) (d : Device) (e : Event) :
    Obs := ⟨d.asks, d.here, e, (d.stepF (garbled env g) ok nanoS e 0).1.2⟩

/-- Executions in which, at every event, some calls fail and the authentication function may fail. -/
inductive MacRuns (env : Env) (nanoS : Bool) (key : Bytes) : List Obs → Device → Prop
  | boot : MacRuns env nanoS key [] (.boot key)
  | step {tr : List Obs} {d : Device} (g : Option Bytes) (hg : ∀ b, g = some b → b.length = 32)
      (ok : Nat → Bool) (e : Event) (h : MacRuns env nanoS key tr d)
      (hh : (d.stepF (garbled env g) ok nanoS e 0).1.2 ≠ .hang)
      (hu : (d.stepF (garbled env g) ok nanoS e 0).1.2 ≠ .ub) :
      MacRuns env nanoS key (observeMac env nanoS g ok d e :: tr)
        (d.stepF (garbled env g) ok nanoS e 0).1.1

/-- The same frame command with another tag: 16 bytes, behind a body of the length that the device
computes from the count of tokens. -/
def Retagged (e e' : Event) : Prop :=
  ∃ cla p2 body tag tag' rest rnd, tag.length = 16 ∧ tag'.length = 16 ∧
    body.length = 43 + 40 * field body 42 1 % 256 ∧
    e = .apdu cla 0x21 0x12 p2 (body ++ tag ++ rest) rnd ∧
    e' = .apdu cla 0x21 0x12 p2 (body ++ tag' ++ rest) rnd

/-- The same observation up to draws and tags: the tag of a presented frame, the tag of a released
frame, and which error word answers a frame command. -/
def AlikeUpToTag (o o' : Obs) : Prop :=
  o'.asked = o.asked ∧ o'.here = o.here ∧
    (o'.reply = o.reply ∧ (SameUpToDraw o.event o'.event ∨ Retagged o.event o'.event) ∨
      o'.event = o.event ∧ (∃ cla p2 data rnd, o.event = .apdu cla 0x21 0x12 p2 data rnd) ∧
        Fails o ∧ Fails o' ∨
      o'.event = o.event ∧ (∃ cla p2 data rnd, o.event = .apdu cla 0x20 0x05 p2 data rnd) ∧
        ∃ body tag tag', tag.length = 16 ∧ tag'.length = 16 ∧ o.reply = .sw 0x9000 (body ++ tag) ∧
          o'.reply = .sw 0x9000 (body ++ tag'))

end Ergo.Spec
