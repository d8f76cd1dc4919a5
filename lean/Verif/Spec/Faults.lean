import Verif.Spec.Consent
/-!
# Executions in which the operating system may fail at any moment

Key derivation and curve operations may fail in one event and work in the next (`step`, with the
services of that moment).  Any event may also end with an error of another service (hashing, drawing),
which the handlers answer with a status word after wiping their context (`fault`), except that the
handler of the address command, da_handler.c:64-66, does not end the command when the checksum of the
address fails (`address`); this is after the checks of the request and before the formatting of the
path and the address for the screen (0xE101, 0xE102).
-/
namespace Ergo.Spec

/-- The services `env'` of one moment: as `env`, except that key derivations and key generations may
fail, each on its own, and that the curve multiplication may fail. -/
structure Failing (env' env : Env) : Prop where
  blake : env'.blake = env.blake
  hmac : env'.hmac = env.hmac
  appName : env'.appName = env.appName
  appVersion : env'.appVersion = env.appVersion
  derive : ∀ p, env'.derive p = none ∨ env'.derive p = env.derive p
  pubOf : ∀ k, env'.pubOf k = none ∨ env'.pubOf k = env.pubOf k
  mulG : (∀ k, env'.mulG k = none) ∨ env'.mulG = env.mulG

/-- The main menu, without a session: all that is left is the application token of the last approval
and the session key of this power-on. -/
def blank (d : Device) : Device := ⟨d.connectedApp, d.sessionKey, .none, false, .zeroed, none⟩

/-- Executions with failures. -/
inductive Faulty (env : Env) (nanoS : Bool) (key : Bytes) : List Obs → Device → Prop
  | boot : Faulty env nanoS key [] (.boot key)
  | step {tr : List Obs} {d : Device} (env' : Env) (hf : Failing env' env) (e : Event)
      (h : Faulty env nanoS key tr d) (hh : (d.step env' nanoS e).2 ≠ .hang)
      (hu : (d.step env' nanoS e).2 ≠ .ub) :
      Faulty env nanoS key (d.observe env' nanoS e :: tr) (d.step env' nanoS e).1
  | fault {tr : List Obs} {d : Device} (e : Event) (code : UInt16) (h : Faulty env nanoS key tr d)
      (h1 : code ≠ 0x9000) (h2 : harmless code = false) :
      Faulty env nanoS key (⟨d.asks, d.here, e, .sw code []⟩ :: tr) (blank d)
  | address {tr : List Obs} {d : Device} (p1 p2 : UInt8) (data : Bytes) (rnd : Rnd)
      (h : Faulty env nanoS key tr d)
      (hr : (d.step env nanoS (.apdu 0xE0 0x11 p1 p2 data rnd)).2 = .wait ∨
        (∃ out, (d.step env nanoS (.apdu 0xE0 0x11 p1 p2 data rnd)).2 = .sw 0x9000 out) ∨
        ∃ code, (code = 0xE101 ∨ code = 0xE102) ∧
          (d.step env nanoS (.apdu 0xE0 0x11 p1 p2 data rnd)).2 = .sw code []) :
      Faulty env nanoS key (⟨d.asks, d.here, .apdu 0xE0 0x11 p1 p2 data rnd, .sw 0xE016 []⟩ :: tr)
        { d with command := .deriveAddress, ctx := .zeroed }

/-- The second trace is the first one with some failures replaced: each by another failure, which
only presses of the left or right button may precede. -/
inductive Mirrors : List Obs → List Obs → Prop
  | nil : Mirrors [] []
  | same {tr tr' : List Obs} (o : Obs) (h : Mirrors tr tr') : Mirrors (o :: tr) (o :: tr')
  | fault {tr tr' : List Obs} (o o' : Obs) (os : List Obs) (h : Mirrors tr tr') (h1 : Fails o)
      (h2 : Fails o') (h3 : ∀ x ∈ os, (x.event = .left ∨ x.event = .right) ∧ x.reply = .wait) :
      Mirrors (o :: tr) (o' :: (os ++ tr'))

end Ergo.Spec
