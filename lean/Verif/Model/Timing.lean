import Verif.Model.Run
/-!
# The time of the comparison of tags

`memcmp` of the C library is not in the repository.  Here it compares byte by byte and stops at the first difference, as
the implementations for small processors do; how many bytes it looks at is taken to be seen from the time of the reply.
-/
namespace Ergo

/-- How many bytes `memcmp` looks at. -/
def memcmpReads : Bytes → Bytes → Nat
  | a :: as, b :: bs => if a = b then 1 + memcmpReads as bs else 1
  | _, _ => 0

/-- How many bytes of the tag are looked at when an event is handled: `memcmp` in `handle_input_frame`,
stx_handler.c:138, if it is reached (apdu_dispatcher.c:50-54, stx_handler.c:277-340, 123-130). -/
def Device.reads (env : Env) (d : Device) : Event → Nat
  | .apdu cla ins p1 p2 data _ =>
    if data.length > 255 ∨ cla ≠ 0xE0 ∨ ins ≠ 0x21 ∨ p1 ≠ 0x12 ∨ p2 = 0 ∨ d.busy ∨ d.command ≠ .signTransaction then 0
    else
      match d.ctx with
      | .sign x =>
        if p2 ≠ x.session ∨ ¬ x.approved then 0
        else
          let len := (frameDataLen data).toNat
          if len = 0 then 0
          else memcmpReads ((env.hmac d.sessionKey (data.take len)).take 16) ((data.drop len).take 16)
      | _ => 0
  | _ => 0

/-- Executions with what is seen of the time. -/
inductive TimedRuns (env : Env) (nanoS : Bool) (key : Bytes) : List (Obs × Nat) → Device → Prop
  | boot : TimedRuns env nanoS key [] (.boot key)
  | step {tr : List (Obs × Nat)} {d : Device} (e : Event) (h : TimedRuns env nanoS key tr d)
      (hh : (d.step env nanoS e).2 ≠ .hang) (hu : (d.step env nanoS e).2 ≠ .ub) :
      TimedRuns env nanoS key ((d.observe env nanoS e, d.reads env e) :: tr) (d.step env nanoS e).1

end Ergo
