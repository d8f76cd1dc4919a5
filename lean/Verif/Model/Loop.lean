import Verif.Model.Run
/-!
# The main loop, with messages as bytes

`Model/Device` takes a command apart in CLA, INS, P1, P2 and data and gives back a status word with data.
Here the loop around it is written out: `app_main` (app_main.c:36-80) with `io_init`, `io_recv_command`,
`io_send_response_buffer`, `io_send_sw` and `apdu_parser` of the standard library of the SDK, which keep
the state of the exchange in `G_io_state` and `G_output_len`.

These functions are not in /repo; they follow the published SDK (lib_standard_app, io.c and parser.c)
and doc/APDU.md.  Not modelled: the framing of the messages by the transport (USB, Bluetooth).
-/
namespace Ergo

/-- `G_io_state` (SDK, io.c). -/
inductive IoState where
  | ready | received | waiting
  deriving DecidableEq, Repr

/-- `G_io_state`, `G_io_apdu_buffer` (its beginning) and `G_output_len`. -/
structure Io where
  state : IoState
  buffer : Bytes
  outLen : Nat
  deriving DecidableEq, Repr

/-- `IO_APDU_BUFFER_SIZE` (SDK; used in ainpt_response.c:31). -/
def apduBufferSize : Nat := 260

/-- `SW_WRONG_RESPONSE_LENGTH`, sw.h:34. -/
def Sw.wrongResponseLength : UInt16 := 0xB001

/-- `io_init` (SDK, io.c): nothing to send. -/
def Io.init : Io := ⟨.ready, [], 0⟩

/-- `io_send_response_buffer` without the check of the length (SDK, io.c): the data and the status word,
high byte first, are put into the buffer.  In state `RECEIVED` they are left for the next
`io_recv_command`; in state `WAITING` (a callback of a button, inside of `io_exchange`) they are sent; in
state `READY` nothing is sent and the result is -1.  Gives the new state, what is sent and whether
the result is 0. -/
def Io.put (io : Io) (data : Bytes) (code : UInt16) : Io × List Bytes × Bool :=
  let bytes := data ++ [(code >>> 8).toUInt8, code.toUInt8]
  match io.state with
  | .ready => (⟨.ready, bytes, bytes.length⟩, [], false)
  | .received => (⟨.ready, bytes, bytes.length⟩, [], true)
  | .waiting => (⟨.ready, bytes, 0⟩, [bytes], true)

/-- `io_send_response_buffer` (SDK, io.c): data that leaves no room for the status word is replaced by
`SW_WRONG_RESPONSE_LENGTH`. -/
def Io.send (io : Io) (data : Bytes) (code : UInt16) : Io × List Bytes × Bool :=
  if data.length > apduBufferSize - 2 then io.put [] Sw.wrongResponseLength else io.put data code

/-- `io_recv_command` up to the point where `io_exchange` waits for a message (SDK, io.c): in state
`READY` the prepared response is sent, if there is one; in state `RECEIVED` (no response yet) the
exchange is told that the response comes later (`IO_ASYNCH_REPLY`) and sends nothing; in state `WAITING`
the result is -1 (`none`). -/
def Io.recv (io : Io) : Option (Io × List Bytes) :=
  match io.state with
  | .ready => some ({ io with state := .waiting }, if io.outLen = 0 then [] else [io.buffer.take io.outLen])
  | .received => some ({ io with state := .waiting }, [])
  | .waiting => none

/-- A command as given to the dispatcher, `command_t` (SDK, parser.h). -/
structure Apdu where
  cla : UInt8
  ins : UInt8
  p1 : UInt8
  p2 : UInt8
  data : Bytes
  deriving DecidableEq, Repr

/-- `apdu_parser` (SDK, parser.c; doc/APDU.md): at least 5 bytes, and byte 4 is the number of the
bytes after it. -/
def parseApdu (buf : Bytes) : Option Apdu :=
  if buf.length < 5 then none
  else if buf.length - 5 ≠ (buf[4]?.getD 0).toNat then none
  else some ⟨buf[0]?.getD 0, buf[1]?.getD 0, buf[2]?.getD 0, buf[3]?.getD 0, buf.drop 5⟩

/-- What comes from outside while the loop waits: a message of the host (with the random numbers that are
drawn during its execution), or a button. -/
inductive Input where
  | message (bytes : Bytes) (rnd : Rnd)
  | left
  | right
  | both

/-- The application while it waits in `io_exchange`. -/
structure Loop where
  dev : Device
  io : Io

/-- What comes of an input: the loop waits again, having sent some responses; `app_main` has returned;
it hangs; undefined behaviour. -/
inductive Turn where
  | on (l : Loop) (sent : List Bytes)
  | ended
  | hang
  | ub

/-- Back to app_main.c:53. -/
def Loop.again (d : Device) (io : Io) : Turn :=
  match io.recv with
  | none => .ended
  | some (io, sent) => .on ⟨d, io⟩ sent

/-- A button: `io_exchange` calls the callbacks of the user interface, whose `io_send…` results are not
looked at (epk_ui.c:28,32, da_ui.c:39-46, ainpt_ui.c:25-28, stx_ui.c:77-80,234-237,357,
stx_op_p2pk.c:391-411, ui_dynamic_flow.c:42), and goes on waiting. -/
def Loop.press (l : Loop) (r : Device × Reply) : Turn :=
  match r.2 with
  | .wait => .on ⟨r.1, l.io⟩ []
  | .sw code data => .on ⟨r.1, (l.io.send data code).1⟩ (l.io.send data code).2.1
  | .hang => .hang
  | .ub => .ub

/-- A message: `io_exchange` returns, the state becomes `RECEIVED` (SDK, io.c); app_main.c:59-79.  A
message that is no command is answered by `SW_WRONG_APDU_DATA_LENGTH`; the loop is left if the dispatcher
gives a negative result, which is the result of `io_send…`, or 0 if there is a question on display
(epk_ui.c:86, da_ui.c:118, ainpt_ui.c:50, stx_handler.c:55,88,274). -/
def Loop.message (env : Env) (nanoS : Bool) (l : Loop) (bytes : Bytes) (rnd : Rnd) : Turn :=
  let io : Io := { l.io with state := .received, buffer := bytes }
  match parseApdu bytes with
  | none => Loop.again l.dev (io.send [] Sw.wrongDataLength).1
  | some c =>
    let r := l.dev.step env nanoS (.apdu c.cla c.ins c.p1 c.p2 c.data rnd)
    match r.2 with
    | .wait => Loop.again r.1 io
    | .sw code data =>
      if (io.send data code).2.2 then Loop.again r.1 (io.send data code).1 else .ended
    | .hang => .hang
    | .ub => .ub

/-- One input. -/
def Loop.step (env : Env) (nanoS : Bool) (l : Loop) : Input → Turn
  | .message bytes rnd => l.message env nanoS bytes rnd
  | .left => l.press (l.dev.step env nanoS .left)
  | .right => l.press (l.dev.step env nanoS .right)
  | .both => l.press (l.dev.step env nanoS .both)

/-- Several inputs: the loop at the end, if it is still running, and what was sent. -/
def Loop.run (env : Env) (nanoS : Bool) : Loop → List Input → Option Loop × List Bytes
  | l, [] => (some l, [])
  | l, i :: is =>
    match l.step env nanoS i with
    | .on l' sent => ((Loop.run env nanoS l' is).1, sent ++ (Loop.run env nanoS l' is).2)
    | _ => (none, [])

/-- What is seen from outside: the input and the responses sent before the next one. -/
structure LoopObs where
  input : Input
  sent : List Bytes

/-- Executions of the loop from its start (app_main.c:42-53), newest observation first. -/
inductive LoopRuns (env : Env) (nanoS : Bool) (key : Bytes) : List LoopObs → Loop → Prop
  | boot {l : Loop} (hb : Loop.again (.boot key) .init = .on l []) : LoopRuns env nanoS key [] l
  | step {tr : List LoopObs} {l l' : Loop} {sent : List Bytes} (i : Input)
      (h : LoopRuns env nanoS key tr l) (hs : l.step env nanoS i = .on l' sent) :
      LoopRuns env nanoS key (⟨i, sent⟩ :: tr) l'

end Ergo
