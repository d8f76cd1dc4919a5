import Verif.Spec.Trace
import Verif.Spec.Commands
/-!
# The status words of each command

The documentation refers to src/sw.h for the status words and does not say which command answers with
which of them.  This is the missing table.
-/
namespace Ergo.Spec

/-- Words with which a command of an open session, with nothing on the screen, may be refused before its
data is looked at: the user is being asked something else, wrong state, wrong session id. -/
def sessionWords : List UInt16 := [0xB000, 0xB0FF, 0xB002]

/-- Status words that are sent at once for a command with this instruction and P1, if its header is
valid. -/
def wordsOf (ins p1 : UInt8) : List UInt16 :=
  if ins = 0x01 ∨ ins = 0x02 then [0x9000]
  else if ins = 0x10 then
    (if p1 = 2 then [0x9000] else []) ++ [0xB000, 0xE012, 0xE013, 0xE014, 0xE015, 0xE101]
  else if ins = 0x11 then
    (if p1 = 1 then [0x9000] else []) ++ [0xB000, 0xE012, 0xE013, 0xE014, 0xE015, 0xE016, 0xE101]
  else if ins = 0x20 then
    if p1 = 1 then [0x9000, 0x6A86, 0xB000, 0xE00A, 0xE014, 0xE015]
    else if p1 = 2 then [0x9000, 0xE015, 0xE01A] ++ sessionWords
    else if p1 = 3 then [0x9000, 0xE001, 0xE002, 0xE00A] ++ sessionWords
    else if p1 = 4 then [0x9000, 0xE015] ++ sessionWords
    else if p1 = 5 then [0x9000, 0xE007, 0xE014, 0xE015] ++ sessionWords
    else [0xB000, 0xB003]
  else
    if p1 = 0x01 then [0x6A86, 0xB000, 0xE010, 0xE012, 0xE013, 0xE014, 0xE015, 0xE019, 0xE101]
    else if p1 = 0x10 then [0x9000, 0xE008, 0xE009, 0xE00A, 0xE014, 0xE015] ++ sessionWords
    else if p1 = 0x11 then [0x9000, 0xE001, 0xE00A] ++ sessionWords
    else if p1 = 0x12 then
      [0x9000, 0xE001, 0xE002, 0xE003, 0xE005, 0xE007, 0xE00A, 0xE00D, 0xE011, 0xE014, 0xE018] ++
        sessionWords
    else if p1 = 0x13 then [0x9000, 0xE015] ++ sessionWords
    else if p1 = 0x14 then [0x9000, 0xE004, 0xE00C] ++ sessionWords
    else if p1 = 0x15 then [0x9000, 0xE00A, 0xE014, 0xE015] ++ sessionWords
    else if p1 = 0x16 then [0x9000, 0xE015, 0xE01A] ++ sessionWords
    else if p1 = 0x17 then [0x9000, 0xE011, 0xE015] ++ sessionWords
    else if p1 = 0x18 then [0x9000, 0xE010, 0xE011, 0xE012, 0xE013] ++ sessionWords
    else if p1 = 0x19 then [0x9000, 0xE002, 0xE006, 0xE00A, 0xE011] ++ sessionWords
    else if p1 = 0x1A then [0x9000, 0xE015] ++ sessionWords
    else if p1 = 0x20 then sessionWords
    else [0xB000, 0xB003]

/-- Status words for commands without a valid header: length, class, instruction, parameters. -/
def headerWords : List UInt16 := [0x6A87, 0x6E00, 0x6D00, 0x6A86]

/-- Status words that are sent when a button is pressed: with one button, path that cannot be shown; with
both, approved, rejected, challenge 0. -/
def buttonWords : Event → List UInt16
  | .left => [0xE101]
  | .right => [0xE101]
  | .both => [0x9000, 0x6985, 0xE017]
  | _ => []

/-- Class, instruction, P1, P2 and length are as documented. -/
def ValidHeader (cla ins p1 p2 : UInt8) (data : Bytes) : Prop :=
  cla = 0xE0 ∧ ins ∈ [0x01, 0x02, 0x10, 0x11, 0x20, 0x21] ∧ paramsOk ins p1 p2 = true ∧
    data.length ≤ 255

/-- The words of src/sw.h that are sent. -/
def sentWords : List UInt16 :=
  [0x9000, 0x6985, 0x6A86, 0x6A87, 0x6D00, 0x6E00, 0xB000, 0xB002, 0xB003, 0xB0FF, 0xE001, 0xE002,
    0xE003, 0xE004, 0xE005, 0xE006, 0xE007, 0xE008, 0xE009, 0xE00A, 0xE00C, 0xE00D, 0xE010, 0xE011,
    0xE012, 0xE013, 0xE014, 0xE015, 0xE016, 0xE017, 0xE018, 0xE019, 0xE01A, 0xE101]

/-- The words of src/sw.h that are never sent: wrong response length, too many screens, too many inputs,
too many outputs, failing hash function, address that cannot be shown. -/
def unsentWords : List UInt16 := [0xB001, 0xB004, 0xE00B, 0xE00E, 0xE00F, 0xE102]

/-- Somewhere, at some time, this event is answered with this status word. -/
def Occurs (e : Event) (c : UInt16) : Prop :=
  ∃ env nanoS key tr d out, env.WF ∧ Runs env nanoS key tr d ∧ (d.step env nanoS e).2 = .sw c out

end Ergo.Spec
