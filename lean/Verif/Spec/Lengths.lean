import Verif.Spec.Tx
/-!
# Data lengths of the commands, from doc/INS-*.md
-/
namespace Ergo.Spec

/-- Length of a path with its number of components: 1 byte, then 4 bytes per component. -/
def pathLen (d : Bytes) : Nat := 1 + 4 * field d 0 1

/-- The exact number of data bytes of a command with fixed fields (the number of path components is
read from the data): extended public key, address, attest start, attest frame request, sign start,
transaction start, output start, fee script.  `none`: other commands. -/
def wantedLen (ins p1 p2 : UInt8) (d : Bytes) : Option Nat :=
  if ins = 0x10 then some (pathLen d + if p1 = 2 then 4 else 0)
  else if ins = 0x11 then some (1 + pathLen (d.drop 1) + if p2 = 2 then 4 else 0)
  else if ins = 0x20 ∧ p1 = 0x01 then some (55 + if p2 = 2 then 4 else 0)
  else if ins = 0x20 ∧ p1 = 0x05 then some 1
  else if ins = 0x21 ∧ p1 = 0x01 then some (1 + pathLen (d.drop 1) + if p2 = 2 then 4 else 0)
  else if ins = 0x21 ∧ p1 = 0x10 then some 7
  else if ins = 0x21 ∧ p1 = 0x15 then some 21
  else if ins = 0x21 ∧ p1 = 0x17 then some 0
  else none

/-- Size of the entries of a command that carries a list of entries: token ids, data inputs, tokens
by index, tokens by id. -/
def entryLen (ins p1 : UInt8) : Option Nat :=
  if ins = 0x21 ∧ (p1 = 0x11 ∨ p1 = 0x14) then some 32
  else if ins = 0x21 ∧ p1 = 0x19 then some 12
  else if ins = 0x20 ∧ p1 = 0x03 then some 40
  else none

/-- The least number of data bytes of a command that ignores what follows its fields: input frame
(43 bytes, the tokens, 16 bytes of tag, 4 more in frame 0), change script. -/
def leastLen (ins p1 : UInt8) (d : Bytes) : Nat :=
  if ins = 0x21 ∧ p1 = 0x12 then
    59 + 40 * field d 42 1 % 256 + if field d 33 1 = 0 then 4 else 0
  else if ins = 0x21 ∧ p1 = 0x18 then pathLen d
  else 0

/-- The data length is one the documentation allows, up to trailing bytes of the commands with
`leastLen`. -/
def lengthOk (ins p1 p2 : UInt8) (d : Bytes) : Prop :=
  (∀ n, wantedLen ins p1 p2 d = some n → d.length = n) ∧
  (∀ n, entryLen ins p1 = some n → d.length % n = 0) ∧
  leastLen ins p1 d ≤ d.length

/-- The number of path components in the data of the commands that start an operation. -/
def pathCount (ins : UInt8) (data : Bytes) : Nat := if ins = 0x10 then field data 0 1 else field data 1 1

/-- The commands that ignore trailing bytes: version, name, confirmation; and, when their fields are
there, change script and input frame. -/
def ignoresRest (ins p1 : UInt8) (data : Bytes) : Prop :=
  ins = 0x01 ∨ ins = 0x02 ∨ ins = 0x21 ∧ p1 = 0x20 ∨
  ins = 0x21 ∧ (p1 = 0x12 ∨ p1 = 0x18) ∧ data ≠ [] ∧ leastLen ins p1 data ≤ data.length

end Ergo.Spec
