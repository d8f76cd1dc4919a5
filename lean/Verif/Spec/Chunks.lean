import Verif.Spec.Trace
/-!
# The same data, sent in other pieces
-/
namespace Ergo.Spec

/-- Commands of a signing session whose data may be sent in pieces: token table, context extension,
data inputs, script, tokens and registers of an output. -/
def inPieces (sub : UInt8) : Bool := [0x11, 0x13, 0x14, 0x16, 0x19, 0x1A].contains sub

/-- Add a step to a session (newest first), joining it with the previous one if both carry pieces of
the same part. -/
def put : List Entry → Entry → List Entry
  | .cmd s a :: l, .cmd t b =>
    if s = t ∧ inPieces t then .cmd t (a ++ b) :: l else .cmd t b :: .cmd s a :: l
  | l, e => e :: l

/-- A signing session with all pieces joined, newest first. -/
def joined (log : List Entry) : List Entry := log.foldl put []

/-- Commands of an attestation whose data may be sent in pieces: script, tokens, registers. -/
def attestPieces (sub : UInt8) : Bool := [0x02, 0x03, 0x04].contains sub

/-- Add a command to an attestation session (newest first), joining pieces. -/
def attestPut : List (UInt8 × Bytes) → UInt8 × Bytes → List (UInt8 × Bytes)
  | (s, a) :: l, (t, b) =>
    if s = t ∧ attestPieces t then (t, a ++ b) :: l else (t, b) :: (s, a) :: l
  | [], e => [e]

/-- An attestation session with all pieces joined, newest first. -/
def attestJoined (log : List (UInt8 × Bytes)) : List (UInt8 × Bytes) := log.foldl attestPut []

end Ergo.Spec
