import Verif.Model.Bytes
/-!
# Specification of attested input frames
-/
namespace Ergo.Spec

/-- Number of frames for `n` tokens: four tokens per frame, at least one frame. -/
def framesFor (n : Nat) : Nat := if n = 0 then 1 else (n - 1) / 4 + 1

/-- Tokens of frame `i`: those with index `4i`, …, `4i+3`. -/
def frameTokens {α : Type} : Nat → List α → List α
  | _, [] => []
  | 0, l => l.take 4
  | i + 1, _ :: _ :: _ :: _ :: l => frameTokens i l
  | _ + 1, _ => []

/-- Big-endian bytes of a 64-bit amount. -/
def amountBytes (v : UInt64) : Bytes :=
  (List.range 8).map (fun k => UInt8.ofNat (v.toNat / 256 ^ (7 - k)))

/-- The authenticated bytes of a frame. -/
def frameBytes (boxId : Bytes) (value : UInt64) (tokens : List (Bytes × UInt64)) (i : Nat) : Bytes :=
  boxId ++ [UInt8.ofNat (framesFor tokens.length), UInt8.ofNat i] ++ amountBytes value ++
    [UInt8.ofNat (frameTokens i tokens).length] ++
    (frameTokens i tokens).flatMap (fun t => t.1 ++ amountBytes t.2)

end Ergo.Spec
