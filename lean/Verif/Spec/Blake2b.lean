import Verif.Model.Bytes
import Mathlib.Data.Nat.Sqrt
/-!
# Specification of C71: BLAKE2b after RFC 7693
-/
namespace Ergo.Spec

/-- The blocks of a message: 128 bytes each, the last one 1 to 128 bytes (0 for the empty message). -/
def blakeBlocks (d : Bytes) : List Bytes :=
  (List.range (max 1 ((d.length + 127) / 128))).map fun i => (d.drop (128 * i)).take 128

/-- Bytes of a block, padded with zeros, as 16 numbers, low byte first. -/
def blakeWords (b : Bytes) : List UInt64 :=
  (List.range 16).map fun i =>
    UInt64.ofNat (((List.range 8).map fun j => (b.getD (8 * i + j) 0).toNat * 256 ^ j).sum)

/-- Section 2.6: the first 64 bits of the fractional parts of the square roots of the first primes. -/
def blakeIV : List UInt64 :=
  [2, 3, 5, 7, 11, 13, 17, 19].map fun p => UInt64.ofNat (Nat.sqrt (p * 2 ^ 128))

/-- Section 2.7: the message schedule. -/
def blakeSigma : List (List Nat) :=
  [[0, 1, 2, 3, 4, 5, 6, 7, 8, 9, 10, 11, 12, 13, 14, 15],
   [14, 10, 4, 8, 9, 15, 13, 6, 1, 12, 0, 2, 11, 7, 5, 3],
   [11, 8, 12, 0, 5, 2, 15, 13, 10, 14, 3, 6, 7, 1, 9, 4],
   [7, 9, 3, 1, 13, 12, 11, 14, 2, 6, 5, 10, 4, 0, 15, 8],
   [9, 0, 5, 7, 2, 4, 10, 15, 14, 1, 11, 12, 6, 8, 3, 13],
   [2, 12, 6, 10, 0, 11, 8, 3, 4, 13, 7, 5, 15, 14, 1, 9],
   [12, 5, 1, 15, 14, 13, 4, 10, 0, 7, 6, 3, 9, 2, 8, 11],
   [13, 11, 7, 14, 12, 1, 3, 9, 5, 0, 15, 4, 8, 6, 2, 10],
   [6, 15, 14, 9, 11, 3, 0, 8, 12, 2, 13, 7, 1, 4, 10, 5],
   [10, 2, 8, 4, 7, 6, 1, 5, 15, 11, 9, 14, 3, 12, 13, 0]]

/-- Rotation to the right. -/
def blakeRor (w : UInt64) (n : Nat) : UInt64 := ⟨w.toBitVec.rotateRight n⟩

/-- Section 3.1, mixing function `G`: the assignments in their order. -/
def blakeG (v : List UInt64) (a b c d : Nat) (x y : UInt64) : List UInt64 :=
  let v := v.set a (v.getD a 0 + v.getD b 0 + x)
  let v := v.set d (blakeRor (v.getD d 0 ^^^ v.getD a 0) 32)
  let v := v.set c (v.getD c 0 + v.getD d 0)
  let v := v.set b (blakeRor (v.getD b 0 ^^^ v.getD c 0) 24)
  let v := v.set a (v.getD a 0 + v.getD b 0 + y)
  let v := v.set d (blakeRor (v.getD d 0 ^^^ v.getD a 0) 16)
  let v := v.set c (v.getD c 0 + v.getD d 0)
  v.set b (blakeRor (v.getD b 0 ^^^ v.getD c 0) 63)

/-- The columns, then the diagonals of a square of 4 times 4 words. -/
def blakeLines : List (Nat × Nat × Nat × Nat) :=
  (List.range 4).map (fun i => (i, 4 + i, 8 + i, 12 + i)) ++
    (List.range 4).map (fun i => (i, 4 + (i + 1) % 4, 8 + (i + 2) % 4, 12 + (i + 3) % 4))

/-- One round: line `k` takes the words `2 k` and `2 k + 1` of the schedule. -/
def blakeRound (m : List UInt64) (s : List Nat) (v : List UInt64) : List UInt64 :=
  blakeLines.zipIdx.foldl (fun v l => blakeG v l.1.1 l.1.2.1 l.1.2.2.1 l.1.2.2.2
    (m.getD (s.getD (2 * l.2) 0) 0) (m.getD (s.getD (2 * l.2 + 1) 0) 0)) v

/-- Section 3.2, compression function `F(h, m, t, f)`: `t` is the number of bytes up to and including this
block. -/
def blakeF (h m : List UInt64) (t : Nat) (last : Bool) : List UInt64 :=
  let v := h ++ blakeIV
  let v := v.set 12 (v.getD 12 0 ^^^ UInt64.ofNat t)
  let v := v.set 13 (v.getD 13 0 ^^^ UInt64.ofNat (t / 2 ^ 64))
  let v := if last then v.set 14 (v.getD 14 0 ^^^ 0xFFFFFFFFFFFFFFFF) else v
  let v := (List.range 12).foldl (fun v i => blakeRound m (blakeSigma.getD (i % 10) []) v) v
  (List.range 8).map fun i => h.getD i 0 ^^^ v.getD i 0 ^^^ v.getD (i + 8) 0

/-- The iteration: block `i` has `128 (i + 1)` bytes up to its end, the last one the length of the
message. -/
def blakeIter (len : Nat) : Nat → List Bytes → List UInt64 → List UInt64
  | _, [], h => h
  | _, [b], h => blakeF h (blakeWords b) len true
  | i, b :: bs, h => blakeIter len (i + 1) bs (blakeF h (blakeWords b) (128 * (i + 1)) false)

/-- BLAKE2b of a message, without key, with `n` bytes of result. -/
def blake2b (n : Nat) (d : Bytes) : Bytes :=
  let h0 := (blakeIV.headD 0 ^^^ UInt64.ofNat (0x01010000 + n)) :: blakeIV.tail
  let h := blakeIter d.length 0 (blakeBlocks d) h0
  (h.flatMap fun w => (List.range 8).map fun j => UInt8.ofNat (w.toNat / 256 ^ j)).take n

end Ergo.Spec
