import Verif.Model.Bytes
/-!
# The hash function: reference implementation of BLAKE2b

`unit-tests/utils/blake2b-ref.c`, which stands for the one of BOLOS in the unit tests of the app.  Without
key.
-/
namespace Ergo.Blake2b

/-- `blake2b_IV`, blake2b-ref.c:23-30. -/
def iv : List UInt64 :=
  [0x6a09e667f3bcc908, 0xbb67ae8584caa73b, 0x3c6ef372fe94f82b, 0xa54ff53a5f1d36f1,
   0x510e527fade682d1, 0x9b05688c2b3e6c1f, 0x1f83d9abfb41bd6b, 0x5be0cd19137e2179]

/-- `blake2b_sigma`, blake2b-ref.c:32-44. -/
def sigma : List (List Nat) :=
  [[0, 1, 2, 3, 4, 5, 6, 7, 8, 9, 10, 11, 12, 13, 14, 15],
   [14, 10, 4, 8, 9, 15, 13, 6, 1, 12, 0, 2, 11, 7, 5, 3],
   [11, 8, 12, 0, 5, 2, 15, 13, 10, 14, 3, 6, 7, 1, 9, 4],
   [7, 9, 3, 1, 13, 12, 11, 14, 2, 6, 5, 10, 4, 0, 15, 8],
   [9, 0, 5, 7, 2, 4, 10, 15, 14, 1, 11, 12, 6, 8, 3, 13],
   [2, 12, 6, 10, 0, 11, 8, 3, 4, 13, 7, 5, 15, 14, 1, 9],
   [12, 5, 1, 15, 14, 13, 4, 10, 0, 7, 6, 3, 9, 2, 8, 11],
   [13, 11, 7, 14, 12, 1, 3, 9, 5, 0, 15, 4, 8, 6, 2, 10],
   [6, 15, 14, 9, 11, 3, 0, 8, 12, 2, 13, 7, 1, 4, 10, 5],
   [10, 2, 8, 4, 7, 6, 1, 5, 15, 11, 9, 14, 3, 12, 13, 0],
   [0, 1, 2, 3, 4, 5, 6, 7, 8, 9, 10, 11, 12, 13, 14, 15],
   [14, 10, 4, 8, 9, 15, 13, 6, 1, 12, 0, 2, 11, 7, 5, 3]]

/-- `rotr64`, blake2-impl.h:148-151. -/
def rotr (w : UInt64) (c : UInt64) : UInt64 := (w >>> c) ||| (w <<< (64 - c))

/-- `load64` (little endian), blake2-impl.h:48-65. -/
def load64 : Bytes → UInt64
  | [] => 0
  | b :: bs => b.toUInt64 ||| (load64 bs <<< 8)

/-- `store64`, blake2-impl.h:104-119. -/
def store64 (w : UInt64) : Bytes :=
  (List.range 8).map fun i => (w >>> (8 * UInt64.ofNat i)).toUInt8

/-- `G`, blake2b-ref.c:139-149, on the working vector `v`. -/
def mix (m : List UInt64) (r i a b c d : Nat) (v : List UInt64) : List UInt64 :=
  let s := sigma.getD r []
  let va := v.getD a 0 + v.getD b 0 + m.getD (s.getD (2 * i) 0) 0
  let vd := rotr (v.getD d 0 ^^^ va) 32
  let vc := v.getD c 0 + vd
  let vb := rotr (v.getD b 0 ^^^ vc) 24
  let va := va + vb + m.getD (s.getD (2 * i + 1) 0) 0
  let vd := rotr (vd ^^^ va) 16
  let vc := vc + vd
  let vb := rotr (vb ^^^ vc) 63
  (((v.set a va).set b vb).set c vc).set d vd

/-- `ROUND`, blake2b-ref.c:151-161. -/
def round (m : List UInt64) (r : Nat) (v : List UInt64) : List UInt64 :=
  mix m r 7 3 4 9 14 (mix m r 6 2 7 8 13 (mix m r 5 1 6 11 12 (mix m r 4 0 5 10 15
    (mix m r 3 3 7 11 15 (mix m r 2 2 6 10 14 (mix m r 1 1 5 9 13 (mix m r 0 0 4 8 12 v)))))))

/-- `blake2b_state`, blake2b-ref.h:40-49: chaining value, counter, finalization flags, buffer (its first
`buflen` bytes), length of the result.  `last_node` is always 0. -/
structure St where
  h : List UInt64
  t0 : UInt64
  t1 : UInt64
  f0 : UInt64
  f1 : UInt64
  buf : Bytes
  outlen : Nat
deriving DecidableEq

/-- `blake2b_increment_counter`, blake2b-ref.c:61-64. -/
def St.count (s : St) (inc : UInt64) : St :=
  let t0 := s.t0 + inc
  { s with t0 := t0, t1 := s.t1 + (if t0 < inc then 1 else 0) }

/-- `blake2b_compress`, blake2b-ref.c:163-201. -/
def St.compress (s : St) (block : Bytes) : St :=
  let m := (List.range 16).map fun i => load64 ((block.drop (8 * i)).take 8)
  let v := s.h ++ iv.take 4 ++ [iv.getD 4 0 ^^^ s.t0, iv.getD 5 0 ^^^ s.t1, iv.getD 6 0 ^^^ s.f0,
    iv.getD 7 0 ^^^ s.f1]
  let v := (List.range 12).foldl (fun v r => round m r v) v
  { s with h := (List.range 8).map fun i => s.h.getD i 0 ^^^ v.getD i 0 ^^^ v.getD (i + 8) 0 }

/-- `blake2b_ref_init`, blake2b-ref.c:87-105: only the first word of the parameter block is not zero
(digest length, key length 0, fanout 1, depth 1). -/
def St.init (outlen : Nat) : Option St :=
  if outlen = 0 ∨ 64 < outlen then none
  else
    let p := load64 [UInt8.ofNat outlen, 0, 1, 1, 0, 0, 0, 0]
    some ⟨(iv.headD 0 ^^^ p) :: iv.tail, 0, 0, 0, 0, [], outlen⟩

/-- The loop in `blake2b_ref_update`, blake2b-ref.c:218-223: whole blocks, never the last byte; `n`
bounds the number of turns. -/
def St.blocks : Nat → St → Bytes → St × Bytes
  | 0, s, d => (s, d)
  | n + 1, s, d =>
    if 128 < d.length then St.blocks n ((s.count 128).compress (d.take 128)) (d.drop 128) else (s, d)

/-- `blake2b_ref_update`, blake2b-ref.c:206-229. -/
def St.update (s : St) (d : Bytes) : St :=
  if d = [] then s
  else
    let fill := 128 - s.buf.length
    if fill < d.length then
      let s1 := ({ s with buf := [] }.count 128).compress (s.buf ++ d.take fill)
      let (s2, rest) := St.blocks d.length s1 (d.drop fill)
      { s2 with buf := s2.buf ++ rest }
    else { s with buf := s.buf ++ d }

/-- The state that `blake2b_ref_final` leaves, blake2b-ref.c:239-242: counter, flag of the last block
(`blake2b_set_lastblock`, blake2b-ref.c:55-59), padding, compression. -/
def St.close (s : St) : St :=
  let s := s.count (UInt64.ofNat s.buf.length)
  ({ s with f0 := 0xFFFFFFFFFFFFFFFF }).compress (s.buf ++ List.replicate (128 - s.buf.length) 0)

/-- `blake2b_ref_final`, blake2b-ref.c:231-250; `room` is the size of the output array. -/
def St.final (s : St) (room : Nat) : Option Bytes :=
  if room < s.outlen then none
  else if s.f0 ≠ 0 then none
  else some ((s.close.h.flatMap store64).take s.close.outlen)

/-- `blake2b_ref` without key, blake2b-ref.c:253-281. -/
def hash (outlen : Nat) (d : Bytes) : Option Bytes :=
  match St.init outlen with
  | none => none
  | some s => (s.update d).final outlen

/-- `b2b_context`, unit-tests/utils/cx.c:8-12: the bytes seen so far (`hashed_data`, up to its offset)
and the state. -/
structure HashCtx where
  data : Bytes
  st : St
deriving DecidableEq

/-- `cx_blake2b_init_no_throw`, cx.c:35-48, as called by `blake2b_256_init`, helpers/blake2b.c:3-5. -/
def HashCtx.init : Option HashCtx := (St.init 32).map fun s => ⟨[], s⟩

/-- `blake2_hash` without `CX_LAST`, cx.c:14-33, as called by `blake2b_update`, helpers/blake2b.c:7-9. -/
def HashCtx.update (c : HashCtx) (d : Bytes) : Option HashCtx :=
  if 65535 - c.data.length < d.length then none else some ⟨c.data ++ d, c.st.update d⟩

/-- The calls of `blake2b_update` one after the other. -/
def HashCtx.updates : HashCtx → List Bytes → Option HashCtx
  | c, [] => some c
  | c, d :: ds => (c.update d).bind fun c => c.updates ds

/-- `blake2_hash` with `CX_LAST | CX_NO_REINIT`, cx.c:14-33, as called by `blake2b_256_finalize`,
helpers/blake2b.c:11-18: the context it leaves and the result. -/
def HashCtx.final (c : HashCtx) : HashCtx × Option Bytes :=
  let c := { c with st := c.st.update [] }
  match c.st.final 32 with
  | none => (c, none)
  | some r => ({ c with st := c.st.close }, some r)

end Ergo.Blake2b
