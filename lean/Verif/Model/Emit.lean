import Verif.Model.RwBuffer
import Verif.Model.Gve
import Verif.Model.Address
/-!
# The functions that fill buffers, with the sizes of the arrays

`Model/Box`, `Full`, `Table`, `Address`, `InputFrame` have the bytes that these functions produce.
Here are the same functions with the array at an address in memory: a write that does not fit is refused
by `rw_buffer_*` and the function fails (`none`).  `blake2b_update` and the like read the bytes between
`rw_buffer_read_ptr` and `rw_buffer_write_ptr`.
-/
namespace Ergo

/-- A buffer under construction. -/
abbrev Out := RwBuffer × Mem

/-- A call of `rw_buffer_…` whose failure ends the function. -/
def Out.op (s : Out) (o : RwOp) : Option Out :=
  let r := s.1.call s.2 o
  if r.1.1 then some r.2 else none

/-- `rw_buffer_read_ptr` and `rw_buffer_data_len`, rwbuffer.h:76-78,100-102, handed to a function that reads
these bytes. -/
def Out.take (s : Out) : Bytes × Out :=
  let as := span (s.1.read.ptr + s.1.read.offset.toNat) (s.1.read.size - s.1.read.offset).toNat
  (as.map s.2.byte, s.1, s.2.touch as)

/-- An empty buffer on the array of `size` bytes at `ptr` (`RW_BUFFER_FROM_ARRAY_EMPTY`,
`RW_BUFFER_NEW_LOCAL_EMPTY`, rwbuffer.h:9-11,21-24). -/
def Out.fresh (ptr : Nat) (size : UInt32) (m : Mem) : Out := (RwBuffer.init ptr size 0, m)

/-- Numbers put into scratch buffers. -/
inductive Put where
  | u8 (v : UInt8)
  | u16 (v : UInt16)
  | u32 (v : UInt32)
  | u64 (v : UInt64)

/-- `gve_put_u64`, gve.c:76-86.  The first `none` would be a write behind `out[10]`. -/
def Out.putU64 (s : Out) (v : UInt64) : Option Out :=
  match gvePutLoop 10 v with
  | none => none
  | some bs => s.op (.writeBytes bs)

/-- `gve_put_u8`, `gve_put_u16`, `gve_put_u32`, gve.h:38-60. -/
def Out.put (s : Out) : Put → Option Out
  | .u8 v => s.op (.writeU8 v)
  | .u16 v => s.putU64 v.toUInt64
  | .u32 v => s.putU64 v.toUInt64
  | .u64 v => s.putU64 v

/-- Numbers one after the other through one scratch buffer: `rw_buffer_empty`, `gve_put_…`,
`blake2b_update`.  (Before the first number there is no `rw_buffer_empty`; the buffer is empty.)  The
strings given to `blake2b_update`. -/
def Out.scratch (s : Out) : List Put → Option (List Bytes × Out)
  | [] => some ([], s)
  | p :: ps =>
    match s.op .empty with
    | none => none
    | some s =>
      match s.put p with
      | none => none
      | some s =>
        match s.take.2.scratch ps with
        | none => none
        | some (l, s') => some (s.take.1 :: l, s')

/-- Value of a box, tx_ser_box.c:108-114. -/
def emitValue (v : UInt64) (ptr : Nat) (m : Mem) : Option (List Bytes × Out) :=
  (Out.fresh ptr 10 m).scratch [.u64 v]

/-- `add_height_and_token_count`, tx_ser_box.c:23-41. -/
def emitHeight (height : UInt32) (tokens : UInt8) (ptr : Nat) (m : Mem) : Option (List Bytes × Out) :=
  (Out.fresh ptr 10 m).scratch [.u32 height, .u8 tokens]

/-- `add_empty_registers_count`, tx_ser_box.c:43-53. -/
def emitNoRegisters (ptr : Nat) (m : Mem) : Option (List Bytes × Out) :=
  (Out.fresh ptr 1 m).scratch [.u8 0]

/-- Tokens of an output: table index and amount, tx_ser_box.c:186-239. -/
def emitTokens (ts : List (UInt32 × UInt64)) (ptr : Nat) (m : Mem) : Option (List Bytes × Out) :=
  (Out.fresh ptr 10 m).scratch (ts.flatMap fun t => [.u32 t.1, .u64 t.2])

/-- Tokens of a box to attest: amounts (the ids do not go through the buffer), tx_ser_box.c:186-239. -/
def emitAmounts (ts : List UInt64) (ptr : Nat) (m : Mem) : Option (List Bytes × Out) :=
  (Out.fresh ptr 10 m).scratch (ts.map .u64)

/-- Index of a box in `ergo_tx_serializer_box_id_hash`, tx_ser_box.c:298-304, and the counts of inputs,
data inputs and outputs, `hash_u16`, tx_ser_full.c:121-125. -/
def emitU16 (v : UInt16) (ptr : Nat) (m : Mem) : Option (List Bytes × Out) :=
  (Out.fresh ptr 4 m).scratch [.u16 v]

/-- Number of distinct tokens, `ergo_tx_serializer_table_hash`, tx_ser_table.c:52-58. -/
def emitTableSize (n : UInt8) (ptr : Nat) (m : Mem) : Option (List Bytes × Out) :=
  (Out.fresh ptr 10 m).scratch [.u32 n.toUInt32]

/-- Hash of what is in the buffer, and its first four bytes appended, address.c:44-52, 83-90. -/
def Out.checksum (env : Env) (s : Out) : Option Out :=
  let r := s.take
  r.2.op (.writeBytes ((env.blake r.1).take 4))

/-- `ergo_address_from_compressed_pubkey`, address.c:16-54,63-67, into the 38 bytes at `ptr`. -/
def emitAddressCompressed (env : Env) (network : UInt8) (pk : Bytes) (ptr : Nat) (m : Mem) :
    Option Out :=
  if !networkValid network then none
  else
    ((Out.fresh ptr 38 m).op (.writeU8 (1 + network))).bind fun s =>
    (s.op (.writeBytes (pk.take 33))).bind fun s => s.checksum env

/-- The prefix of a compressed key, `(key[64] & 1) ? 0x03 : 0x02`, address.c:36, ergo_tree.c:44,
epk_response.c:25. -/
def parityByte (pk : Bytes) : UInt8 := if pk.getD 64 0 &&& 1 ≠ 0 then 0x03 else 0x02

/-- `ergo_address_from_pubkey`, address.c:16-61, into the 38 bytes at `ptr`. -/
def emitAddress (env : Env) (network : UInt8) (pk : Bytes) (ptr : Nat) (m : Mem) : Option Out :=
  if !networkValid network then none
  else
    ((Out.fresh ptr 38 m).op (.writeU8 (1 + network))).bind fun s =>
    (s.op (.writeU8 (parityByte pk))).bind fun s =>
    (s.op (.writeBytes ((pk.drop 1).take 32))).bind fun s => s.checksum env

/-- `ergo_address_from_script_hash`, address.c:69-91, into the 29 bytes at `ptr`. -/
def emitAddressScript (env : Env) (network : UInt8) (hash : Bytes) (ptr : Nat) (m : Mem) :
    Option Out :=
  if !networkValid network then none
  else
    ((Out.fresh ptr 29 m).op (.writeU8 (2 + network))).bind fun s =>
    (s.op (.writeBytes (hash.take 24))).bind fun s => s.checksum env

/-- `ergo_tree_generate_p2pk`, ergo_tree.c:36-46, into the 36 bytes at `ptr`.  The C function ignores
failures; here they end it. -/
def emitTree (pk : Bytes) (ptr : Nat) (m : Mem) : Option Out :=
  ((Out.fresh ptr 36 m).op (.writeBytes p2pkPrefix)).bind fun s =>
  (s.op (.writeU8 (parityByte pk))).bind fun s =>
  s.op (.writeBytes ((pk.drop 1).take 32))

/-- `send_response_extended_pubkey`, epk_response.c:20-31, on its local array of 65 bytes. -/
def emitExtPubKey (pk chain : Bytes) (ptr : Nat) (m : Mem) : Option Out :=
  ((Out.fresh ptr 65 m).op (.writeU8 (parityByte pk))).bind fun s =>
  (s.op (.writeBytes ((pk.drop 1).take 32))).bind fun s =>
  s.op (.writeBytes (chain.take 32))

/-- `send_response_address`, da_response.c:21-29, on its local array of 38 bytes. -/
def emitAddressReply (address : Bytes) (ptr : Nat) (m : Mem) : Option Out :=
  (Out.fresh ptr 38 m).op (.writeBytes (address.take 38))

/-- Loop over the tokens of a frame, ainpt_response.c:43-46; `n` iterations from index `i`.  Reading
beyond the table would be undefined and is `none`. -/
def Out.frameTokens (tokens : List (Bytes × UInt64)) : Nat → UInt8 → Out → Option Out
  | 0, _, s => some s
  | n + 1, i, s =>
    match tokens[i.toNat]? with
    | none => none
    | some t =>
      (s.op (.writeBytes t.1)).bind fun s =>
      (s.op (.writeU64 t.2 .be)).bind fun s => s.frameTokens tokens n (i + 1)

/-- `cx_hmac_sha256` over the content of the buffer with the output at `rw_buffer_write_ptr`,
ainpt_response.c:49-54: 32 bytes are stored. -/
def Out.hmac (env : Env) (key : Bytes) (s : Out) : Out :=
  let r := s.take
  (r.2.1, r.2.2.stores (span (s.1.read.ptr + s.1.read.size.toNat) 32) (env.hmac key r.1))

/-- `send_response_attested_input_frame`, ainpt_response.c:21-58, on the transport's array: `size` is
`IO_APDU_BUFFER_SIZE - 2`.  `tokens` are the entries of the token table (`count` of them) with their
amounts.  `none` also for `SW_BAD_FRAME_INDEX`. -/
def emitFrame (env : Env) (key boxId : Bytes) (value : UInt64) (tokens : List (Bytes × UInt64))
    (index : UInt8) (size : UInt32) (ptr : Nat) (m : Mem) : Option Out :=
  let count := UInt8.ofNat tokens.length
  let frames : UInt8 := if (count.toNat + 3) / 4 = 0 then 1 else UInt8.ofNat ((count.toNat + 3) / 4)
  if index ≥ frames then none
  else
    let left : UInt8 := UInt8.ofInt ((count.toNat : Int) - index.toNat * 4)
    let n : UInt8 := if left < 4 then left else 4
    let offset : UInt8 := UInt8.ofNat (index.toNat * 4)
    ((Out.fresh ptr size m).op (.writeBytes boxId)).bind fun s =>
    (s.op (.writeU8 frames)).bind fun s =>
    (s.op (.writeU8 index)).bind fun s =>
    (s.op (.writeU64 value .be)).bind fun s =>
    (s.op (.writeU8 n)).bind fun s =>
    (s.frameTokens tokens n.toNat offset).bind fun s =>
    if !s.1.canWrite 32 then none
    else (s.hmac env key).op (.seekWriteCur 16)

end Ergo
