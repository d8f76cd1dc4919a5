import Verif.Proof.Emit
import Verif.Props.Attest
import Verif.Props.Duplicate
/-!
# C60: no array that is filled is too small
-/
namespace Ergo
open Spec

/-- C60, numbers that are hashed: whatever the values and whatever the memory, the scratch array is large
enough, the string handed to the hash is the number in base 128, and nothing beside the array is read
or written. -/
theorem C60_numbers (ptr : Nat) (m : Mem) :
    (∀ v : UInt64, Hands ptr 10 m (emitValue v ptr m) [vlq v.toNat]) ∧
    (∀ (h : UInt32) (n : UInt8), Hands ptr 10 m (emitHeight h n ptr m) [vlq h.toNat, [n]]) ∧
    Hands ptr 1 m (emitNoRegisters ptr m) [[0]] ∧
    (∀ ts : List (UInt32 × UInt64), Hands ptr 10 m (emitTokens ts ptr m)
      (ts.flatMap fun t => [vlq t.1.toNat, vlq t.2.toNat])) ∧
    (∀ ts : List UInt64, Hands ptr 10 m (emitAmounts ts ptr m) (ts.map fun v => vlq v.toNat)) ∧
    (∀ v : UInt16, Hands ptr 4 m (emitU16 v ptr m) [vlq v.toNat]) ∧
    ∀ n : UInt8, Hands ptr 10 m (emitTableSize n ptr m) [vlq n.toNat] := by
  refine ⟨fun v => ?_, fun h n => ?_, ?_, fun ts => ?_, fun ts => ?_, fun v => ?_, fun n => ?_⟩
  · exact scratch_hands ptr 10 m [.u64 v] (by simp [Put.room])
  · exact scratch_hands ptr 10 m [.u32 h, .u8 n] (by simp [Put.room])
  · exact scratch_hands ptr 1 m [.u8 0] (by simp [Put.room])
  · have := scratch_hands ptr 10 m (ts.flatMap fun t => [.u32 t.1, .u64 t.2]) (by
      intro p hp
      obtain ⟨t, _, ht⟩ := List.mem_flatMap.1 hp
      simp only [List.mem_cons, List.not_mem_nil, or_false] at ht
      rcases ht with rfl | rfl <;> simp [Put.room])
    rw [List.map_flatMap] at this
    exact this
  · have := scratch_hands ptr 10 m (ts.map .u64) (by
      intro p hp
      obtain ⟨t, _, rfl⟩ := List.mem_map.1 hp
      simp [Put.room])
    rw [List.map_map] at this
    exact this
  · exact scratch_hands ptr 4 m [.u16 v] (by simp [Put.room])
  · have := scratch_hands ptr 10 m [.u32 n.toUInt32] (by simp [Put.room])
    unfold emitTableSize
    simpa [Put.bytes] using this

/-- The scratch array for 16-bit numbers has 4 bytes, for 64-bit numbers 10; both are filled (3 and 10
bytes are used) by the largest values. -/
example : (emitU16 0xFFFF 100 demoMem).map (·.1) = some [[0xFF, 0xFF, 0x03]] ∧
    (emitValue 0xFFFFFFFFFFFFFFFF 100 demoMem).map (·.1) =
      some [[0xFF, 0xFF, 0xFF, 0xFF, 0xFF, 0xFF, 0xFF, 0xFF, 0xFF, 0x01]] ∧
    ((Out.fresh 100 9 demoMem).scratch [.u64 0xFFFFFFFFFFFFFFFF]).isNone = true ∧
    (emitTokens [(3, 1000), (0, 1)] 100 demoMem).map (·.1) =
      some [[3], [0xE8, 0x07], [0], [1]] := by decide +kernel

/-- C60, addresses: 38 and 29 bytes are enough. -/
theorem C60_address {env : Env} (hwf : env.WF) {network : UInt8} (hn : network ≤ 252) (ptr : Nat)
    (m : Mem) :
    (∀ pk : Bytes, Fills ptr 38 m (emitAddressCompressed env network pk ptr m)
      ((1 + network) :: pk.take 33 ++ (env.blake ((1 + network) :: pk.take 33)).take 4)) ∧
    (∀ pk : Bytes, Fills ptr 38 m (emitAddress env network pk ptr m)
      ((1 + network) :: compress pk ++ (env.blake ((1 + network) :: compress pk)).take 4)) ∧
    (∀ h : Bytes, Fills ptr 29 m (emitAddressScript env network h ptr m)
      ((2 + network) :: h.take 24 ++ (env.blake ((2 + network) :: h.take 24)).take 4)) := by
  have hv : networkValid network = true := by simpa [networkValid] using hn
  refine ⟨fun pk => ?_, fun pk => ?_, fun h => ?_⟩
  · apply Filling.fills (size := 38)
    unfold emitAddressCompressed
    rw [hv]
    simp only [Bool.not_true, Bool.false_eq_true, if_false]
    have hl : (pk.take 33).length ≤ 33 := by rw [List.length_take]; omega
    obtain ⟨s1, e1, h1⟩ := (filling_fresh ptr 38 m).u8 (1 + network) (by decide)
    rw [e1, Option.bind_some]
    obtain ⟨s2, e2, h2⟩ := h1.bytes (pk.take 33) (by
      show 1 + (pk.take 33).length ≤ 38
      omega)
    rw [e2, Option.bind_some]
    obtain ⟨s3, e3, h3⟩ := h2.checksum hwf (by
      simp only [List.nil_append, List.length_append, List.length_singleton]
      show 1 + (pk.take 33).length + 4 ≤ 38
      omega)
    exact ⟨s3, e3, h3⟩
  · apply Filling.fills (size := 38)
    unfold emitAddress
    rw [hv]
    simp only [Bool.not_true, Bool.false_eq_true, if_false]
    have hl : ((pk.drop 1).take 32).length ≤ 32 := by rw [List.length_take]; omega
    obtain ⟨s1, e1, h1⟩ := (filling_fresh ptr 38 m).u8 (1 + network) (by decide)
    rw [e1, Option.bind_some]
    obtain ⟨s2, e2, h2⟩ := h1.u8 (parityByte pk) (show 1 + 1 ≤ 38 by decide)
    rw [e2, Option.bind_some]
    obtain ⟨s3, e3, h3⟩ := h2.bytes ((pk.drop 1).take 32) (by
      show 2 + ((pk.drop 1).take 32).length ≤ 38
      omega)
    rw [e3, Option.bind_some]
    obtain ⟨s4, e4, h4⟩ := h3.checksum hwf (by
      simp only [List.nil_append, List.length_append, List.length_singleton]
      show 1 + 1 + ((pk.drop 1).take 32).length + 4 ≤ 38
      omega)
    refine ⟨s4, e4, ?_⟩
    rw [← parityByte_eq]
    exact h4
  · apply Filling.fills (size := 29)
    unfold emitAddressScript
    rw [hv]
    simp only [Bool.not_true, Bool.false_eq_true, if_false]
    have hl : (h.take 24).length ≤ 24 := by rw [List.length_take]; omega
    obtain ⟨s1, e1, h1⟩ := (filling_fresh ptr 29 m).u8 (2 + network) (by decide)
    rw [e1, Option.bind_some]
    obtain ⟨s2, e2, h2⟩ := h1.bytes (h.take 24) (by
      show 1 + (h.take 24).length ≤ 29
      omega)
    rw [e2, Option.bind_some]
    obtain ⟨s3, e3, h3⟩ := h2.checksum hwf (by
      simp only [List.nil_append, List.length_append, List.length_singleton]
      show 1 + (h.take 24).length + 4 ≤ 29
      omega)
    exact ⟨s3, e3, h3⟩

/-- C60, the script of a public key, the replies with a key and with an address. -/
theorem C60_replies (ptr : Nat) (m : Mem) :
    (∀ pk : Bytes, Fills ptr 36 m (emitTree pk ptr m) ([0x00, 0x08, 0xcd] ++ compress pk)) ∧
    (∀ pk chain : Bytes, Fills ptr 65 m (emitExtPubKey pk chain ptr m) (compress pk ++ chain.take 32)) ∧
    ∀ address : Bytes, Fills ptr 38 m (emitAddressReply address ptr m) (address.take 38) := by
  refine ⟨fun pk => ?_, fun pk chain => ?_, fun address => ?_⟩
  · apply Filling.fills (size := 36)
    unfold emitTree
    have hl : ((pk.drop 1).take 32).length ≤ 32 := by rw [List.length_take]; omega
    obtain ⟨s1, e1, h1⟩ := (filling_fresh ptr 36 m).bytes p2pkPrefix (by decide)
    rw [e1, Option.bind_some]
    obtain ⟨s2, e2, h2⟩ := h1.u8 (parityByte pk) (by decide)
    rw [e2, Option.bind_some]
    obtain ⟨s3, e3, h3⟩ := h2.bytes ((pk.drop 1).take 32) (by
      show 4 + ((pk.drop 1).take 32).length ≤ 36
      omega)
    refine ⟨s3, e3, ?_⟩
    rw [← parityByte_eq]
    exact h3
  · apply Filling.fills (size := 65)
    unfold emitExtPubKey
    have hl : ((pk.drop 1).take 32).length ≤ 32 := by rw [List.length_take]; omega
    have hl2 : (chain.take 32).length ≤ 32 := by rw [List.length_take]; omega
    obtain ⟨s1, e1, h1⟩ := (filling_fresh ptr 65 m).u8 (parityByte pk) (by decide)
    rw [e1, Option.bind_some]
    obtain ⟨s2, e2, h2⟩ := h1.bytes ((pk.drop 1).take 32) (by
      show 1 + ((pk.drop 1).take 32).length ≤ 65
      omega)
    rw [e2, Option.bind_some]
    obtain ⟨s3, e3, h3⟩ := h2.bytes (chain.take 32) (by
      simp only [List.nil_append, List.length_append, List.length_singleton]
      show 1 + ((pk.drop 1).take 32).length + (chain.take 32).length ≤ 65
      omega)
    refine ⟨s3, e3, ?_⟩
    rw [← parityByte_eq]
    exact h3
  · apply Filling.fills (size := 38)
    unfold emitAddressReply
    have hl : (address.take 38).length ≤ 38 := by rw [List.length_take]; omega
    exact (filling_fresh ptr 38 m).bytes (address.take 38) (by
      show 0 + (address.take 38).length ≤ 38
      omega)

/-- C60, frames: an array of 235 bytes is enough for every frame with its tag (and for the 32 bytes
that the tag function stores); the transport's array has 260, of which 258 may be used. -/
theorem C60_frame {env : Env} (hwf : env.WF) (key : Bytes) {boxId : Bytes} (value : UInt64)
    {tokens : List (Bytes × UInt64)} (hb : boxId.length = 32) (ht : ∀ t ∈ tokens, t.1.length = 32)
    (hn : tokens.length < 256) (index : UInt8) {size : UInt32} (hs : 235 ≤ size) (ptr : Nat) (m : Mem) :
    (index.toNat < framesFor tokens.length →
      Fills ptr size.toNat m (emitFrame env key boxId value tokens index size ptr m)
        (frameBytes boxId value tokens index.toNat ++
          (env.hmac key (frameBytes boxId value tokens index.toNat)).take 16)) ∧
    (framesFor tokens.length ≤ index.toNat →
      emitFrame env key boxId value tokens index size ptr m = none) := by
  have hs' : 235 ≤ size.toNat := by
    have := UInt32.le_iff_toNat_le.1 hs
    exact this
  have hc : (UInt8.ofNat tokens.length).toNat = tokens.length := by
    rw [UInt8.toNat_ofNat']; omega
  have hfr : framesFor tokens.length ≤ 64 := by
    unfold framesFor; split <;> omega
  have hframes : (if ((UInt8.ofNat tokens.length).toNat + 3) / 4 = 0 then 1
      else UInt8.ofNat (((UInt8.ofNat tokens.length).toNat + 3) / 4)) =
        UInt8.ofNat (framesFor tokens.length) := by
    rw [hc]
    unfold framesFor
    by_cases h0 : tokens.length = 0
    · rw [if_pos (by omega), if_pos h0]; rfl
    · rw [if_neg (by omega), if_neg h0]; congr 1; omega
  have hfn : (UInt8.ofNat (framesFor tokens.length)).toNat = framesFor tokens.length := by
    rw [UInt8.toNat_ofNat']; omega
  unfold emitFrame
  simp only [hframes]
  constructor
  swap
  · intro hi
    rw [if_pos]
    rw [ge_iff_le, UInt8.le_iff_toNat_le, hfn]
    exact hi
  intro hi
  rw [if_neg (by rw [ge_iff_le, UInt8.le_iff_toNat_le, hfn]; omega)]
  have hi4 : index.toNat * 4 ≤ tokens.length := by
    unfold framesFor at hi
    split at hi <;> omega
  obtain ⟨n, hnd⟩ : ∃ n, n = (if UInt8.ofInt (((UInt8.ofNat tokens.length).toNat : Int) - index.toNat * 4) < 4
      then UInt8.ofInt (((UInt8.ofNat tokens.length).toNat : Int) - index.toNat * 4) else 4) := ⟨_, rfl⟩
  have hleft : (UInt8.ofInt (((UInt8.ofNat tokens.length).toNat : Int) - index.toNat * 4)).toNat =
      tokens.length - index.toNat * 4 := by
    rw [hc]
    have : ((tokens.length : Int) - index.toNat * 4) = ((tokens.length - index.toNat * 4 : Nat) : Int) := by
      omega
    rw [this]
    show (UInt8.ofInt ((tokens.length - index.toNat * 4 : Nat) : Int)).toNat = _
    unfold UInt8.ofInt
    rw [UInt8.toNat_ofNat']
    omega
  have hnn : n.toNat = min 4 (tokens.length - index.toNat * 4) := by
    rw [hnd]
    split
    · rename_i h
      rw [UInt8.lt_iff_toNat_lt, hleft] at h
      have h : tokens.length - index.toNat * 4 < 4 := h
      rw [hleft]; omega
    · rename_i h
      rw [UInt8.lt_iff_toNat_lt, hleft] at h
      have h : ¬ tokens.length - index.toNat * 4 < 4 := h
      show 4 = _
      omega
  rw [← hnd]
  have hft : frameTokens index.toNat tokens = (tokens.drop (index.toNat * 4)).take n.toNat := by
    rw [frameTokens_eq, hnn]
    rcases Nat.le_total 4 (tokens.length - index.toNat * 4) with h | h
    · rw [Nat.min_eq_left h]
    · rw [Nat.min_eq_right h, List.take_of_length_le (by rw [List.length_drop]; exact h),
        List.take_of_length_le (by rw [List.length_drop])]
  have hftl : (frameTokens index.toNat tokens).length = n.toNat := by
    rw [hft, List.length_take, List.length_drop]; omega
  have hoff : (UInt8.ofNat (index.toNat * 4)).toNat = index.toNat * 4 := by
    rw [UInt8.toNat_ofNat']; omega
  apply Filling.fills
  obtain ⟨s1, e1, h1⟩ := (filling_fresh ptr size m).bytes boxId (by simp only [List.length_nil]; omega)
  rw [e1, Option.bind_some]
  obtain ⟨s2, e2, h2⟩ := h1.u8 (UInt8.ofNat (framesFor tokens.length)) (by
    simp only [List.nil_append]; omega)
  rw [e2, Option.bind_some]
  obtain ⟨s3, e3, h3⟩ := h2.u8 index (by
    simp only [List.nil_append, List.length_append, List.length_singleton]; omega)
  rw [e3, Option.bind_some]
  obtain ⟨s4, e4, h4⟩ := h3.u64be value (by
    simp only [List.nil_append, List.length_append, List.length_singleton]; omega)
  rw [e4, Option.bind_some]
  have h8 : (amountBytes value).length = 8 := by simp [amountBytes]
  obtain ⟨s5, e5, h5⟩ := h4.u8 n (by
    simp only [List.nil_append, List.length_append, List.length_singleton]; omega)
  rw [e5, Option.bind_some]
  obtain ⟨s6, e6, h6⟩ := h5.tokens ht hn n.toNat (UInt8.ofNat (index.toNat * 4)) (by omega) (by
    simp only [List.nil_append, List.length_append, List.length_singleton]; omega)
  rw [e6, Option.bind_some]
  have hbody : [] ++ boxId ++ [UInt8.ofNat (framesFor tokens.length)] ++ [index] ++ amountBytes value ++
      [n] ++ ((tokens.drop (UInt8.ofNat (index.toNat * 4)).toNat).take n.toNat).flatMap
        (fun t => t.1 ++ amountBytes t.2) = frameBytes boxId value tokens index.toNat := by
    unfold frameBytes
    rw [hoff, ← hft, hftl, UInt8.ofNat_toNat, UInt8.ofNat_toNat]
    simp
  rw [hbody] at h6
  have hlen := frameBytes_length boxId value tokens index.toNat hb ht
  have h4 := frameTokens_length index.toNat tokens
  obtain ⟨h7, s8, e8, h8⟩ := h6.tag hwf key (by rw [hlen]; omega)
  rw [h7]
  simp only [Bool.not_true, Bool.false_eq_true, if_false]
  exact ⟨s8, e8, h8⟩

/-- C60 in executions: whenever the device answers a request for a frame, the reply is what
`send_response_attested_input_frame` puts together in the transport's array, wherever this is and
whatever it held, without leaving it. -/
theorem C60_sent {env : Env} (hwf : env.WF) {nanoS : Bool} {key : Bytes} {tr : List Obs} {d : Device}
    (h : Runs env nanoS key tr d) {cla p2 : UInt8} {data out : Bytes} {rnd : Rnd}
    (hr : (d.step env nanoS (.apdu cla 0x20 0x05 p2 data rnd)).2 = .sw 0x9000 out) (ptr : Nat) (m : Mem) :
    ∃ A i, (know tr).attest = some A ∧ data = [i] ∧
      Fills ptr 258 m (emitFrame env key (A.boxId env) (UInt64.ofNat A.box.value) (toks64 A.box.tokens) i
        258 ptr m) out := by
  obtain ⟨A, x, x', hA, _, _, _, hR, _, ho, _⟩ := attest_answer h (by decide) hr
  obtain ⟨_, _, hn, i, hi, hlt, hout⟩ := getFrame_rel hR (show x.getFrame env key data = .ok x' out from ho)
  refine ⟨A, i, hA, hi, ?_⟩
  have h20 := hR.tok_le
  have hlen : (toks64 A.box.tokens).length = A.box.tokens.length := by simp [toks64]
  rw [hout]
  refine (C60_frame hwf key (boxId := A.boxId env) _ (hwf.blake_len _) ?_ ?_ i (size := 258) (by decide) ptr
    m).1 ?_
  · intro t ht
    obtain ⟨u, hu, rfl⟩ := List.mem_map.1 ht
    exact hR.idLen u hu
  · rw [hlen]; omega
  · rw [hlen]; exact hlt

/-- A frame with four of five tokens needs 219 bytes, and 16 more for the tag function. -/
example :
    let toks := (List.range 5).map (fun i => (List.replicate 32 (UInt8.ofNat i), UInt64.ofNat (i + 1)))
    ((emitFrame toyEnv [1] (List.replicate 32 7) 9 toks 0 235 100 demoMem).map (·.1.read.size)) = some 219 ∧
    (emitFrame toyEnv [1] (List.replicate 32 7) 9 toks 0 234 100 demoMem).isNone = true ∧
    ((emitFrame toyEnv [1] (List.replicate 32 7) 9 toks 1 235 100 demoMem).map (·.1.read.size)) = some 99 ∧
    (emitFrame toyEnv [1] (List.replicate 32 7) 9 toks 2 235 100 demoMem).isNone = true := by
  decide +kernel

/-- The toy device sends a frame of 59 bytes. -/
example : demoSent.length = 59 ∧
    ((after (demoAttest.take 5)).step toyEnv false (cmd 0x20 0x05 7 [0])).2 = .sw 0x9000 demoSent := by
  decide +kernel

end Ergo
