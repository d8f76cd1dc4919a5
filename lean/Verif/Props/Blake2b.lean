import Verif.Proof.Blake2b
import Verif.Proof.Toy
/-!
# C71: the hash function of the unit tests
-/
namespace Ergo
open Spec Blake2b

/-- One shot: BLAKE2b of RFC 7693, for every message and every length of the result from 1 to 64 bytes;
the other lengths are refused. -/
theorem C71_hash (n : Nat) (d : Bytes) :
    Blake2b.hash n d = if 1 ≤ n ∧ n ≤ 64 then some (blake2b n d) else none := by
  split
  · rename_i h; exact hash_rfc n d (by omega) h.2
  · rename_i h
    unfold Blake2b.hash St.init
    rw [if_pos (by omega)]

example : Blake2b.hash 4 [97, 98, 99] = some [0x63, 0x90, 0x62, 0x48] := by
  decide +kernel

/-- "abc" with 64 bytes, the example of RFC 7693, appendix A. -/
example : blake2b 64 [97, 98, 99] =
    [0xBA, 0x80, 0xA5, 0x3F, 0x98, 0x1C, 0x4D, 0x0D, 0x6A, 0x27, 0x97, 0xB6, 0x9F, 0x12, 0xF6, 0xE9,
     0x4C, 0x21, 0x2F, 0x14, 0x68, 0x5A, 0xC4, 0xB7, 0x4B, 0x12, 0xBB, 0x6F, 0xDB, 0xFF, 0xA2, 0xD1,
     0x7D, 0x87, 0xC5, 0x39, 0x2A, 0xAB, 0x79, 0x2D, 0xC2, 0x52, 0xD5, 0xDE, 0x45, 0x33, 0xCC, 0x95,
     0x18, 0xD3, 0x8A, 0xA8, 0xDB, 0xF1, 0x92, 0x5A, 0xB9, 0x23, 0x86, 0xED, 0xD4, 0x00, 0x99, 0x23] := by
  have h := C71_hash 64 [97, 98, 99]
  rw [if_pos (by decide)] at h
  rw [← Option.some_inj, ← h]
  decide +kernel

/-- In pieces: however a message is cut, the result is that of the whole message, and the buffer of 128
bytes never overflows on the way. -/
theorem C71_pieces (n : Nat) (ds : List Bytes) (h : 1 ≤ n ∧ n ≤ 64) :
    ∃ s, St.init n = some s ∧ (ds.foldl St.update s).final n = some (blake2b n ds.flatten) ∧
      (∀ k, ((ds.take k).foldl St.update s).buf.length ≤ 128) ∧
      (ds.foldl St.update s).close.final n = none := by
  obtain ⟨s, h1, h2⟩ := foldl_final n ds (by omega) h.2
  have hb : s.buf.length ≤ 128 := by
    unfold St.init at h1
    split at h1
    · cases h1
    · cases h1; simp
  refine ⟨s, h1, h2, fun k => (update_pieces _ s hb).2, ?_⟩
  unfold St.final
  split
  · rfl
  · rw [if_pos]
    show (0xFFFFFFFFFFFFFFFF : UInt64) ≠ 0
    decide

example : (St.init 32).map (fun s =>
    (([[1, 2, 3], List.replicate 200 7, [], [9]].foldl St.update s).final 32).map (·.take 4)) =
    (Blake2b.hash 32 ([1, 2, 3] ++ List.replicate 200 7 ++ [9])).map (fun r => some (r.take 4)) := by
  decide +kernel

/-- The contexts of the unit tests (`blake2b_256_init`, `blake2b_update` …, `blake2b_256_finalize`): as
long as at most 65535 bytes are hashed every call succeeds, the recorded data is what was hashed, the
result is its BLAKE2b-256; a second finalization fails. -/
theorem C71_context (ds : List Bytes) :
    ∃ c, HashCtx.init = some c ∧
      if ds.flatten.length ≤ 65535 then
        ∃ c', c.updates ds = some c' ∧ c'.data = ds.flatten ∧
          c'.final.2 = some (blake2b 32 ds.flatten) ∧ c'.final.1.final.2 = none
      else c.updates ds = none := by
  obtain ⟨s, h1, h2, _, h4⟩ := C71_pieces 32 ds (by omega)
  have key : ∀ (ds : List Bytes) (c : HashCtx), c.data.length ≤ 65535 →
      c.updates ds = if c.data.length + ds.flatten.length ≤ 65535 then
        some ⟨c.data ++ ds.flatten, ds.foldl St.update c.st⟩ else none := by
    intro ds
    induction ds with
    | nil => intro c hc; simp [HashCtx.updates, hc]
    | cons d ds ih =>
      intro c hc
      unfold HashCtx.updates HashCtx.update
      by_cases hd : 65535 - c.data.length < d.length
      · rw [if_pos hd, Option.bind_none, if_neg (by simp; omega)]
      · rw [if_neg hd, Option.bind_some, ih _ (by simp; omega)]
        simp only [List.length_append, List.flatten_cons, List.foldl_cons, List.append_assoc,
          Nat.add_assoc]
  refine ⟨⟨[], s⟩, by simp [HashCtx.init, h1], ?_⟩
  have hk := key ds ⟨[], s⟩ (by simp)
  simp only [List.length_nil, Nat.zero_add, List.nil_append] at hk
  split
  · rename_i hl
    rw [if_pos hl] at hk
    refine ⟨_, hk, rfl, ?_⟩
    have hu : ∀ x : St, x.update [] = x := fun x => by simp [St.update]
    unfold HashCtx.final
    simp only [hu, h2, h4, and_self]
  · rename_i hl
    rw [hk, if_neg hl]

example : (HashCtx.init.bind (·.updates [[97], [], [98, 99]])).map (fun c => (c.data, c.final.2.map (·.take 4)))
    = some ([97, 98, 99], some [0xbd, 0xdd, 0x81, 0x3c]) := by
  decide +kernel

/-- The assumption on the hash function made everywhere else holds for this one. -/
theorem C71_length (d : Bytes) : (blake2b 32 d).length = 32 := blake2b_length 32 d (by omega)

/-- The example environment with the true hash function. -/
example : ({ toyEnv with blake := blake2b 32 } : Env).WF :=
  { blake_len := C71_length, hmac_len := toyEnv_wf.hmac_len, derive_len := toyEnv_wf.derive_len,
    pub_len := toyEnv_wf.pub_len, mul_len := toyEnv_wf.mul_len }

end Ergo
