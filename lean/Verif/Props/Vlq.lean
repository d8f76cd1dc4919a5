import Verif.Proof.Gve
import Verif.Proof.Zigzag
/-!
# C25–C28: the VLQ integer encoding
-/
namespace Ergo
open Spec

/-- The writer produces the specified encoding. -/
theorem C25_writer_spec (v : UInt64) : gvePutU64 v = vlq v.toNat := gvePutU64_eq v

/-- C25: between 1 and 10 bytes, and reading them back (followed by anything) gives the value and
consumes exactly them. -/
theorem C25_u64 (v : UInt64) :
    1 ≤ (gvePutU64 v).length ∧ (gvePutU64 v).length ≤ 10 ∧
    ∀ rest, gveGetU64 (gvePutU64 v ++ rest) = .ok (v, rest) := by
  refine ⟨?_, ?_, gveGet_put v⟩
  · rw [gvePutU64_eq]; exact vlq_length_pos _
  · rw [gvePutU64_eq]
    exact vlq_length_le 10 _ (by have := v.toNat_lt; norm_num; omega) (by omega)

example : gvePutU64 0xFFFFFFFFFFFFFFFF =
    [0xFF, 0xFF, 0xFF, 0xFF, 0xFF, 0xFF, 0xFF, 0xFF, 0xFF, 0x01] ∧
    gveGetU64 [0xAC, 0x02, 0x07] = .ok (300, [0x07]) := by decide +kernel

/-- C25 for 32-bit values. -/
theorem C25_u32 (v : UInt32) (rest : Bytes) :
    gveGetU32 (gvePutU32 v ++ rest) = .ok (v, rest) := by
  unfold gveGetU32 gvePutU32
  rw [gveGet_put]
  have h := v.toNat_lt
  have hle : ¬ v.toUInt64 > 0xFFFFFFFF := by
    rw [gt_iff_lt, UInt64.lt_iff_toNat_lt, UInt32.toNat_toUInt64]
    show ¬ 4294967295 < v.toNat
    omega
  simp only [hle, if_false]
  congr 2
  simp

example : gveGetU32 (gvePutU32 0xFFFFFFFF ++ [1]) = .ok (0xFFFFFFFF, [1]) := by decide +kernel

/-- C25 for 16-bit values. -/
theorem C25_u16 (v : UInt16) (rest : Bytes) :
    gveGetU16 (gvePutU16 v ++ rest) = .ok (v, rest) := by
  unfold gveGetU16 gvePutU16
  rw [gveGet_put]
  have h := v.toNat_lt
  have hle : ¬ v.toUInt64 > 0xFFFF := by
    rw [gt_iff_lt, UInt64.lt_iff_toNat_lt, UInt16.toNat_toUInt64]
    show ¬ 65535 < v.toNat
    omega
  simp only [hle, if_false]
  congr 2
  simp

example : gveGetU16 (gvePutU16 0xFFFF ++ [1]) = .ok (0xFFFF, [1]) := by decide +kernel

/-- C25 for signed 64-bit values. -/
theorem C25_i64 (v : Int64) (rest : Bytes) :
    gveGetI64 (gvePutI64 v ++ rest) = .ok (v, rest) := by
  unfold gveGetI64 gvePutI64
  rw [gveGet_put]
  simp only [zz64]

example : gveGetI64 (gvePutI64 (-9223372036854775808) ++ [1]) =
    .ok (-9223372036854775808, [1]) := by decide +kernel

/-- C27: exactly which signed 32-bit values can be read back. -/
theorem C27_partial (v : Int32) (rest : Bytes) :
    gveGetI32 (gvePutI32 v ++ rest) =
      if -2 ^ 30 ≤ v.toInt ∧ v.toInt < 2 ^ 30 then .ok (v, rest) else .error .intTooBig := by
  unfold gveGetI32 gvePutI32
  rw [gveGet_put]
  have hf := zz32_fits v
  simp only [gt_iff_lt, UInt64.lt_iff_toNat_lt]
  have e : (0xFFFFFFFF : UInt64).toNat = 0xFFFFFFFF := rfl
  rw [e]
  by_cases h : (zigzagEncodeI32 v).toNat ≤ 0xFFFFFFFF
  · rw [if_pos (hf.1 h), if_neg (by omega), zz32]
  · rw [if_neg (fun hh => h (hf.2 hh)), if_pos (by omega)]

example : gveGetI32 (gvePutI32 (-1073741824) ++ [9]) = .ok (-1073741824, [9]) := by decide +kernel

/-- C27 is false as stated: a written 32-bit value is refused by the reader. -/
theorem C27_negation : ¬ ∀ (v : Int32) (rest : Bytes),
    gveGetI32 (gvePutI32 v ++ rest) = .ok (v, rest) := by
  intro h
  exact absurd (h 1073741824 []) (by decide +kernel)

/-- C25 for signed 16-bit values. -/
theorem C25_i16 (v : Int16) (rest : Bytes) :
    gveGetI16 (gvePutI16 v ++ rest) = .ok (v, rest) := by
  have h1 := Int16.le_toInt v
  have h2 := Int16.toInt_lt v
  have ht : v.toInt32.toInt = v.toInt := by simp
  have h5 : (2 : Int) ^ 30 = 1073741824 := by norm_num
  have h6 : (2 : Int) ^ 15 = 32768 := by norm_num
  rw [h6] at h1 h2
  have hfit := (zz32_fits v.toInt32).2 (by rw [ht, h5]; omega)
  have e : gvePutI16 v = gvePutI32 v.toInt32 := by
    unfold gvePutI16 gvePutI32 gvePutU32
    congr 1
    rw [← UInt64.toNat_inj, UInt32.toNat_toUInt64, UInt64.toNat_toUInt32]
    omega
  unfold gveGetI16
  rw [e, C27_partial, if_pos (by rw [ht, h5]; omega)]
  have hr : ¬ (v.toInt32 > 32767 ∨ v.toInt32 < -32768) := by
    rw [gt_iff_lt, Int32.lt_iff_toInt_lt, Int32.lt_iff_toInt_lt, ht]
    have e1 : (32767 : Int32).toInt = 32767 := rfl
    have e2 : (-32768 : Int32).toInt = -32768 := rfl
    rw [e1, e2]; omega
  simp only [hr, if_false]
  congr 2
  simp

example : gveGetI16 (gvePutI16 (-32768) ++ [3]) = .ok (-32768, [3]) := by decide +kernel

/-- C26: no encoding is a prefix of another one. -/
theorem C26_prefix_free (v w : UInt64) (r s : Bytes)
    (h : gvePutU64 v ++ r = gvePutU64 w ++ s) : v = w ∧ r = s := by
  rw [gvePutU64_eq, gvePutU64_eq] at h
  obtain ⟨h1, h2⟩ := vlq_append_inj _ _ _ _ h
  exact ⟨UInt64.toNat_inj.1 h1, h2⟩

example : gvePutU64 300 ++ [1] = gvePutU64 300 ++ [1] ∧ gvePutU64 300 = [0xAC, 0x02] := by
  decide +kernel

/-- C26: no other string of groups denoting the same number is shorter. -/
theorem C26_shortest (v : UInt64) (p : Bytes) (hp : p ≠ []) (h : groupsValue p = v.toNat) :
    (gvePutU64 v).length ≤ p.length := by
  have hlt : ∀ p : Bytes, groupsValue p < 128 ^ p.length := by
    intro p
    induction p with
    | nil => simp [groupsValue]
    | cons b bs ih =>
      simp only [groupsValue, List.length_cons, pow_succ]
      omega
  rw [gvePutU64_eq]
  apply vlq_length_le
  · rw [← h]; exact hlt p
  · exact List.length_pos_iff.2 hp

example : groupsValue [0x80, 0x00] = 0 ∧ gvePutU64 0 = [0x00] := by decide +kernel

/-- C28: exact behaviour of the reader: it takes the bytes up to the first one below 128 but at most
10, and returns the number denoted by their 7-bit groups modulo `2^64`; it fails iff the input ends
before. -/
theorem C28_partial (b : Bytes) :
    gveGetU64 b =
      match scan 10 b with
      | none => .error .dataSize
      | some (p, r) => .ok (UInt64.ofNat (groupsValue p), r) := gveGetU64_eq b

/-- C28: what `scan` consumes is a prefix of the input, of at most the given number of bytes, in
which only the last byte may be below 128. -/
theorem C28_consumed (n : Nat) (b p r : Bytes) (h : scan n b = some (p, r)) :
    b = p ++ r ∧ p.length ≤ n ∧ (∀ x ∈ p.dropLast, 128 ≤ x.toNat) := by
  induction n generalizing b p r with
  | zero =>
    simp only [scan, Option.some.injEq, Prod.mk.injEq] at h
    obtain ⟨rfl, rfl⟩ := h
    simp
  | succ n ih =>
    cases b with
    | nil => simp [scan] at h
    | cons x xs =>
      simp only [scan] at h
      by_cases hx : x.toNat < 128
      · rw [if_pos hx] at h
        simp only [Option.some.injEq, Prod.mk.injEq] at h
        obtain ⟨rfl, rfl⟩ := h
        simp
      · rw [if_neg hx] at h
        cases hs : scan n xs with
        | none => rw [hs] at h; simp at h
        | some q =>
          obtain ⟨p', r'⟩ := q
          rw [hs] at h
          simp only [Option.some.injEq, Prod.mk.injEq] at h
          obtain ⟨rfl, rfl⟩ := h
          obtain ⟨h1, h2, h3⟩ := ih xs p' r' hs
          refine ⟨by rw [h1]; rfl, by simp; omega, ?_⟩
          intro y hy
          cases p' with
          | nil => simp at hy
          | cons a as =>
            simp only [List.dropLast_cons_cons, List.mem_cons] at hy
            rcases hy with rfl | hy
            · omega
            · exact h3 y hy

example : scan 10 [0xAC, 0x02, 0x07] = some ([0xAC, 0x02], [0x07]) := by decide +kernel

/-- C28 is false as stated: the reader accepts unterminated input, superfluous groups, and drops
high bits. -/
theorem C28_negation :
    gveGetU64 (List.replicate 10 0x80) = .ok (0, []) ∧
    gveGetU64 [0x85, 0x00] = .ok (5, []) ∧
    gveGetU64 (List.replicate 9 0x80 ++ [0x02]) = .ok (0, []) ∧
    (∀ v, gvePutU64 v ≠ List.replicate 10 0x80) ∧ (∀ v, gvePutU64 v ≠ [0x85, 0x00]) ∧
    (∀ v, gvePutU64 v ≠ List.replicate 9 0x80 ++ [0x02]) := by
  have key : ∀ (b : Bytes) (v0 : UInt64), gveGetU64 b = .ok (v0, []) → gvePutU64 v0 ≠ b →
      ∀ v, gvePutU64 v ≠ b := by
    intro b v0 hb hne v hv
    have := gveGet_put v []
    rw [List.append_nil, hv, hb] at this
    simp only [Except.ok.injEq, Prod.mk.injEq, and_true] at this
    exact hne (this ▸ hv)
  refine ⟨by decide +kernel, by decide +kernel, by decide +kernel, ?_, ?_, ?_⟩
  · exact key _ 0 (by decide +kernel) (by decide +kernel)
  · exact key _ 5 (by decide +kernel) (by decide +kernel)
  · exact key _ 0 (by decide +kernel) (by decide +kernel)

end Ergo
