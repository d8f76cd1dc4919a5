import Verif.Model.Gve
import Verif.Spec.Vlq
import Mathlib.Tactic.NormNum
import Mathlib.Tactic.Ring
/-!
Helper lemmas about the VLQ encoding.
-/
namespace Ergo
open Spec

theorem vlq_small {n : Nat} (h : n < 128) : vlq n = [UInt8.ofNat n] := by
  rw [vlq, if_pos h]

theorem vlq_big {n : Nat} (h : ¬ n < 128) :
    vlq n = UInt8.ofNat (n % 128 + 128) :: vlq (n / 128) := by
  rw [vlq, if_neg h]

theorem u8_ofNat_toNat {n : Nat} (h : n < 256) : (UInt8.ofNat n).toNat = n := by
  rw [UInt8.toNat_ofNat']; exact Nat.mod_eq_of_lt h

theorem vlq_ne_nil (n : Nat) : vlq n ≠ [] := by
  by_cases h : n < 128
  · rw [vlq_small h]; simp
  · rw [vlq_big h]; simp

theorem and7f (v : UInt64) : (v &&& 0x7F).toUInt8.toNat = v.toNat % 128 := by
  have h : (v &&& 0x7F).toNat = v.toNat % 128 := by
    rw [UInt64.toNat_and]
    exact Nat.and_two_pow_sub_one_eq_mod v.toNat 7
  rw [UInt64.toNat_toUInt8, h]; omega

theorem and7f8 (v : UInt8) : (v &&& 0x7F).toUInt64.toNat = v.toNat % 128 := by
  rw [UInt8.toNat_toUInt64, UInt8.toNat_and]
  exact Nat.and_two_pow_sub_one_eq_mod v.toNat 7

theorem shr7 (v : UInt64) : (v >>> 7).toNat = v.toNat / 128 := by
  rw [UInt64.toNat_shiftRight]
  exact Nat.shiftRight_eq_div_pow _ 7

theorem or80 (b : UInt8) (h : b.toNat < 128) : (b ||| 0x80).toNat = b.toNat + 128 := by
  rw [UInt8.toNat_or]
  have := Nat.two_pow_add_eq_or_of_lt (i := 7) (b := b.toNat) (by omega) 1
  show b.toNat ||| 128 = _
  rw [Nat.or_comm]
  have e : 2 ^ 7 * 1 = 128 := by norm_num
  rw [e] at this
  omega

theorem and80_eq_zero (b : UInt8) : (b &&& 0x80 = 0) ↔ b.toNat < 128 := by
  have h : ∀ n < 256, (n &&& 128 = 0 ↔ n < 128) := by decide +kernel
  rw [← UInt8.toNat_inj, UInt8.toNat_and]
  exact h b.toNat b.toNat_lt

/-- The writer loop computes the specification whenever the space suffices. -/
theorem gvePutLoop_eq : ∀ (fuel : Nat) (v : UInt64), v.toNat < 128 ^ fuel → 0 < fuel →
    gvePutLoop fuel v = some (vlq v.toNat)
  | 0, _, _, h => absurd h (by omega)
  | fuel + 1, v, h, _ => by
    have h7 := and7f v
    have hs := shr7 v
    unfold gvePutLoop
    by_cases hz : v >>> 7 = 0
    · have : v.toNat < 128 := by
        rw [hz] at hs
        have : (0 : UInt64).toNat = 0 := rfl
        omega
      simp only [hz, if_true]
      rw [vlq_small this]
      congr 2
      rw [← UInt8.toNat_inj, h7, u8_ofNat_toNat (by omega)]; omega
    · have hn : ¬ v.toNat < 128 := by
        intro hlt
        apply hz
        rw [← UInt64.toNat_inj, hs]
        have : (0 : UInt64).toNat = 0 := rfl
        omega
      have hf : 0 < fuel := by
        rcases Nat.eq_zero_or_pos fuel with rfl | h0
        · simp at h; omega
        · exact h0
      have hr : (v >>> 7).toNat < 128 ^ fuel := by
        rw [hs]; rw [pow_succ] at h; omega
      have ih := gvePutLoop_eq fuel (v >>> 7) hr hf
      simp only [hz, if_false, ih]
      rw [vlq_big hn, hs]
      congr 2
      rw [← UInt8.toNat_inj, or80 _ (by omega), h7, u8_ofNat_toNat (by omega)]

theorem gvePutU64_eq (v : UInt64) : gvePutU64 v = vlq v.toNat := by
  unfold gvePutU64
  rw [gvePutLoop_eq 10 v (by have := v.toNat_lt; norm_num; omega) (by omega)]
  rfl

/-- One reader step on the accumulator. -/
theorem gve_acc (val : UInt64) (byte : UInt8) (shift : UInt64) (hs : shift.toNat < 64)
    (hv : val.toNat < 2 ^ shift.toNat) :
    (val ||| ((byte &&& 0x7F).toUInt64 <<< shift)).toNat =
      val.toNat + 2 ^ shift.toNat * (byte.toNat % 128 % 2 ^ (64 - shift.toNat)) := by
  rw [UInt64.toNat_or, UInt64.toNat_shiftLeft, and7f8, Nat.mod_eq_of_lt hs, Nat.shiftLeft_eq]
  have e : byte.toNat % 128 * 2 ^ shift.toNat % 2 ^ 64 =
      2 ^ shift.toNat * (byte.toNat % 128 % 2 ^ (64 - shift.toNat)) := by
    have h64 : (2 : Nat) ^ 64 = 2 ^ shift.toNat * 2 ^ (64 - shift.toNat) := by
      rw [← pow_add]; congr 1; omega
    rw [h64, Nat.mul_comm, Nat.mul_mod_mul_left]
  rw [e, Nat.or_comm, ← Nat.two_pow_add_eq_or_of_lt hv]; omega

/-- The reader loop, in terms of the specification. -/
theorem gveGetLoop_eq : ∀ (fuel : Nat) (shift val : UInt64) (b : Bytes),
    shift.toNat + 7 * fuel = 70 → (fuel = 0 ∨ val.toNat < 2 ^ shift.toNat) →
    gveGetLoop fuel shift val b =
      match scan fuel b with
      | none => .error .dataSize
      | some (p, r) => .ok (UInt64.ofNat (val.toNat + groupsValue p * 2 ^ shift.toNat), r)
  | 0, shift, val, b, _, _ => by
    simp only [gveGetLoop, scan, groupsValue]
    congr 2
    rw [← UInt64.toNat_inj, UInt64.toNat_ofNat']
    have := val.toNat_lt
    omega
  | fuel + 1, shift, val, [], _, _ => by simp only [gveGetLoop, scan]
  | fuel + 1, shift, val, x :: xs, hs, hv => by
    have hv' : val.toNat < 2 ^ shift.toNat := by
      rcases hv with h | h
      · omega
      · exact h
    have hs64 : shift.toNat < 64 := by omega
    have hacc := gve_acc val x shift hs64 hv'
    simp only [gveGetLoop, scan]
    -- the accumulated value modulo 2^64
    have hmod : ∀ q : Nat, (val.toNat + 2 ^ shift.toNat *
        (x.toNat % 128 % 2 ^ (64 - shift.toNat)) + q * 2 ^ (shift.toNat + 7)) % 2 ^ 64 =
        (val.toNat + (x.toNat % 128 + 128 * q) * 2 ^ shift.toNat) % 2 ^ 64 := by
      intro q
      have h64 : (2 : Nat) ^ 64 = 2 ^ shift.toNat * 2 ^ (64 - shift.toNat) := by
        rw [← pow_add]; congr 1; omega
      have e1 : 2 ^ shift.toNat * (x.toNat % 128 % 2 ^ (64 - shift.toNat)) % 2 ^ 64 =
          2 ^ shift.toNat * (x.toNat % 128) % 2 ^ 64 := by
        rw [h64, Nat.mul_mod_mul_left, Nat.mul_mod_mul_left, Nat.mod_mod]
      have e2 : val.toNat + (x.toNat % 128 + 128 * q) * 2 ^ shift.toNat =
          val.toNat + 2 ^ shift.toNat * (x.toNat % 128) + q * 2 ^ (shift.toNat + 7) := by
        rw [pow_add]; ring
      rw [e2]
      omega
    by_cases h80 : x &&& 0x80 = 0
    · have hx := (and80_eq_zero x).1 h80
      rw [if_pos h80, if_pos hx]
      simp only [groupsValue]
      congr 2
      rw [← UInt64.toNat_inj, UInt64.toNat_ofNat']
      have hm := hmod 0
      simp only [Nat.mul_zero, Nat.zero_mul, Nat.add_zero] at hm ⊢
      rw [← hm, ← hacc]
      exact (Nat.mod_eq_of_lt (UInt64.toNat_lt _)).symm
    · have hx : ¬ x.toNat < 128 := fun h => h80 ((and80_eq_zero x).2 h)
      rw [if_neg h80, if_neg hx]
      have hs7 : (shift + 7).toNat = shift.toNat + 7 := by
        rw [UInt64.toNat_add]
        show (shift.toNat + 7) % 2 ^ 64 = _
        omega
      rw [gveGetLoop_eq fuel (shift + 7) _ xs (by omega) ?_]
      · cases hsc : scan fuel xs with
        | none => rfl
        | some pr =>
          obtain ⟨p, r⟩ := pr
          simp only [groupsValue]
          congr 2
          rw [← UInt64.toNat_inj, UInt64.toNat_ofNat', UInt64.toNat_ofNat', hacc, hs7]
          exact hmod _
      · rcases Nat.eq_zero_or_pos fuel with h0 | h0
        · exact Or.inl h0
        · right
          rw [hacc, hs7, pow_add]
          have : x.toNat % 128 % 2 ^ (64 - shift.toNat) ≤ 127 := by
            have := Nat.mod_le (x.toNat % 128) (2 ^ (64 - shift.toNat))
            omega
          have := Nat.mul_le_mul_left (2 ^ shift.toNat) this
          omega

theorem gveGetU64_eq (b : Bytes) :
    gveGetU64 b =
      match scan 10 b with
      | none => .error .dataSize
      | some (p, r) => .ok (UInt64.ofNat (groupsValue p), r) := by
  unfold gveGetU64
  rw [gveGetLoop_eq 10 0 0 b rfl (Or.inr (by decide))]
  have : (0 : UInt64).toNat = 0 := rfl
  simp only [this, pow_zero, Nat.mul_one, Nat.zero_add]

/-- Scanning what was written returns it. -/
theorem scan_vlq : ∀ (n : Nat) (v : Nat) (rest : Bytes), v < 128 ^ n → 0 < n →
    scan n (vlq v ++ rest) = some (vlq v, rest)
  | 0, _, _, _, h => absurd h (by omega)
  | n + 1, v, rest, h, _ => by
    by_cases hv : v < 128
    · rw [vlq_small hv]
      simp only [List.cons_append, List.nil_append, scan]
      rw [if_pos (by rw [u8_ofNat_toNat (by omega)]; exact hv)]
    · have hn : 0 < n := by
        rcases Nat.eq_zero_or_pos n with rfl | h0
        · simp at h; omega
        · exact h0
      rw [vlq_big hv]
      simp only [List.cons_append, scan]
      rw [if_neg (by rw [u8_ofNat_toNat (by omega)]; omega),
        scan_vlq n (v / 128) rest (by rw [pow_succ] at h; omega) hn]

theorem groupsValue_vlq (v : Nat) : groupsValue (vlq v) = v := by
  induction v using Nat.strongRecOn with
  | _ v ih =>
    by_cases hv : v < 128
    · rw [vlq_small hv]
      simp only [groupsValue]
      rw [u8_ofNat_toNat (by omega)]; omega
    · rw [vlq_big hv]
      simp only [groupsValue]
      rw [u8_ofNat_toNat (by omega), ih (v / 128) (by omega)]; omega

theorem gveGet_put (v : UInt64) (rest : Bytes) :
    gveGetU64 (gvePutU64 v ++ rest) = .ok (v, rest) := by
  have hv := v.toNat_lt
  rw [gvePutU64_eq, gveGetU64_eq, scan_vlq 10 _ rest (by norm_num; omega) (by omega)]
  simp only [groupsValue_vlq, UInt64.ofNat_toNat]

theorem vlq_length_le : ∀ (n v : Nat), v < 128 ^ n → 0 < n → (vlq v).length ≤ n
  | 0, _, _, h => absurd h (by omega)
  | n + 1, v, h, _ => by
    by_cases hv : v < 128
    · rw [vlq_small hv]; simp
    · have hn : 0 < n := by
        rcases Nat.eq_zero_or_pos n with rfl | h0
        · simp at h; omega
        · exact h0
      rw [vlq_big hv, List.length_cons]
      have := vlq_length_le n (v / 128) (by rw [pow_succ] at h; omega) hn
      omega

theorem vlq_length_pos (v : Nat) : 0 < (vlq v).length :=
  List.length_pos_iff.2 (vlq_ne_nil v)

/-- Prefix-freeness in cancellation form. -/
theorem vlq_append_inj : ∀ (v w : Nat) (r s : Bytes), vlq v ++ r = vlq w ++ s → v = w ∧ r = s := by
  intro v
  induction v using Nat.strongRecOn with
  | _ v ih =>
    intro w r s h
    by_cases hv : v < 128 <;> by_cases hw : w < 128
    · rw [vlq_small hv, vlq_small hw] at h
      simp only [List.cons_append, List.nil_append, List.cons.injEq] at h
      have := congrArg UInt8.toNat h.1
      rw [u8_ofNat_toNat (by omega), u8_ofNat_toNat (by omega)] at this
      exact ⟨this, h.2⟩
    · rw [vlq_small hv, vlq_big hw] at h
      simp only [List.cons_append, List.nil_append, List.cons.injEq] at h
      have := congrArg UInt8.toNat h.1
      rw [u8_ofNat_toNat (by omega), u8_ofNat_toNat (by omega)] at this
      omega
    · rw [vlq_big hv, vlq_small hw] at h
      simp only [List.cons_append, List.nil_append, List.cons.injEq] at h
      have := congrArg UInt8.toNat h.1
      rw [u8_ofNat_toNat (by omega), u8_ofNat_toNat (by omega)] at this
      omega
    · rw [vlq_big hv, vlq_big hw] at h
      simp only [List.cons_append, List.cons.injEq] at h
      have h1 := congrArg UInt8.toNat h.1
      rw [u8_ofNat_toNat (by omega), u8_ofNat_toNat (by omega)] at h1
      have := ih (v / 128) (by omega) (w / 128) r s h.2
      refine ⟨by omega, this.2⟩

end Ergo
