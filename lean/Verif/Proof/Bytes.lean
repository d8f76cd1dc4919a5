import Verif.Model.Bytes
import Verif.Spec.Schnorr
import Mathlib.Tactic.Ring
import Mathlib.Tactic.NormNum
/-!
Helper lemmas about big-endian integers and the reader functions.
-/
namespace Ergo
open Spec

theorem or_shift64 (A : UInt64) (b : UInt8) (k : UInt64) (hk : k.toNat ≤ 56)
    (hA : 2 ^ (k.toNat + 8) ∣ A.toNat) :
    (A ||| b.toUInt64 <<< k).toNat = A.toNat + b.toNat * 2 ^ k.toNat := by
  have hb : b.toNat < 2 ^ 8 := b.toNat_lt
  have hs : b.toNat * 2 ^ k.toNat < 2 ^ (k.toNat + 8) := by
    rw [pow_add, Nat.mul_comm]
    exact Nat.mul_lt_mul_of_pos_left hb (by positivity)
  have h64 : 2 ^ (k.toNat + 8) ≤ 2 ^ 64 := Nat.pow_le_pow_right (by omega) (by omega)
  have e : (b.toUInt64 <<< k).toNat = b.toNat * 2 ^ k.toNat := by
    rw [UInt64.toNat_shiftLeft, UInt8.toNat_toUInt64, Nat.mod_eq_of_lt (by omega : k.toNat < 64),
      Nat.shiftLeft_eq, Nat.mod_eq_of_lt (by omega)]
  rw [UInt64.toNat_or, e]
  obtain ⟨a, ha⟩ := hA
  rw [ha, ← Nat.two_pow_add_eq_or_of_lt hs]

theorem or_shift32 (A : UInt32) (b : UInt8) (k : UInt32) (hk : k.toNat ≤ 24)
    (hA : 2 ^ (k.toNat + 8) ∣ A.toNat) :
    (A ||| b.toUInt32 <<< k).toNat = A.toNat + b.toNat * 2 ^ k.toNat := by
  have hb : b.toNat < 2 ^ 8 := b.toNat_lt
  have hs : b.toNat * 2 ^ k.toNat < 2 ^ (k.toNat + 8) := by
    rw [pow_add, Nat.mul_comm]
    exact Nat.mul_lt_mul_of_pos_left hb (by positivity)
  have h64 : 2 ^ (k.toNat + 8) ≤ 2 ^ 32 := Nat.pow_le_pow_right (by omega) (by omega)
  have e : (b.toUInt32 <<< k).toNat = b.toNat * 2 ^ k.toNat := by
    rw [UInt32.toNat_shiftLeft, UInt8.toNat_toUInt32, Nat.mod_eq_of_lt (by omega : k.toNat < 32),
      Nat.shiftLeft_eq, Nat.mod_eq_of_lt (by omega)]
  rw [UInt32.toNat_or, e]
  obtain ⟨a, ha⟩ := hA
  rw [ha, ← Nat.two_pow_add_eq_or_of_lt hs]

theorem or_shift16 (A : UInt16) (b : UInt8) (k : UInt16) (hk : k.toNat ≤ 8)
    (hA : 2 ^ (k.toNat + 8) ∣ A.toNat) :
    (A ||| b.toUInt16 <<< k).toNat = A.toNat + b.toNat * 2 ^ k.toNat := by
  have hb : b.toNat < 2 ^ 8 := b.toNat_lt
  have hs : b.toNat * 2 ^ k.toNat < 2 ^ (k.toNat + 8) := by
    rw [pow_add, Nat.mul_comm]
    exact Nat.mul_lt_mul_of_pos_left hb (by positivity)
  have h64 : 2 ^ (k.toNat + 8) ≤ 2 ^ 16 := Nat.pow_le_pow_right (by omega) (by omega)
  have e : (b.toUInt16 <<< k).toNat = b.toNat * 2 ^ k.toNat := by
    rw [UInt16.toNat_shiftLeft, UInt8.toNat_toUInt16, Nat.mod_eq_of_lt (by omega : k.toNat < 16),
      Nat.shiftLeft_eq, Nat.mod_eq_of_lt (by omega)]
  rw [UInt16.toNat_or, e]
  obtain ⟨a, ha⟩ := hA
  rw [ha, ← Nat.two_pow_add_eq_or_of_lt hs]

theorem readU16be_toNat (b0 b1 : UInt8) : (readU16be b0 b1).toNat = be [b0, b1] := by
  unfold readU16be
  have z : ∀ b : UInt8, (b.toUInt16 <<< 8).toNat = b.toNat * 256 := by
    intro b
    have := or_shift16 0 b 8 (by decide) (by simp)
    simpa using this
  have e1 := or_shift16 (b0.toUInt16 <<< 8) b1 0 (by decide) (by rw [z]; exact ⟨b0.toNat, by simp; ring⟩)
  have s0 : b1.toUInt16 <<< 0 = b1.toUInt16 := by simp
  rw [s0] at e1
  rw [e1, z]
  simp [be]

theorem readU32be_toNat (b0 b1 b2 b3 : UInt8) :
    (readU32be b0 b1 b2 b3).toNat = be [b0, b1, b2, b3] := by
  unfold readU32be
  have e0 : (b0.toUInt32 <<< 24).toNat = b0.toNat * 2 ^ 24 := by
    have := or_shift32 0 b0 24 (by decide) (by simp)
    simpa using this
  have e1 := or_shift32 (b0.toUInt32 <<< 24) b1 16 (by decide)
    (by rw [e0]; exact ⟨b0.toNat, by simp; ring⟩)
  have e2 := or_shift32 (b0.toUInt32 <<< 24 ||| b1.toUInt32 <<< 16) b2 8 (by decide)
    (by rw [e1, e0]; exact ⟨b0.toNat * 2 ^ 8 + b1.toNat, by simp; ring⟩)
  have e3 := or_shift32 (b0.toUInt32 <<< 24 ||| b1.toUInt32 <<< 16 ||| b2.toUInt32 <<< 8) b3 0
    (by decide)
    (by rw [e2, e1, e0]; exact ⟨b0.toNat * 2 ^ 16 + b1.toNat * 2 ^ 8 + b2.toNat, by simp; ring⟩)
  have s0 : b3.toUInt32 <<< 0 = b3.toUInt32 := by simp
  rw [s0] at e3
  rw [e3, e2, e1, e0]
  simp [be]
  ring

theorem readU64be_toNat (b0 b1 b2 b3 b4 b5 b6 b7 : UInt8) :
    (readU64be b0 b1 b2 b3 b4 b5 b6 b7).toNat = be [b0, b1, b2, b3, b4, b5, b6, b7] := by
  unfold readU64be
  have e0 : (b0.toUInt64 <<< 56).toNat = b0.toNat * 2 ^ 56 := by
    have := or_shift64 0 b0 56 (by decide) (by simp)
    simpa using this
  have e1 := or_shift64 _ b1 48 (by decide)
    (by rw [e0]; exact ⟨b0.toNat, by simp; ring⟩)
  have e2 := or_shift64 _ b2 40 (by decide)
    (by rw [e1, e0]; exact ⟨b0.toNat * 2 ^ 8 + b1.toNat, by simp; ring⟩)
  have e3 := or_shift64 _ b3 32 (by decide)
    (by rw [e2, e1, e0]; exact ⟨b0.toNat * 2 ^ 16 + b1.toNat * 2 ^ 8 + b2.toNat, by simp; ring⟩)
  have e4 := or_shift64 _ b4 24 (by decide)
    (by rw [e3, e2, e1, e0]
        exact ⟨b0.toNat * 2 ^ 24 + b1.toNat * 2 ^ 16 + b2.toNat * 2 ^ 8 + b3.toNat, by simp; ring⟩)
  have e5 := or_shift64 _ b5 16 (by decide)
    (by rw [e4, e3, e2, e1, e0]
        exact ⟨b0.toNat * 2 ^ 32 + b1.toNat * 2 ^ 24 + b2.toNat * 2 ^ 16 + b3.toNat * 2 ^ 8 +
          b4.toNat, by simp; ring⟩)
  have e6 := or_shift64 _ b6 8 (by decide)
    (by rw [e5, e4, e3, e2, e1, e0]
        exact ⟨b0.toNat * 2 ^ 40 + b1.toNat * 2 ^ 32 + b2.toNat * 2 ^ 24 + b3.toNat * 2 ^ 16 +
          b4.toNat * 2 ^ 8 + b5.toNat, by simp; ring⟩)
  have e7 := or_shift64 _ b7 0 (by decide)
    (by rw [e6, e5, e4, e3, e2, e1, e0]
        exact ⟨b0.toNat * 2 ^ 48 + b1.toNat * 2 ^ 40 + b2.toNat * 2 ^ 32 + b3.toNat * 2 ^ 24 +
          b4.toNat * 2 ^ 16 + b5.toNat * 2 ^ 8 + b6.toNat, by simp; ring⟩)
  have s0 : b7.toUInt64 <<< 0 = b7.toUInt64 := by simp
  rw [s0] at e7
  rw [e7, e6, e5, e4, e3, e2, e1, e0]
  simp [be]
  ring

theorem be_writeU16 (v : UInt16) : be (writeU16be v) = v.toNat := by
  have h := v.toNat_lt
  simp only [writeU16be, be, UInt16.toNat_toUInt8, UInt16.toNat_shiftRight, List.length_cons,
    List.length_nil]
  have : (8 : UInt16).toNat % 16 = 8 := by decide
  rw [this, Nat.shiftRight_eq_div_pow]
  norm_num
  omega

theorem be_writeU32 (v : UInt32) : be (writeU32be v) = v.toNat := by
  have h := v.toNat_lt
  simp only [writeU32be, be, UInt32.toNat_toUInt8, UInt32.toNat_shiftRight, List.length_cons,
    List.length_nil]
  have h1 : (8 : UInt32).toNat % 32 = 8 := by decide
  have h2 : (16 : UInt32).toNat % 32 = 16 := by decide
  have h3 : (24 : UInt32).toNat % 32 = 24 := by decide
  simp only [h1, h2, h3, Nat.shiftRight_eq_div_pow]
  norm_num
  omega

theorem be_writeU64 (v : UInt64) : be (writeU64be v) = v.toNat := by
  have h := v.toNat_lt
  simp only [writeU64be, be, UInt64.toNat_toUInt8, UInt64.toNat_shiftRight, List.length_cons,
    List.length_nil]
  have h1 : (8 : UInt64).toNat % 64 = 8 := by decide
  have h2 : (16 : UInt64).toNat % 64 = 16 := by decide
  have h3 : (24 : UInt64).toNat % 64 = 24 := by decide
  have h4 : (32 : UInt64).toNat % 64 = 32 := by decide
  have h5 : (40 : UInt64).toNat % 64 = 40 := by decide
  have h6 : (48 : UInt64).toNat % 64 = 48 := by decide
  have h7 : (56 : UInt64).toNat % 64 = 56 := by decide
  simp only [h1, h2, h3, h4, h5, h6, h7, Nat.shiftRight_eq_div_pow]
  norm_num
  omega

theorem bufU64_write (v : UInt64) (r : Bytes) : bufU64 (writeU64be v ++ r) = some (v, r) := by
  simp only [writeU64be, List.cons_append, List.nil_append, bufU64, Option.some.injEq,
    Prod.mk.injEq, and_true]
  rw [← UInt64.toNat_inj, readU64be_toNat]
  exact be_writeU64 v

theorem bufU32_write (v : UInt32) (r : Bytes) : bufU32 (writeU32be v ++ r) = some (v, r) := by
  simp only [writeU32be, List.cons_append, List.nil_append, bufU32, Option.some.injEq,
    Prod.mk.injEq, and_true]
  rw [← UInt32.toNat_inj, readU32be_toNat]
  exact be_writeU32 v

theorem bufU16_write (v : UInt16) (r : Bytes) : bufU16 (writeU16be v ++ r) = some (v, r) := by
  simp only [writeU16be, List.cons_append, List.nil_append, bufU16, Option.some.injEq,
    Prod.mk.injEq, and_true]
  rw [← UInt16.toNat_inj, readU16be_toNat]
  exact be_writeU16 v

theorem bufBytes_append (a r : Bytes) : bufBytes a.length (a ++ r) = some (a, r) := by
  unfold bufBytes
  rw [if_neg (by simp)]
  simp

theorem bufBytes_append' {n : Nat} {a : Bytes} (r : Bytes) (h : a.length = n) :
    bufBytes n (a ++ r) = some (a, r) := by
  rw [← h]; exact bufBytes_append a r

theorem bufBytes_some {n : Nat} {d a r : Bytes} (h : bufBytes n d = some (a, r)) :
    d = a ++ r ∧ a.length = n := by
  unfold bufBytes at h
  split at h
  · simp at h
  · simp only [Option.some.injEq, Prod.mk.injEq] at h
    obtain ⟨rfl, rfl⟩ := h
    exact ⟨(List.take_append_drop n d).symm, by simp; omega⟩

theorem be_lt : ∀ b : Bytes, be b < 256 ^ b.length
  | [] => by simp [be]
  | x :: b => by
    have h1 := be_lt b
    have h3 : x.toNat + 1 ≤ 256 := by have := x.toNat_lt; omega
    have := Nat.mul_le_mul_right (256 ^ b.length) h3
    simp only [be, List.length_cons, pow_succ]
    rw [Nat.add_mul] at this
    omega

theorem be_inj : ∀ {a b : Bytes}, a.length = b.length → be a = be b → a = b
  | [], [], _, _ => rfl
  | [], _ :: _, h, _ => by simp at h
  | _ :: _, [], h, _ => by simp at h
  | x :: a, y :: b, hl, hv => by
    simp only [List.length_cons, Nat.add_right_cancel_iff] at hl
    simp only [be, hl] at hv
    have h1 := be_lt a
    have h2 := be_lt b
    rw [hl] at h1
    have hp : 0 < 256 ^ b.length := by positivity
    have e1 : (x.toNat * 256 ^ b.length + be a) / 256 ^ b.length = x.toNat := by
      rw [Nat.add_comm, Nat.add_mul_div_right _ _ hp, Nat.div_eq_of_lt h1, Nat.zero_add]
    have e2 : (y.toNat * 256 ^ b.length + be b) / 256 ^ b.length = y.toNat := by
      rw [Nat.add_comm, Nat.add_mul_div_right _ _ hp, Nat.div_eq_of_lt h2, Nat.zero_add]
    rw [hv, e2] at e1
    have hxy : x = y := UInt8.toNat_inj.1 e1.symm
    subst hxy
    rw [be_inj hl (by omega)]

/-- Reading a number gives the big-endian value of the bytes read. -/
theorem bufU64_some {d r : Bytes} {v : UInt64} (h : bufU64 d = some (v, r)) :
    d = writeU64be v ++ r := by
  unfold bufU64 at h
  split at h
  · rename_i b0 b1 b2 b3 b4 b5 b6 b7 r'
    simp only [Option.some.injEq, Prod.mk.injEq] at h
    obtain ⟨hv, rfl⟩ := h
    have : writeU64be v = [b0, b1, b2, b3, b4, b5, b6, b7] := by
      apply be_inj (by simp [writeU64be])
      rw [be_writeU64, ← hv, readU64be_toNat]
    rw [this]; rfl
  · simp at h

theorem bufU32_some {d r : Bytes} {v : UInt32} (h : bufU32 d = some (v, r)) :
    d = writeU32be v ++ r := by
  unfold bufU32 at h
  split at h
  · rename_i b0 b1 b2 b3 r'
    simp only [Option.some.injEq, Prod.mk.injEq] at h
    obtain ⟨hv, rfl⟩ := h
    have : writeU32be v = [b0, b1, b2, b3] := by
      apply be_inj (by simp [writeU32be])
      rw [be_writeU32, ← hv, readU32be_toNat]
    rw [this]; rfl
  · simp at h

theorem bufU16_some {d r : Bytes} {v : UInt16} (h : bufU16 d = some (v, r)) :
    d = writeU16be v ++ r := by
  unfold bufU16 at h
  split at h
  · rename_i b0 b1 r'
    simp only [Option.some.injEq, Prod.mk.injEq] at h
    obtain ⟨hv, rfl⟩ := h
    have : writeU16be v = [b0, b1] := by
      apply be_inj (by simp [writeU16be])
      rw [be_writeU16, ← hv, readU16be_toNat]
    rw [this]; rfl
  · simp at h

theorem bufU8_some {d r : Bytes} {v : UInt8} (h : bufU8 d = some (v, r)) : d = v :: r := by
  unfold bufU8 at h
  split at h
  · simp only [Option.some.injEq, Prod.mk.injEq] at h
    obtain ⟨rfl, rfl⟩ := h; rfl
  · simp at h

end Ergo
