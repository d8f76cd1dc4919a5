import Mathlib.Tactic.NormNum
/-!
Conversions between `Int64` and `UInt64` as integers.
-/
namespace Ergo

theorem i64_toU (l : Int64) :
    ((l.toUInt64.toNat : Nat) : Int) = if l.toInt < 0 then l.toInt + 2 ^ 64 else l.toInt := by
  have h1 : l.toUInt64.toNat = l.toBitVec.toNat := rfl
  have h2 : l.toInt = l.toBitVec.toInt := rfl
  rw [h1, h2, BitVec.toInt_eq_toNat_cond]
  have := l.toBitVec.isLt
  split <;> split <;> omega

theorem u64_toI (v : UInt64) :
    v.toInt64.toInt = if v.toNat < 2 ^ 63 then (v.toNat : Int) else (v.toNat : Int) - 2 ^ 64 := by
  have h1 : v.toNat = v.toInt64.toBitVec.toNat := rfl
  have h2 : v.toInt64.toInt = v.toInt64.toBitVec.toInt := rfl
  rw [h1, h2, BitVec.toInt_eq_toNat_cond]
  have := v.toInt64.toBitVec.isLt
  split <;> split <;> omega

theorem i64_neg_toU (l : Int64) (h : l < 0) : ((-l).toUInt64.toNat : Int) = - l.toInt := by
  have h0 : l.toInt < 0 := by rwa [Int64.lt_iff_toInt_lt] at h
  have h1 : (-l).toUInt64 = - l.toUInt64 := by
    apply UInt64.toBitVec_inj.1; rfl
  rw [h1]
  have h2 := i64_toU l
  rw [if_pos h0] at h2
  have h3 := Int64.le_toInt l
  have h4 := UInt64.toNat_neg l.toUInt64
  have h5 : (2 : Int) ^ 63 = 9223372036854775808 := by norm_num
  have h6 : UInt64.size = 18446744073709551616 := rfl
  rw [h4]
  simp only [h5, h6] at *
  omega

end Ergo
