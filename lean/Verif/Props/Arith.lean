import Verif.Model.SafeInt
import Verif.Proof.I64
/-!
# C05: checked 64-bit arithmetic is exact or refused

Stated over mathematical integers.
-/
namespace Ergo

/-- C05: unsigned addition succeeds exactly when the sum is below `2^64`, and is then exact. -/
theorem C05_add_u64 (l r : UInt64) :
    (checkedAddU64 l r).map UInt64.toNat =
      if l.toNat + r.toNat < 2 ^ 64 then some (l.toNat + r.toNat) else none := by
  unfold checkedAddU64
  have hl := l.toNat_lt
  have hr := r.toNat_lt
  have h1 : (u64MaxMinus l).toNat = 2 ^ 64 - 1 - l.toNat := by
    unfold u64MaxMinus
    rw [UInt64.toNat_ofNat', Nat.mod_eq_of_lt (by omega)]
    omega
  by_cases h : u64MaxMinus l < r
  · rw [if_pos h]
    rw [UInt64.lt_iff_toNat_lt, h1] at h
    rw [if_neg (by omega)]; rfl
  · rw [if_neg h]
    rw [UInt64.lt_iff_toNat_lt, h1] at h
    rw [if_pos (by omega)]
    simp only [Option.map_some, UInt64.toNat_add]
    rw [Nat.mod_eq_of_lt (by omega)]

example : checkedAddU64 0xFFFFFFFFFFFFFFFE 1 = some 0xFFFFFFFFFFFFFFFF ∧
    checkedAddU64 0xFFFFFFFFFFFFFFFE 2 = none := by decide +kernel

/-- C05: unsigned subtraction succeeds exactly when the difference is not negative. -/
theorem C05_sub_u64 (l r : UInt64) :
    (checkedSubU64 l r).map UInt64.toNat =
      if r.toNat ≤ l.toNat then some (l.toNat - r.toNat) else none := by
  unfold checkedSubU64
  by_cases h : r > l
  · rw [if_pos h]
    rw [gt_iff_lt, UInt64.lt_iff_toNat_lt] at h
    rw [if_neg (by omega)]; rfl
  · rw [if_neg h]
    rw [gt_iff_lt, UInt64.lt_iff_toNat_lt] at h
    rw [if_pos (by omega)]
    simp only [Option.map_some]
    rw [UInt64.toNat_sub_of_le _ _ (by rw [UInt64.le_iff_toNat_le]; omega)]

example : checkedSubU64 5 5 = some 0 ∧ checkedSubU64 5 6 = none := by decide +kernel

/-- C05: signed addition of an unsigned amount succeeds exactly when the sum is at most `2^63 - 1`,
and is then exact.  (For `l = -2^63` the C code negates
`INT64_MIN`; `C47`/`C21` show that this case does not occur.) -/
theorem C05_add_i64 (l : Int64) (r : UInt64) :
    (checkedAddI64 l r).map Int64.toInt =
      if l.toInt + r.toNat < 2 ^ 63 then some (l.toInt + r.toNat) else none := by
  have hr := r.toNat_lt
  have hu := i64_toU l
  have h1 := Int64.le_toInt l
  have h2 := Int64.toInt_lt l
  have hm : i64MaxU.toNat = 9223372036854775807 := rfl
  have h5 : (2 : Int) ^ 63 = 9223372036854775808 := by norm_num
  have h6 : (2 : Int) ^ 64 = 18446744073709551616 := by norm_num
  have h7 : (2 : Nat) ^ 64 = 18446744073709551616 := by norm_num
  have h8 : (2 : Nat) ^ 63 = 9223372036854775808 := by norm_num
  simp only [h5, h6, h7] at *
  unfold checkedAddI64
  by_cases hneg : l < 0
  · rw [if_pos hneg]
    have hn := i64_neg_toU l hneg
    have h0 : l.toInt < 0 := by rwa [Int64.lt_iff_toInt_lt] at hneg
    rw [if_pos h0] at hu
    have hs : (r + l.toUInt64).toNat = (r.toNat + l.toUInt64.toNat) % 18446744073709551616 := by
      rw [UInt64.toNat_add]
    have ht : (l.toUInt64 + r).toNat = (l.toUInt64.toNat + r.toNat) % 18446744073709551616 := by
      rw [UInt64.toNat_add]
    have hi := u64_toI (l.toUInt64 + r)
    rw [ht] at hi
    simp only [h8] at hi
    simp only [ge_iff_le, gt_iff_lt, UInt64.le_iff_toNat_le, UInt64.lt_iff_toNat_lt, hs, hm]
    by_cases hc : (-l).toUInt64.toNat ≤ r.toNat ∧
        9223372036854775807 < (r.toNat + l.toUInt64.toNat) % 18446744073709551616
    · rw [if_pos hc, if_neg (by omega)]; rfl
    · rw [if_neg hc, if_pos (by omega)]
      simp only [Option.map_some, Option.some.injEq]
      rw [hi]; split <;> omega
  · rw [if_neg hneg]
    have h0 : ¬ l.toInt < 0 := by rwa [Int64.lt_iff_toInt_lt] at hneg
    rw [if_neg h0] at hu
    have ht : (l.toUInt64 + r).toNat = (l.toUInt64.toNat + r.toNat) % 18446744073709551616 := by
      rw [UInt64.toNat_add]
    have hi := u64_toI (l.toUInt64 + r)
    rw [ht] at hi
    simp only [h8] at hi
    by_cases hb : r > i64MaxU
    · rw [if_pos (Or.inl hb)]
      rw [gt_iff_lt, UInt64.lt_iff_toNat_lt, hm] at hb
      rw [if_neg (by omega)]; rfl
    · have hb' : r.toNat ≤ 9223372036854775807 := by
        rw [gt_iff_lt, UInt64.lt_iff_toNat_lt, hm] at hb; omega
      have hd : (i64MaxU - r).toNat = 9223372036854775807 - r.toNat := by
        rw [UInt64.toNat_sub_of_le _ _ (by rw [UInt64.le_iff_toNat_le, hm]; omega), hm]
      by_cases hc : i64MaxU - r < l.toUInt64
      · rw [if_pos (Or.inr hc)]
        rw [UInt64.lt_iff_toNat_lt, hd] at hc
        rw [if_neg (by omega)]; rfl
      · rw [if_neg (not_or.2 ⟨hb, hc⟩)]
        rw [UInt64.lt_iff_toNat_lt, hd] at hc
        rw [if_pos (by omega)]
        simp only [Option.map_some, Option.some.injEq]
        rw [hi]; split <;> omega

example : checkedAddI64 (-5) 5 = some 0 ∧ checkedAddI64 9223372036854775806 1 =
    some 9223372036854775807 ∧ checkedAddI64 9223372036854775806 2 = none ∧
    checkedAddI64 (-1) 0xFFFFFFFFFFFFFFFF = none := by decide +kernel

/-- C05: signed subtraction of an unsigned amount, when the difference fits `int64_t`, is exact, and
it is refused exactly when the difference is below `-2^63`. -/
theorem C05_sub_i64 (l : Int64) (r : UInt64) :
    (checkedSubI64 l r).map Int64.toInt =
      if -2 ^ 63 ≤ l.toInt - r.toNat then some (l.toInt - r.toNat) else none := by
  have hr := r.toNat_lt
  have hu := i64_toU l
  have h1 := Int64.le_toInt l
  have h2 := Int64.toInt_lt l
  have hm : i64MaxU.toNat = 9223372036854775807 := rfl
  have hm1 : (i64MaxU + 1).toNat = 9223372036854775808 := rfl
  have h5 : (2 : Int) ^ 63 = 9223372036854775808 := by norm_num
  have h6 : (2 : Int) ^ 64 = 18446744073709551616 := by norm_num
  have h7 : (2 : Nat) ^ 64 = 18446744073709551616 := by norm_num
  have h8 : (2 : Nat) ^ 63 = 9223372036854775808 := by norm_num
  have hs : (r - l.toUInt64).toNat =
      (18446744073709551616 - l.toUInt64.toNat + r.toNat) % 18446744073709551616 := by
    rw [UInt64.toNat_sub]
  have ht : (l.toUInt64 - r).toNat =
      (18446744073709551616 - r.toNat + l.toUInt64.toNat) % 18446744073709551616 := by
    rw [UInt64.toNat_sub]
  have hi := u64_toI (l.toUInt64 - r)
  rw [ht] at hi
  simp only [h5, h6, h7, h8] at *
  unfold checkedSubI64
  by_cases hneg : l < 0
  · rw [if_pos hneg]
    have h0 : l.toInt < 0 := by rwa [Int64.lt_iff_toInt_lt] at hneg
    rw [if_pos h0] at hu
    simp only [gt_iff_lt, UInt64.lt_iff_toNat_lt, hs, hm, hm1]
    by_cases hc : 9223372036854775807 < r.toNat ∨ 9223372036854775808 <
        (18446744073709551616 - l.toUInt64.toNat + r.toNat) % 18446744073709551616
    · rw [if_pos hc, if_neg (by omega)]; rfl
    · rw [if_neg hc, if_pos (by omega)]
      simp only [Option.map_some, Option.some.injEq]
      rw [hi]; split <;> omega
  · rw [if_neg hneg]
    have h0 : ¬ l.toInt < 0 := by rwa [Int64.lt_iff_toInt_lt] at hneg
    rw [if_neg h0] at hu
    simp only [gt_iff_lt, UInt64.lt_iff_toNat_lt, hs, hm1]
    by_cases hc : l.toUInt64.toNat < r.toNat ∧ 9223372036854775808 <
        (18446744073709551616 - l.toUInt64.toNat + r.toNat) % 18446744073709551616
    · rw [if_pos hc, if_neg (by omega)]; rfl
    · rw [if_neg hc, if_pos (by omega)]
      simp only [Option.map_some, Option.some.injEq]
      rw [hi]; split <;> omega

example : checkedSubI64 0 0x8000000000000000 = some Int64.minValue ∧
    checkedSubI64 0 0x8000000000000001 = none ∧ checkedSubI64 (-5) 3 = some (-8) := by decide +kernel

end Ergo
