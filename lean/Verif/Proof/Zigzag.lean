import Verif.Model.Gve
import Mathlib.Tactic.NormNum
/-!
Helper lemmas about zigzag encoding.
-/
namespace Ergo

/-- Zigzag on bit vectors. -/
def zzEnc {w : Nat} (x : BitVec w) : BitVec w := (x <<< 1) ^^^ x.sshiftRight (w - 1)
def zzDec {w : Nat} (x : BitVec w) : BitVec w := (x >>> 1) ^^^ -(x &&& 1#w)

theorem neg_and_one {w : Nat} (x : BitVec w) :
    -(x &&& 1#w) = if x.getLsbD 0 then BitVec.allOnes w else 0#w := by
  rw [BitVec.and_one_eq_setWidth_ofBool_getLsbD]
  cases x.getLsbD 0
  · simp
  · have h : BitVec.setWidth w (BitVec.ofBool true) = 1#w := by
      apply BitVec.eq_of_toNat_eq; simp
    rw [h]; simp [BitVec.neg_one_eq_allOnes]

theorem zzEnc_bit0 {w : Nat} (x : BitVec w) (hw : 0 < w) : (zzEnc x).getLsbD 0 = x.msb := by
  unfold zzEnc
  simp only [BitVec.getLsbD_xor, BitVec.getLsbD_shiftLeft, BitVec.getLsbD_sshiftRight]
  have : w ≠ 0 := by omega
  simp [hw, BitVec.msb_eq_getLsbD_last]
  intro _; exact this

theorem zzEnc_bit {w : Nat} (x : BitVec w) (i : Nat) (hi : i + 1 < w) :
    (zzEnc x).getLsbD (i + 1) = (x.getLsbD i ^^ x.msb) := by
  unfold zzEnc
  simp only [BitVec.getLsbD_xor, BitVec.getLsbD_shiftLeft, BitVec.getLsbD_sshiftRight]
  have h1 : ¬ w ≤ i + 1 := by omega
  have h2 : ¬ w - 1 + (i + 1) < w := by omega
  simp [hi, h1, h2]

theorem zzDec_zzEnc {w : Nat} (x : BitVec w) (hw : 0 < w) : zzDec (zzEnc x) = x := by
  unfold zzDec
  rw [neg_and_one, zzEnc_bit0 x hw]
  apply BitVec.eq_of_getLsbD_eq
  intro i hi
  simp only [BitVec.getLsbD_xor, BitVec.getLsbD_ushiftRight]
  by_cases h : i + 1 < w
  · rw [Nat.add_comm 1 i, zzEnc_bit x i h]
    cases x.msb <;> simp [hi]
  · have e : i = w - 1 := by omega
    have hge : w ≤ 1 + i := by omega
    rw [BitVec.getLsbD_of_ge _ _ hge]
    subst e
    rw [BitVec.msb_eq_getLsbD_last]
    cases h' : x.getLsbD (w - 1) <;> simp [hw]

theorem zz64 (v : Int64) : zigzagDecodeI64 (zigzagEncodeI64 v) = v := by
  have h := zzDec_zzEnc v.toBitVec (by omega)
  apply Int64.toBitVec_inj.1
  rw [← h]
  rfl

theorem zz32_toBitVec (v : UInt64) : (zigzagDecodeI32 v).toBitVec = zzDec v.toUInt32.toBitVec := rfl

theorem zz32_low (v : Int32) : (zigzagEncodeI32 v).toUInt32.toBitVec = zzEnc v.toBitVec := by
  have h1 : (zigzagEncodeI32 v).toUInt32.toBitVec =
      ((zzEnc v.toBitVec).signExtend 64).setWidth 32 := rfl
  rw [h1]
  apply BitVec.eq_of_getLsbD_eq
  intro i hi
  simp only [BitVec.getLsbD_setWidth, BitVec.getLsbD_signExtend]
  have : i < 64 := by omega
  simp [hi, this]

theorem zz32 (v : Int32) : zigzagDecodeI32 (zigzagEncodeI32 v) = v := by
  apply Int32.toBitVec_inj.1
  rw [zz32_toBitVec, zz32_low, zzDec_zzEnc _ (by omega)]

theorem zzEnc_toNat (x : BitVec 32) :
    (zzEnc x).toNat = if x.toNat < 2 ^ 31 then 2 * x.toNat else 2 ^ 33 - 1 - 2 * x.toNat := by
  have hx := x.isLt
  have hs : (x <<< 1).toNat = 2 * x.toNat % 2 ^ 32 := by
    rw [BitVec.toNat_shiftLeft, Nat.shiftLeft_eq]; congr 1; omega
  unfold zzEnc
  by_cases h : x.toNat < 2 ^ 31
  · rw [if_pos h]
    have hm : x.msb = false := by
      rw [BitVec.msb_eq_decide]; simp; omega
    have : x.sshiftRight 31 = 0#32 := by
      apply BitVec.eq_of_getLsbD_eq
      intro i hi
      rw [BitVec.getLsbD_sshiftRight]
      have : x.getLsbD 31 = false := by rw [← hm, BitVec.msb_eq_getLsbD_last]
      have hi' : ¬ 32 ≤ i := by omega
      rcases Nat.eq_zero_or_pos i with rfl | h0
      · simp only [Nat.add_zero, this]; rfl
      · have h2 : ¬ 31 + i < 32 := by omega
        simp only [h2, hm, hi', if_false, BitVec.getLsbD_zero]; rfl
    show (x <<< 1 ^^^ x.sshiftRight 31).toNat = _
    rw [this, BitVec.xor_zero, hs]; omega
  · rw [if_neg h]
    have hm : x.msb = true := by
      rw [BitVec.msb_eq_decide]; simp; omega
    have : x.sshiftRight 31 = BitVec.allOnes 32 := by
      apply BitVec.eq_of_getLsbD_eq
      intro i hi
      rw [BitVec.getLsbD_sshiftRight]
      have : x.getLsbD 31 = true := by rw [← hm, BitVec.msb_eq_getLsbD_last]
      have hi' : ¬ 32 ≤ i := by omega
      rw [BitVec.getLsbD_allOnes]
      rcases Nat.eq_zero_or_pos i with rfl | h0
      · simp only [Nat.add_zero, this]; rfl
      · have h2 : ¬ 31 + i < 32 := by omega
        simp only [h2, hm, hi', hi, if_false, decide_true]; rfl
    show (x <<< 1 ^^^ x.sshiftRight 31).toNat = _
    rw [this, BitVec.xor_allOnes, BitVec.toNat_not, hs]; omega

theorem zz32_toNat (v : Int32) :
    (zigzagEncodeI32 v).toNat = (zzEnc v.toBitVec).toNat +
      if (zzEnc v.toBitVec).toNat < 2 ^ 31 then 0 else 2 ^ 64 - 2 ^ 32 := by
  have h1 : (zigzagEncodeI32 v).toNat = ((zzEnc v.toBitVec).signExtend 64).toNat := rfl
  have hl := (zzEnc v.toBitVec).isLt
  rw [h1, BitVec.toNat_signExtend, BitVec.msb_eq_decide, BitVec.toNat_setWidth]
  by_cases h : (zzEnc v.toBitVec).toNat < 2 ^ 31
  · have : ¬ 2 ^ (32 - 1) ≤ (zzEnc v.toBitVec).toNat := by omega
    simp only [this, h, if_true, decide_false]
    simp
    omega
  · have : 2 ^ (32 - 1) ≤ (zzEnc v.toBitVec).toNat := by omega
    simp only [this, h, if_false, decide_true]
    simp
    omega

theorem i32_toBitVec (v : Int32) :
    v.toInt = if v.toBitVec.toNat < 2 ^ 31 then (v.toBitVec.toNat : Int)
      else (v.toBitVec.toNat : Int) - 2 ^ 32 := by
  have h2 : v.toInt = v.toBitVec.toInt := rfl
  rw [h2, BitVec.toInt_eq_toNat_cond]
  split <;> split <;> omega

/-- The encoded value fits 32 bits exactly for `-2^30 ≤ v < 2^30`. -/
theorem zz32_fits (v : Int32) :
    (zigzagEncodeI32 v).toNat ≤ 0xFFFFFFFF ↔ (-2 ^ 30 ≤ v.toInt ∧ v.toInt < 2 ^ 30) := by
  have h5 : (2 : Int) ^ 30 = 1073741824 := by norm_num
  have hv := v.toBitVec.isLt
  rw [zz32_toNat, zzEnc_toNat, i32_toBitVec, h5]
  split <;> split <;> omega

end Ergo
