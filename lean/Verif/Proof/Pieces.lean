import Verif.Spec.Tx
import Verif.Proof.Bytes
import Verif.Proof.Gve
import Verif.Model.Box
import Mathlib.Tactic.Ring
/-!
# Pieces of command data, and the reads that consume them
-/
namespace Ergo
open Spec

theorem pieces_nil (n : Nat) : pieces n [] = [] := by
  rw [pieces]; simp

theorem pieces_append {n : Nat} {a : Bytes} (r : Bytes) (h : a.length = n) (hn : 0 < n) :
    pieces n (a ++ r) = a :: pieces n r := by
  rw [pieces]
  have ha : a ≠ [] := by intro e; subst e; simp at h; omega
  rw [dif_neg (by simp [ha]; omega)]
  congr 1
  · rw [← h]; simp
  · rw [← h]; simp

theorem be_ofNat64 {b : Bytes} (h : b.length = 8) : (UInt64.ofNat (be b)).toNat = be b := by
  have := be_lt b
  rw [h] at this
  rw [UInt64.toNat_ofNat']
  exact Nat.mod_eq_of_lt (by simpa using this)

theorem ofNat_be_write64 (v : UInt64) : UInt64.ofNat (be (writeU64be v)) = v := by
  rw [be_writeU64]; simp

theorem length_writeU64 (v : UInt64) : (writeU64be v).length = 8 := rfl
theorem length_writeU32 (v : UInt32) : (writeU32be v).length = 4 := rfl
theorem length_writeU16 (v : UInt16) : (writeU16be v).length = 2 := rfl

/-- The reader of tables with identifiers: every successful loop consumes whole pieces. -/
theorem pieces_induction {n : Nat} (hn : 0 < n) {P : Bytes → Prop} (h0 : P [])
    (h1 : ∀ a r : Bytes, a.length = n → P r → P (a ++ r)) :
    ∀ k : Nat, ∀ b : Bytes, b.length = k * n → P b
  | 0, b, h => by
    have : b = [] := by simpa using h
    subst this; exact h0
  | k + 1, b, h => by
    have hle : n ≤ b.length := by rw [h, Nat.succ_mul]; omega
    have e : b = b.take n ++ b.drop n := by simp
    rw [e]
    refine h1 _ _ (by simp; omega) (pieces_induction hn h0 h1 k _ ?_)
    simp only [List.length_drop, h]
    have : (k + 1) * n = k * n + n := by ring
    omega

theorem pieces_length {n : Nat} (hn : 0 < n) (k : Nat) (b : Bytes) (h : b.length = k * n) :
    (pieces n b).length = k := by
  induction k generalizing b with
  | zero =>
    have : b = [] := by simpa using h
    subst this; simp [pieces_nil]
  | succ k ih =>
    have hle : n ≤ b.length := by rw [h, Nat.succ_mul]; omega
    have e : b = b.take n ++ b.drop n := by simp
    rw [e, pieces_append _ (by simp; omega) hn]
    simp only [List.length_cons]
    rw [ih]
    simp only [List.length_drop, h]
    have : (k + 1) * n = k * n + n := by ring
    omega

theorem pieces_flatten (n : Nat) (hn : 0 < n) (b : Bytes) : (pieces n b).flatten = b := by
  induction hk : b.length using Nat.strongRecOn generalizing b with
  | _ k ih =>
    rw [pieces]
    split
    · rename_i h
      rcases h with h | h
      · omega
      · simp [h]
    · rename_i h
      have hb : b ≠ [] := fun e => h (.inr e)
      have : 0 < b.length := List.length_pos_iff.2 hb
      simp only [List.flatten_cons]
      rw [ih (b.drop n).length (by simp; omega) _ rfl]
      simp

theorem pieces_app {n : Nat} (hn : 0 < n) (k : Nat) (a b : Bytes) (h : a.length = k * n) :
    pieces n (a ++ b) = pieces n a ++ pieces n b := by
  induction k generalizing a with
  | zero =>
    have : a = [] := by simpa using h
    subst this; simp [pieces_nil]
  | succ k ih =>
    have hle : n ≤ a.length := by rw [h, Nat.succ_mul]; omega
    have e : a = a.take n ++ a.drop n := by simp
    have hd : (a.drop n).length = k * n := by
      simp only [List.length_drop, h]
      have : (k + 1) * n = k * n + n := by ring
      omega
    have ht : (a.take n).length = n := by simp; omega
    have e1 : pieces n a = a.take n :: pieces n (a.drop n) := by
      conv_lhs => rw [e]
      exact pieces_append _ ht hn
    have e2 : pieces n (a ++ b) = a.take n :: pieces n (a.drop n ++ b) := by
      conv_lhs => rw [e, List.append_assoc]
      exact pieces_append _ ht hn
    rw [e1, e2, ih _ hd]; rfl

theorem u8_sub_ofNat (a : UInt8) {k : Nat} (h : k ≤ a.toNat) :
    (a - UInt8.ofNat k).toNat = a.toNat - k := by
  have hlt := a.toNat_lt
  have hk : (UInt8.ofNat k).toNat = k := by
    rw [UInt8.toNat_ofNat']; exact Nat.mod_eq_of_lt (by omega)
  rw [UInt8.toNat_sub_of_le _ _ (by rw [UInt8.le_iff_toNat_le, hk]; exact h), hk]

theorem u16_sub_ofNat (a : UInt16) {k : Nat} (h : k ≤ a.toNat) :
    (a - UInt16.ofNat k).toNat = a.toNat - k := by
  have hlt := a.toNat_lt
  have hk : (UInt16.ofNat k).toNat = k := by
    rw [UInt16.toNat_ofNat']; exact Nat.mod_eq_of_lt (by omega)
  rw [UInt16.toNat_sub_of_le _ _ (by rw [UInt16.le_iff_toNat_le, hk]; exact h), hk]

theorem u32_sub_ofNat (a : UInt32) {k : Nat} (h : k ≤ a.toNat) :
    (a - UInt32.ofNat k).toNat = a.toNat - k := by
  have hlt := a.toNat_lt
  have hk : (UInt32.ofNat k).toNat = k := by
    rw [UInt32.toNat_ofNat']; exact Nat.mod_eq_of_lt (by omega)
  rw [UInt32.toNat_sub_of_le _ _ (by rw [UInt32.le_iff_toNat_le, hk]; exact h), hk]

theorem u8_ne_zero {a : UInt8} : a ≠ 0 ↔ 0 < a.toNat := by
  rw [ne_eq, ← UInt8.toNat_inj, UInt8.toNat_zero]; omega
theorem u16_ne_zero {a : UInt16} : a ≠ 0 ↔ 0 < a.toNat := by
  rw [ne_eq, ← UInt16.toNat_inj, UInt16.toNat_zero]; omega
theorem u32_ne_zero {a : UInt32} : a ≠ 0 ↔ 0 < a.toNat := by
  rw [ne_eq, ← UInt32.toNat_inj, UInt32.toNat_zero]; omega
theorem u8_eq_zero {a : UInt8} : a = 0 ↔ a.toNat = 0 := by
  rw [← UInt8.toNat_inj, UInt8.toNat_zero]
theorem u16_eq_zero {a : UInt16} : a = 0 ↔ a.toNat = 0 := by
  rw [← UInt16.toNat_inj, UInt16.toNat_zero]
theorem u32_eq_zero {a : UInt32} : a = 0 ↔ a.toNat = 0 := by
  rw [← UInt32.toNat_inj, UInt32.toNat_zero]

end Ergo
