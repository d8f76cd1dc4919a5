import Verif.Model.Varint
import Verif.Spec.Varint
import Verif.Proof.RwBuffer
import Verif.Proof.WalletBox
/-!
# Variable length integers of the SDK (C94)
-/
namespace Ergo
open Spec

theorem le_cons (b : UInt8) (bs : Bytes) : intValue .le (b :: bs) = b.toNat + 256 * intValue .le bs := by
  simp only [intValue, List.reverse_cons, be_append_one]
  omega

theorem leBytes_succ (n v : Nat) : intBytes .le (n + 1) v = UInt8.ofNat v :: intBytes .le n (v / 256) := by
  simp only [intBytes, List.range_succ_eq_map, List.map_cons, List.map_map, pow_zero, Nat.div_one]
  congr 1
  apply List.map_congr_left
  intro k _
  simp only [Function.comp]
  rw [Nat.succ_eq_add_one, pow_succ, Nat.mul_comm, Nat.div_div_eq_div_mul]

theorem le_leBytes (n v : Nat) : intValue .le (intBytes .le n v) = v % 256 ^ n := by
  induction n generalizing v with
  | zero => simp [intBytes, intValue, be, Nat.mod_one]
  | succ n ih =>
    rw [leBytes_succ, le_cons, ih, pow_succ, Nat.mul_comm (256 ^ n) 256, Nat.mod_mul,
      UInt8.toNat_ofNat']

theorem leBytes_le (bs : Bytes) : intBytes .le bs.length (intValue .le bs) = bs := by
  induction bs with
  | nil => rfl
  | cons b bs ih =>
    have hb := b.toNat_lt
    rw [List.length_cons, leBytes_succ, le_cons]
    congr 1
    · rw [← UInt8.toNat_inj, UInt8.toNat_ofNat']
      omega
    · rw [show (b.toNat + 256 * intValue .le bs) / 256 = intValue .le bs by omega, ih]

theorem le_lt (bs : Bytes) : intValue .le bs < 256 ^ bs.length := by
  simpa [intValue] using be_lt bs.reverse

/-- The bytes that a write produces. -/
theorem varintBytes_length (v : Nat) :
    (varintBytes v).length = if v ≤ 252 then 1 else if v < 2 ^ 16 then 3 else if v < 2 ^ 32 then 5 else 9 := by
  unfold varintBytes
  split_ifs <;> simp [intBytes_length]

/-- What is written is read back, whatever follows. -/
theorem varintOf_bytes {v : Nat} (hv : v < 2 ^ 64) (rest : Bytes) :
    varintOf (varintBytes v ++ rest) = some (v, rest) := by
  unfold varintBytes
  split_ifs with h1 h2 h3
  · have hn : varintMore (UInt8.ofNat v) = 0 := by
      unfold varintMore
      have e : (UInt8.ofNat v).toNat = v := by rw [UInt8.toNat_ofNat']; omega
      have ne : ∀ k : UInt8, 252 < k.toNat → UInt8.ofNat v ≠ k := by
        intro k hk h
        rw [h] at e
        omega
      rw [if_neg (ne _ (by decide)), if_neg (ne _ (by decide)), if_neg (ne _ (by decide))]
    simp only [List.cons_append, List.nil_append, varintOf, hn, if_true, List.drop_zero, Nat.not_lt_zero,
      if_false]
    rw [UInt8.toNat_ofNat', Nat.mod_eq_of_lt (by omega)]
  all_goals
    simp only [List.cons_append, varintOf]
  · rw [show varintMore 253 = 2 from rfl, if_neg (by simp [intBytes_length]; try omega), if_neg (by decide),
      List.take_append_of_le_length (by simp [intBytes_length]),
      List.take_of_length_le (by simp [intBytes_length]), le_leBytes, Nat.mod_eq_of_lt (by omega),
      List.drop_left' (by simp [intBytes_length])]
  · rw [show varintMore 254 = 4 from rfl, if_neg (by simp [intBytes_length]; try omega), if_neg (by decide),
      List.take_append_of_le_length (by simp [intBytes_length]),
      List.take_of_length_le (by simp [intBytes_length]), le_leBytes, Nat.mod_eq_of_lt (by omega),
      List.drop_left' (by simp [intBytes_length])]
  · rw [show varintMore 255 = 8 from rfl, if_neg (by simp [intBytes_length]; try omega), if_neg (by decide),
      List.take_append_of_le_length (by simp [intBytes_length]),
      List.take_of_length_le (by simp [intBytes_length]), le_leBytes, Nat.mod_eq_of_lt (by omega),
      List.drop_left' (by simp [intBytes_length])]

theorem span_take {a n k : Nat} (h : k ≤ n) : (span a n).take k = span a k := by
  obtain ⟨j, rfl⟩ : ∃ j, n = k + j := ⟨n - k, by omega⟩
  rw [span_add, List.take_left' (span_length _ _)]

theorem span_drop {a n k : Nat} (h : k ≤ n) : (span a n).drop k = span (a + k) (n - k) := by
  obtain ⟨j, rfl⟩ : ∃ j, n = k + j := ⟨n - k, by omega⟩
  rw [span_add, List.drop_left' (span_length _ _), Nat.add_sub_cancel_left]

/-- The function on memory finds what is at the beginning of the bytes, and reads only among them. -/
theorem varintRead_spec (p : Nat) (len : UInt32) (m : Mem) :
    ∃ rd, (∀ a ∈ rd, p ≤ a ∧ a < p + len.toNat) ∧
      varintRead p len m =
        ((varintOf ((span p len.toNat).map m.byte)).map
          (fun r => (UInt64.ofNat r.1, UInt32.ofNat (len.toNat - r.2.length))), m.touch rd) := by
  unfold varintRead
  have hlt : ∀ k : UInt32, (len < k ↔ len.toNat < k.toNat) := fun k => UInt32.lt_iff_toNat_lt
  simp only [hlt, show (1 : UInt32).toNat = 1 from rfl, show (3 : UInt32).toNat = 3 from rfl,
    show (5 : UInt32).toNat = 5 from rfl, show (9 : UInt32).toNat = 9 from rfl]
  by_cases h1 : len.toNat < 1
  · refine ⟨[], by simp, ?_⟩
    rw [if_pos h1, show len.toNat = 0 by omega]
    simp [span, varintOf, touch_nil]
  obtain ⟨n, hn⟩ : ∃ n, len.toNat = n + 1 := ⟨len.toNat - 1, by omega⟩
  have hlen := len.toNat_lt
  rw [if_neg h1, hn, span_succ]
  simp only [List.map_cons, varintOf, List.length_map, span_length]
  simp only [Nat.add_zero]
  have ei : ∀ k, k ≤ 8 → indexed p 1 k = span (p + 1) k := fun k hk =>
    indexed_eq (i := 1) (by rw [show (1 : UInt32).toNat = 1 from rfl]; omega)
  have tk : ∀ w, w ≤ n → ((span (p + 1) n).map m.byte).take w = (span (p + 1) w).map m.byte := by
    intro w hw
    rw [← List.map_take, span_take hw]
  have rest : ∀ w, w ≤ n → n + 1 - (((span (p + 1) n).map m.byte).drop w).length = w + 1 := by
    intro w hw
    rw [List.length_drop, List.length_map, span_length]
    omega
  by_cases c1 : m.byte p = 0xFD
  · rw [if_pos c1, c1]
    simp only [show varintMore 253 = 2 from rfl]
    by_cases hl : n + 1 < 3
    · refine ⟨[p], by simp, ?_⟩
      rw [if_pos hl, if_pos (show n < 2 by omega)]
      rfl
    · refine ⟨[p] ++ span (p + 1) 2, ?_, ?_⟩
      · intro a ha
        rw [List.mem_append, List.mem_singleton, mem_span] at ha
        omega
      · rw [if_neg hl, if_neg (show ¬ n < 2 by omega), ei 2 (by omega), touch_touch]
        simp only [Option.map_some, tk 2 (by omega), rest 2 (by omega)]
        have := value16 .le (m.byte (p + 1)) (m.byte (p + 2))
        simp only at this
        rw [this]
        congr 3
        rw [← UInt64.toNat_inj, UInt16.toNat_toUInt64, UInt16.toNat_ofNat', UInt64.toNat_ofNat',
          if_neg (by decide)]
        show _ = intValue .le [m.byte (p + 1), m.byte (p + 2)] % 2 ^ 64
        have hv := le_lt [m.byte (p + 1), m.byte (p + 2)]
        simp only [List.length_cons, List.length_nil] at hv
        omega
  by_cases c2 : m.byte p = 0xFE
  · rw [if_neg c1, if_pos c2, c2]
    simp only [show varintMore 254 = 4 from rfl]
    by_cases hl : n + 1 < 5
    · refine ⟨[p], by simp, ?_⟩
      rw [if_pos hl, if_pos (show n < 4 by omega)]
      rfl
    · refine ⟨[p] ++ span (p + 1) 4, ?_, ?_⟩
      · intro a ha
        rw [List.mem_append, List.mem_singleton, mem_span] at ha
        omega
      · rw [if_neg hl, if_neg (show ¬ n < 4 by omega), ei 4 (by omega), touch_touch]
        simp only [Option.map_some, tk 4 (by omega), rest 4 (by omega)]
        have := value32 .le (m.byte (p + 1)) (m.byte (p + 2)) (m.byte (p + 3)) (m.byte (p + 4))
        simp only at this
        rw [this]
        congr 3
        rw [← UInt64.toNat_inj, UInt32.toNat_toUInt64, UInt32.toNat_ofNat', UInt64.toNat_ofNat',
          if_neg (by decide)]
        show _ = intValue .le [m.byte (p + 1), m.byte (p + 2), m.byte (p + 3), m.byte (p + 4)] % 2 ^ 64
        have hv := le_lt [m.byte (p + 1), m.byte (p + 2), m.byte (p + 3), m.byte (p + 4)]
        simp only [List.length_cons, List.length_nil] at hv
        omega
  by_cases c3 : m.byte p = 0xFF
  · rw [if_neg c1, if_neg c2, if_pos c3, c3]
    simp only [show varintMore 255 = 8 from rfl]
    by_cases hl : n + 1 < 9
    · refine ⟨[p], by simp, ?_⟩
      rw [if_pos hl, if_pos (show n < 8 by omega)]
      rfl
    · refine ⟨[p] ++ span (p + 1) 8, ?_, ?_⟩
      · intro a ha
        rw [List.mem_append, List.mem_singleton, mem_span] at ha
        omega
      · rw [if_neg hl, if_neg (show ¬ n < 8 by omega), ei 8 (by omega), touch_touch]
        simp only [Option.map_some, tk 8 (by omega), rest 8 (by omega)]
        have := value64 .le (m.byte (p + 1)) (m.byte (p + 2)) (m.byte (p + 3)) (m.byte (p + 4))
          (m.byte (p + 5)) (m.byte (p + 6)) (m.byte (p + 7)) (m.byte (p + 8))
        simp only at this
        rw [this]
        rfl
  · have h0 : varintMore (m.byte p) = 0 := by
      unfold varintMore
      rw [if_neg c1, if_neg c2, if_neg c3]
    refine ⟨[p], by simp, ?_⟩
    rw [if_neg c1, if_neg c2, if_neg c3, h0]
    simp only [Nat.not_lt_zero, if_false, if_true, Option.map_some, rest 0 (by omega)]
    congr 3
    rw [← UInt64.toNat_inj, UInt8.toNat_toUInt64, UInt64.toNat_ofNat']
    have := (m.byte p).toNat_lt
    omega

/-- One byte, then others. -/
theorem stores_two (m : Mem) (p : Nat) (off : UInt32) (b : UInt8) (bs : Bytes)
    (h : off.toNat + 1 + bs.length ≤ 2 ^ 32) (hb : 0 < bs.length) :
    (m.stores (indexed p off 1) [b]).stores (indexed p (off + 1) bs.length) bs =
      m.stores (span (p + off.toNat) (b :: bs).length) (b :: bs) := by
  have e : (off + 1).toNat = off.toNat + 1 := by
    rw [UInt32.toNat_add, show (1 : UInt32).toNat = 1 from rfl]; omega
  rw [indexed_eq (by omega), indexed_eq (by omega), e, List.length_cons, span_succ _ bs.length,
    ← Nat.add_assoc]
  rfl

/-- What is written. -/
theorem varintWrite_spec (p : Nat) (off : UInt32) (v : UInt64) (m : Mem)
    (h : off.toNat + (varintBytes v.toNat).length ≤ 2 ^ 32) :
    varintWrite p off v m = (some (UInt8.ofNat (varintBytes v.toNat).length),
      m.stores (span (p + off.toNat) (varintBytes v.toNat).length) (varintBytes v.toNat)) := by
  have hle : ∀ k : UInt64, (v ≤ k ↔ v.toNat ≤ k.toNat) := fun k => UInt64.le_iff_toNat_le
  unfold varintWrite varintSize
  simp only [hle, show (0xFC : UInt64).toNat = 252 from rfl, show (0xFFFF : UInt64).toNat = 65535 from rfl,
    show (0xFFFFFFFF : UInt64).toNat = 4294967295 from rfl]
  unfold varintBytes at h ⊢
  by_cases h1 : v.toNat ≤ 252
  · simp only [if_pos h1, if_true] at h ⊢
    rw [indexed_eq (by simpa using h)]
    have e : v.toUInt8 = UInt8.ofNat v.toNat := by
      rw [← UInt8.toNat_inj, UInt64.toNat_toUInt8, UInt8.toNat_ofNat']
    rw [e]; rfl
  by_cases h2 : v.toNat < 2 ^ 16
  · simp only [if_neg h1, if_pos h2, if_pos (show v.toNat ≤ 65535 by omega)] at h ⊢
    have e : v.toUInt16.toNat = v.toNat := by rw [UInt64.toNat_toUInt16]; omega
    have e' := write16_eq v.toUInt16 .le
    simp only [e] at e'
    rw [if_neg (by decide), if_pos trivial, e']
    have := stores_two m p off 253 (intBytes .le 2 v.toNat)
      (by simp only [List.length_cons] at h; omega) (by simp [intBytes_length])
    rw [intBytes_length] at this
    rw [this]
    simp [intBytes_length]
  by_cases h3 : v.toNat < 2 ^ 32
  · simp only [if_neg h1, if_neg h2, if_pos h3, if_neg (show ¬ v.toNat ≤ 65535 by omega),
      if_pos (show v.toNat ≤ 4294967295 by omega)] at h ⊢
    have e : v.toUInt32.toNat = v.toNat := by rw [UInt64.toNat_toUInt32]; omega
    have e' := write32_eq v.toUInt32 .le
    simp only [e] at e'
    rw [if_neg (by decide), if_neg (by decide), if_pos trivial, e']
    have := stores_two m p off 254 (intBytes .le 4 v.toNat)
      (by simp only [List.length_cons] at h; omega) (by simp [intBytes_length])
    rw [intBytes_length] at this
    rw [this]
    simp [intBytes_length]
  · simp only [if_neg h1, if_neg h2, if_neg h3, if_neg (show ¬ v.toNat ≤ 65535 by omega),
      if_neg (show ¬ v.toNat ≤ 4294967295 by omega)] at h ⊢
    have e' := write64_eq v .le
    simp only at e'
    rw [if_neg (by decide), if_neg (by decide), if_neg (by decide), if_pos trivial, e']
    have := stores_two m p off 255 (intBytes .le 8 v.toNat)
      (by simp only [List.length_cons] at h; omega) (by simp [intBytes_length])
    rw [intBytes_length] at this
    rw [this]
    simp [intBytes_length]

end Ergo
