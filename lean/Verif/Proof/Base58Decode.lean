import Verif.Model.Base58Decode
import Verif.Proof.Base58
import Mathlib.Tactic.SplitIfs
/-!
# The base58 decoder inverts the base58 text
-/
namespace Ergo
open Spec

/-- Big-endian value of base-58 digits. -/
def value58 : List Nat → Nat
  | [] => 0
  | d :: ds => d * 58 ^ ds.length + value58 ds

theorem value58_eq : ∀ ds : List Nat, value58 ds = Nat.ofDigits 58 ds.reverse
  | [] => rfl
  | d :: ds => by
    rw [value58, value58_eq ds, List.reverse_cons, Nat.ofDigits_append]
    simp [Nat.ofDigits_singleton]; ring

theorem value58_zeros : ∀ (ds : List Nat), value58 (ds.drop (ds.takeWhile (· == 0)).length) = value58 ds
  | [] => rfl
  | d :: ds => by
    by_cases h : d = 0
    · subst h; simp [value58, value58_zeros ds]
    · simp [h]

/-- The division loop divides by 256. -/
theorem b58Div_spec : ∀ (ds : List Nat) (r : Nat), r < 256 → (∀ d ∈ ds, d < 58) →
    (b58Div r ds).1.length = ds.length ∧ (∀ d ∈ (b58Div r ds).1, d < 58) ∧ (b58Div r ds).2 < 256 ∧
      r * 58 ^ ds.length + value58 ds = 256 * value58 (b58Div r ds).1 + (b58Div r ds).2
  | [], r, hr, _ => by simp [b58Div, value58, hr]
  | d :: ds, r, hr, hd => by
    have h0 : d < 58 := hd d (by simp)
    have e1 : (r * 58 + d % 256) % 65536 = r * 58 + d := by
      rw [Nat.mod_eq_of_lt (by omega : d < 256), Nat.mod_eq_of_lt (by omega)]
    have h3 : (r * 58 + d) / 256 < 58 := by omega
    have e2 : (r * 58 + d) / 256 % 256 = (r * 58 + d) / 256 := Nat.mod_eq_of_lt (by omega)
    obtain ⟨a, b, c, e⟩ := b58Div_spec ds ((r * 58 + d) % 256) (Nat.mod_lt _ (by omega))
      (fun x hx => hd x (by simp [hx]))
    simp only [b58Div, e1, e2]
    refine ⟨by simp [a], ?_, c, ?_⟩
    · intro x hx
      rcases List.mem_cons.1 hx with rfl | hx
      · exact h3
      · exact b x hx
    · simp only [value58, a, List.length_cons]
      have hdiv := Nat.div_add_mod (r * 58 + d) 256
      generalize (r * 58 + d) / 256 = Q at *
      generalize (r * 58 + d) % 256 = R at *
      calc r * 58 ^ (ds.length + 1) + (d * 58 ^ ds.length + value58 ds)
          = (r * 58 + d) * 58 ^ ds.length + value58 ds := by ring
        _ = (256 * Q + R) * 58 ^ ds.length + value58 ds := by rw [hdiv]
        _ = 256 * (Q * 58 ^ ds.length) + (R * 58 ^ ds.length + value58 ds) := by ring
        _ = _ := by rw [e]; ring

/-- Dividing a number by 256 always makes its first digit zero. -/
theorem b58Div_head (d : Nat) (ds : List Nat) (h : d < 58) :
    (b58Div 0 (d :: ds)).1 = 0 :: (b58Div 0 (d :: ds)).1.tail := by
  simp only [b58Div, Nat.zero_mul, Nat.zero_add, List.tail_cons]
  rw [Nat.mod_eq_of_lt (by omega : d < 256), Nat.mod_eq_of_lt (by omega : d < 65536),
    Nat.div_eq_of_lt (by omega)]

/-- The outer loop turns `m` digits into `m` bytes of the same value; it never writes before the start of
the buffer. -/
theorem b58Bytes_spec : ∀ (m j : Nat) (ds : List Nat) (buf : Bytes), ds.length = m → m ≤ j →
    (∀ d ∈ ds, d < 58) → ∃ out, b58Bytes j ds buf = some (j - m, out) ∧ out.length = m + buf.length ∧
      value256 out = value58 ds * 256 ^ buf.length + value256 buf
  | 0, j, ds, buf, hl, _, _ => by
    obtain rfl := List.length_eq_zero_iff.1 hl
    exact ⟨buf, by simp [b58Bytes], by simp, by simp [value58]⟩
  | m + 1, 0, ds, buf, _, hj, _ => absurd hj (by omega)
  | m + 1, j + 1, [], buf, hl, _, _ => absurd hl (by simp)
  | m + 1, j + 1, d :: ds, buf, hl, hj, hd => by
    obtain ⟨a, b, c, e⟩ := b58Div_spec (d :: ds) 0 (by omega) hd
    have hh := b58Div_head d ds (hd d (by simp))
    generalize hq : b58Div 0 (d :: ds) = q at *
    obtain ⟨q1, q2⟩ := q
    simp only at a b c e hh
    have hlt : q1.tail.length = m := by
      have := congrArg List.length hh
      simp only [List.length_cons] at this hl a; omega
    have hv : value58 q1.tail = value58 q1 := by
      rw [hh]; simp [value58]
    obtain ⟨out, o1, o2, o3⟩ := b58Bytes_spec m j q1.tail (UInt8.ofNat q2 :: buf) hlt (by omega)
      (fun x hx => b x (List.mem_of_mem_tail hx))
    refine ⟨out, ?_, by rw [o2]; simp; omega, ?_⟩
    · rw [b58Bytes]
      simp only [hq]
      rw [if_pos (by rw [hh]; rfl), o1]
      simp
    · rw [o3, hv]
      simp only [value256, List.length_cons, pow_succ]
      have : (UInt8.ofNat q2).toNat = q2 := by
        rw [UInt8.toNat_ofNat']; exact Nat.mod_eq_of_lt (by simpa using c)
      rw [this]
      simp only [Nat.zero_mul, Nat.zero_add] at e
      rw [e]; ring

/-! ## Characters -/

/-- The table and the alphabet belong together. -/
theorem table_alphabet : ∀ n < 128, base58Table.getD n 0xFF ≠ 0xFF → base58Table.getD n 0xFF < 58 ∧
    (alphabet58.toList.getD (base58Table.getD n 0xFF) '?').toNat = n := by decide +kernel

theorem alphabet_table : ∀ d < 58, (alphabet58.toList.getD d '?').toNat < 128 ∧
    base58Table.getD (alphabet58.toList.getD d '?').toNat 0xFF = d := by decide +kernel

theorem char_toNat_inj {a b : Char} (h : a.toNat = b.toNat) : a = b := by
  apply Char.ext
  apply UInt32.toNat_inj.1
  exact h

/-- The digits of a text. -/
theorem b58Digits_some (s : List Char) : ∀ ds : List Nat, b58Digits s = some ds →
    (∀ d ∈ ds, d < 58) ∧ s = ds.map (fun d => alphabet58.toList.getD d '?') := by
  induction s with
  | nil => intro ds h; simp only [b58Digits, Option.some.injEq] at h; subst h; simp
  | cons c cs ih =>
    intro ds h
    rw [b58Digits] at h
    have hl : base58Table.length = 128 := by decide +kernel
    rw [hl] at h
    split_ifs at h with h1 h2
    obtain ⟨t1, t2⟩ := table_alphabet c.toNat (by omega) h2
    generalize base58Table.getD c.toNat 0xFF = x at *
    cases hc : b58Digits cs with
    | none => rw [hc] at h; simp at h
    | some es =>
      rw [hc] at h
      simp only [Option.some.injEq] at h
      subst h
      obtain ⟨i1, i2⟩ := ih es hc
      refine ⟨?_, ?_⟩
      · intro d hd
        rcases List.mem_cons.1 hd with rfl | hd
        · exact t1
        · exact i1 d hd
      · rw [List.map_cons, ← i2, char_toNat_inj t2]

theorem b58Digits_map : ∀ (ds : List Nat), (∀ d ∈ ds, d < 58) →
    b58Digits (ds.map (fun d => alphabet58.toList.getD d '?')) = some ds
  | [], _ => rfl
  | d :: ds, h => by
    obtain ⟨a, b⟩ := alphabet_table d (h d (by simp))
    have hl : base58Table.length = 128 := by decide +kernel
    have hd : d ≠ 0xFF := by have := h d (by simp); omega
    rw [List.map_cons, b58Digits, if_neg (by omega), b, if_neg hd,
      b58Digits_map ds (fun x hx => h x (by simp [hx]))]

/-! ## The whole decoder -/

theorem drop_takeWhile_head (ds : List Nat) :
    ds.drop (ds.takeWhile (· == 0)).length = ds.dropWhile (· == 0) := by
  induction ds with
  | nil => rfl
  | cons d ds ih => by_cases h : d = 0 <;> simp [h, ih]

theorem zeros_prefix (ds : List Nat) :
    ds = List.replicate (ds.takeWhile (· == 0)).length 0 ++ ds.dropWhile (· == 0) := by
  induction ds with
  | nil => rfl
  | cons d ds ih =>
    by_cases h : d = 0
    · subst h
      have e : (0 :: ds).takeWhile (· == 0) = 0 :: ds.takeWhile (· == 0) := by simp
      have e2 : (0 :: ds).dropWhile (· == 0) = ds.dropWhile (· == 0) := by simp
      rw [e, e2, List.length_cons, List.replicate_succ, List.cons_append, ← ih]
    · simp [h]

theorem leadingZeros_replicate (n : Nat) (b : Bytes) :
    leadingZeros (List.replicate n 0 ++ b) = n + leadingZeros b := by
  induction n with
  | zero => simp
  | succ n ih => rw [List.replicate_succ, List.cons_append, leadingZeros, if_pos rfl, ih]; omega

theorem value256_replicate (n : Nat) (b : Bytes) : value256 (List.replicate n 0 ++ b) = value256 b := by
  induction n with
  | zero => simp
  | succ n ih => rw [List.replicate_succ, List.cons_append, value256, ih]; simp

/-- Bytes whose text consists of the given digits. -/
theorem text_of_bytes (ds : List Nat) (hd : ∀ d ∈ ds, d < 58) (b : Bytes)
    (hb : value256 b = value58 ds) :
    base58 (List.replicate (ds.takeWhile (· == 0)).length 0 ++ b.drop (leadingZeros b)) =
      ds.map (fun d => alphabet58.toList.getD d '?') := by
  unfold base58
  rw [leadingZeros_replicate, leadingZeros_drop, value256_replicate, value_drop, hb, value58_eq,
    ← dropWhile_digits _ (by simpa using hd), List.reverse_reverse, Nat.add_zero]
  conv_rhs => rw [zeros_prefix ds, List.map_append, List.map_replicate]
  have : alphabet58.toList.getD 0 '?' = '1' := by decide +kernel
  rw [this]

/-- The decoder on a text of digits: the bytes with this text. -/
theorem base58Decode_digits (s : List Char) (ds : List Nat) (n : Nat) (h2 : 2 ≤ s.length)
    (h164 : s.length ≤ 164) (hs : b58Digits s = some ds) :
    ∃ b, base58 b = s ∧ base58Decode s n = if b.length ≤ n then .ok b else .fail := by
  obtain ⟨hd, he⟩ := b58Digits_some s ds hs
  have hlen : ds.length = s.length := by rw [he]; simp
  have hz : (ds.takeWhile (· == 0)).length ≤ ds.length := (List.takeWhile_prefix _).length_le
  obtain ⟨out, o1, o2, o3⟩ := b58Bytes_spec (ds.drop (ds.takeWhile (· == 0)).length).length s.length
    (ds.drop (ds.takeWhile (· == 0)).length) [] rfl (by rw [List.length_drop]; omega)
    (fun d hx => hd d (List.mem_of_mem_drop hx))
  have o3' : value256 out = value58 ds := by
    rw [o3, value58_zeros]; simp [value256]
  refine ⟨List.replicate (ds.takeWhile (· == 0)).length 0 ++ out.drop (leadingZeros out), ?_, ?_⟩
  · rw [text_of_bytes ds hd out o3', ← he]
  · unfold base58Decode
    rw [if_neg (by unfold maxDecInput; omega), hs]
    simp only
    rw [o1]
    simp only [takeWhile_zeros]
    rw [List.length_drop]
    simp only [List.length_drop, List.length_nil, Nat.add_zero] at o2
    have hlz := leadingZeros_le out
    generalize hzc : (ds.takeWhile (· == 0)).length = z at *
    have ej : s.length - (ds.length - z) = z := by omega
    rw [ej, if_neg (by omega)]
    have e1 : z + leadingZeros out - z = leadingZeros out := by omega
    rw [e1]
    have el : (List.replicate z 0 ++ out.drop (leadingZeros out) : Bytes).length =
        s.length - leadingZeros out := by
      simp only [List.length_append, List.length_replicate, List.length_drop]; omega
    rw [el]
    have ed : (List.replicate z 0 ++ out : Bytes).drop (leadingZeros out) =
        List.replicate z 0 ++ out.drop (leadingZeros out) := by
      have hsplit := zeros_split out
      generalize leadingZeros out = k at hsplit ⊢
      conv_lhs => rw [hsplit, ← List.append_assoc, List.replicate_append_replicate]
      rw [Nat.add_comm, ← List.replicate_append_replicate, List.append_assoc, List.drop_left' (by simp)]
    rw [ed]
    by_cases hn : s.length - leadingZeros out ≤ n
    · rw [if_neg (by omega), if_pos hn]
    · rw [if_pos (by omega), if_neg hn]

end Ergo
