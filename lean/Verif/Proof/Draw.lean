import Verif.Spec.Text
import Verif.Proof.Path
import Verif.Props.Base58
import Verif.Props.TokenId
/-!
# Texts in their arrays
-/
namespace Ergo
open Spec

theorem Spec.Holds.cstr {n : Nat} {b t : List Char} (h : Holds n b t) : cstr b = t := by
  obtain ⟨_, ⟨rest, rfl⟩, hn⟩ := h
  unfold Ergo.cstr
  rw [List.takeWhile_append_of_pos (by
    intro x hx
    simp only [ne_eq, decide_eq_true_eq]
    rintro rfl
    exact hn hx)]
  simp

theorem putAt_eq {b p m q s : List Char} {i : Nat} (hb : b = p ++ m ++ q) (hp : p.length = i)
    (hm : m.length = s.length) : putAt b i s = some (p ++ s ++ q) := by
  subst hb hp
  unfold putAt
  rw [if_pos (by simp only [List.length_append]; omega), ← hm,
    show p.length + m.length = (p ++ m).length by simp, List.drop_left, List.append_assoc p m q,
    List.take_left]

/-- A piece of an array, by its length. -/
theorem arr_split {b : List Char} {i n : Nat} (h : i + n ≤ b.length) :
    ∃ p m q, b = p ++ m ++ q ∧ p.length = i ∧ m.length = n ∧ p = b.take i ∧ q = b.drop (i + n) := by
  refine ⟨b.take i, (b.drop i).take n, b.drop (i + n), ?_, ?_, ?_, rfl, rfl⟩
  · rw [← List.drop_drop, List.append_assoc, List.take_append_drop, List.take_append_drop]
  · rw [List.length_take]; omega
  · rw [List.length_take, List.length_drop]; omega

theorem strncpy_eq {b p m q s : List Char} {i n : Nat} (hb : b = p ++ m ++ q) (hp : p.length = i)
    (hm : m.length = n) (hs : s.length ≤ n) :
    strncpy b i n s = some (p ++ (s ++ List.replicate (n - s.length) nul) ++ q) := by
  unfold strncpy
  rw [List.take_of_length_le hs]
  exact putAt_eq hb hp (by simp only [List.length_append, List.length_replicate]; omega)

theorem snprintf_eq {b p m q s : List Char} {i n : Nat} (hb : b = p ++ m ++ q) (hp : p.length = i)
    (hm : m.length = s.length + 1) (hs : s.length < n) :
    snprintf b i n s = some (p ++ (s ++ [nul]) ++ q) := by
  unfold snprintf
  rw [if_neg (by omega), List.take_of_length_le (by omega)]
  exact putAt_eq hb hp (by simp [hm])

/-- A text in a zeroed array. -/
theorem holds_strncpy {n : Nat} {s : List Char} (h : s.length < n) (hs : nul ∉ s) :
    ∃ b, strncpy (List.replicate n nul) 0 n s = some b ∧ Holds n b s := by
  refine ⟨_, strncpy_eq (p := []) (m := List.replicate n nul) (q := []) (by simp) rfl (by simp) (by omega),
    ?_, ⟨List.replicate (n - s.length - 1) nul, ?_⟩, hs⟩
  · simp only [List.nil_append, List.append_nil, List.length_append, List.length_replicate]; omega
  · simp only [List.nil_append, List.append_nil]
    congr 1
    rw [← List.replicate_succ]
    congr 1; omega

theorem holds_snprintf {n : Nat} {s : List Char} (h : s.length < n) (hs : nul ∉ s) :
    ∃ b, snprintf (List.replicate n nul) 0 n s = some b ∧ Holds n b s := by
  refine ⟨_, snprintf_eq (p := []) (m := List.replicate (s.length + 1) nul)
    (q := List.replicate (n - s.length - 1) nul) ?_ rfl (by simp) h, ?_, ⟨List.replicate (n - s.length - 1) nul, ?_⟩, hs⟩
  · rw [List.nil_append, List.replicate_append_replicate]
    congr 1; omega
  · simp only [List.nil_append, List.length_append, List.length_replicate, List.length_singleton]; omega
  · simp

theorem holds_put {n : Nat} {s : List Char} (h : s.length < n) (hs : nul ∉ s) :
    ∃ b, putAt (List.replicate n nul) 0 s = some b ∧ Holds n b s := by
  refine ⟨_, putAt_eq (p := []) (m := List.replicate s.length nul)
    (q := List.replicate (n - s.length) nul) ?_ rfl (by simp), ?_, ⟨List.replicate (n - s.length - 1) nul, ?_⟩, hs⟩
  · rw [List.nil_append, List.replicate_append_replicate]
    congr 1; omega
  · simp only [List.nil_append, List.length_append, List.length_replicate]; omega
  · rw [List.nil_append, ← List.replicate_succ]
    congr 2; omega

/-! ## Numbers -/

theorem digitChar_eq : ∀ d < 10, digitChar d = d.digitChar := by decide

theorem toDigits_no_nul (v : Nat) : nul ∉ Nat.toDigits 10 v := by
  intro h
  have := Nat.isDigit_of_mem_toDigits (by decide) (by decide) h
  exact absurd this (by decide)

/-- The digits are written from the last one on. -/
theorem u64Digits_eq (off outLen : Nat) : ∀ (v : Nat) (b : List Char) (i : Nat),
    i + (Nat.toDigits 10 v).length ≤ outLen → off + i + (Nat.toDigits 10 v).length + 1 ≤ b.length →
    u64Digits b off outLen i v = some (b.take (off + i) ++ (Nat.toDigits 10 v).reverse ++
      nul :: b.drop (off + i + (Nat.toDigits 10 v).length + 1), some (i + (Nat.toDigits 10 v).length - 1)) := by
  intro v
  induction v using Nat.strong_induction_on with
  | _ v ih =>
    intro b i h1 h2
    rw [u64Digits]
    by_cases hv : 9 < v
    · rw [dif_pos hv]
      rw [Nat.toDigits_of_base_le (by decide) (by omega)] at h1 h2 ⊢
      simp only [List.length_append, List.length_singleton] at h1 h2 ⊢
      have hpos : 0 < (Nat.toDigits 10 (v / 10)).length := Nat.length_toDigits_pos
      obtain ⟨p, m, q, e, e1, e2, e3, e4⟩ := arr_split (b := b) (i := off + i) (n := 1) (by omega)
      rw [putAt_eq e e1 (s := [digitChar (v % 10)]) (by simpa using e2)]
      simp only
      rw [if_neg (by omega), ih (v / 10) (by omega) _ (i + 1) (by omega) (by
        have := congrArg List.length e
        simp only [List.length_append, List.length_singleton] at this ⊢
        omega)]
      rw [digitChar_eq _ (Nat.mod_lt _ (by decide)), List.reverse_append]
      have hd : (p ++ [Nat.digitChar (v % 10)] ++ q).drop (off + (i + 1) + (Nat.toDigits 10 (v / 10)).length + 1) =
          b.drop (off + i + ((Nat.toDigits 10 (v / 10)).length + 1) + 1) := by
        rw [e]
        rw [show off + (i + 1) + (Nat.toDigits 10 (v / 10)).length + 1 =
          (p ++ [Nat.digitChar (v % 10)]).length + ((Nat.toDigits 10 (v / 10)).length + 1) by simp; omega,
          show off + i + ((Nat.toDigits 10 (v / 10)).length + 1) + 1 =
          (p ++ m).length + ((Nat.toDigits 10 (v / 10)).length + 1) by simp [e1, e2]; omega,
          List.drop_length_add_append, List.drop_length_add_append]
      have ht : (p ++ [Nat.digitChar (v % 10)] ++ q).take (off + (i + 1)) =
          b.take (off + i) ++ [Nat.digitChar (v % 10)] := by
        rw [← e3, show off + (i + 1) = (p ++ [Nat.digitChar (v % 10)]).length by simp; omega, List.take_left]
      rw [hd, ht]
      simp only [List.reverse_singleton, List.append_assoc, Option.some.injEq, Prod.mk.injEq, true_and]
      omega
    · rw [dif_neg hv]
      rw [Nat.toDigits_of_lt_base (by omega)] at h1 h2 ⊢
      simp only [List.length_singleton] at h1 h2 ⊢
      obtain ⟨p, m, q, e, e1, e2, e3, e4⟩ := arr_split (b := b) (i := off + i) (n := 2) (by omega)
      rw [putAt_eq e e1 (s := [digitChar v, nul]) (by simpa using e2), digitChar_eq _ (by omega), ← e3, ← e4]
      simp

/-- `format_u64` writes the decimal digits and a terminator. -/
theorem formatU64_eq (b : List Char) (off outLen : Nat) (v : UInt64)
    (h1 : (Nat.toDigits 10 v.toNat).length < outLen)
    (h2 : off + (Nat.toDigits 10 v.toNat).length + 1 ≤ b.length) :
    formatU64 b off outLen v = some (b.take off ++ Nat.toDigits 10 v.toNat ++
      nul :: b.drop (off + (Nat.toDigits 10 v.toNat).length + 1), true) := by
  have hpos : 0 < (Nat.toDigits 10 v.toNat).length := Nat.length_toDigits_pos
  unfold formatU64
  rw [if_neg (by omega), u64Digits_eq off _ _ _ _ (by omega) (by omega)]
  simp only [Nat.add_zero, Nat.zero_add]
  have hl : (b.take off).length = off := by rw [List.length_take]; omega
  have hr : (((b.take off ++ (Nat.toDigits 10 v.toNat).reverse ++
      nul :: b.drop (off + (Nat.toDigits 10 v.toNat).length + 1)).drop off).take
      ((Nat.toDigits 10 v.toNat).length - 1 + 1)) = (Nat.toDigits 10 v.toNat).reverse := by
    rw [List.append_assoc, List.drop_left' hl, show (Nat.toDigits 10 v.toNat).length - 1 + 1 =
      (Nat.toDigits 10 v.toNat).reverse.length by rw [List.length_reverse]; omega, List.take_left]
  rw [hr, List.reverse_reverse, putAt_eq rfl hl (by simp)]

theorem digits_u64 (v : UInt64) : (Nat.toDigits 10 v.toNat).length ≤ 20 := by
  rw [Nat.length_toDigits_le_iff (by decide) (by decide)]
  have := v.toNat_lt
  omega

theorem lastDigits_succ (k v : Nat) :
    lastDigits (k + 1) v = lastDigits k (v / 10) ++ [Nat.digitChar (v % 10)] := by
  unfold lastDigits
  rw [List.range_succ, List.map_append, List.map_singleton]
  congr 1
  · refine List.map_congr_left fun i hi => ?_
    have := List.mem_range.1 hi
    rw [show k + 1 - 1 - i = k - 1 - i + 1 by omega, Nat.pow_succ', ← Nat.div_div_eq_div_mul]
  · have : ∀ d < 10, "0123456789".toList.getD d '?' = Nat.digitChar d := by decide
    rw [show k + 1 - 1 - k = 0 by omega, Nat.pow_zero, Nat.div_one, this _ (Nat.mod_lt _ (by decide))]

theorem lastDigits_length (k v : Nat) : (lastDigits k v).length = k := by simp [lastDigits]

theorem toDigits_split : ∀ (k v : Nat), 10 ^ k ≤ v →
    Nat.toDigits 10 v = Nat.toDigits 10 (v / 10 ^ k) ++ lastDigits k v
  | 0, v, _ => by simp [lastDigits]
  | k + 1, v, h => by
    have hk : 1 ≤ 10 ^ k := Nat.one_le_two_pow.trans (Nat.pow_le_pow_left (by decide) k)
    rw [Nat.pow_succ'] at h
    rw [lastDigits_succ, Nat.toDigits_of_base_le (by decide) (by omega),
      toDigits_split k (v / 10) (by omega), Nat.pow_succ', Nat.div_div_eq_div_mul, List.append_assoc]

theorem lastDigits_small : ∀ (k v : Nat), v < 10 ^ k → 0 < k →
    (Nat.toDigits 10 v).length ≤ k ∧
    lastDigits k v = List.replicate (k - (Nat.toDigits 10 v).length) '0' ++ Nat.toDigits 10 v
  | 0, v, _, h0 => by omega
  | k + 1, v, h, _ => by
    rw [lastDigits_succ]
    by_cases hv : 10 ≤ v
    · have hk : 0 < k := by
        rcases Nat.eq_zero_or_pos k with rfl | hk
        · simp at h; omega
        · exact hk
      rw [Nat.pow_succ'] at h
      obtain ⟨i1, i2⟩ := lastDigits_small k (v / 10) (by omega) hk
      rw [Nat.toDigits_of_base_le (by decide) hv, i2]
      simp only [List.length_append, List.length_singleton]
      refine ⟨by omega, ?_⟩
      rw [Nat.add_sub_add_right, List.append_assoc]
    · rw [Nat.toDigits_of_lt_base (by omega), Nat.div_eq_of_lt (by omega), Nat.mod_eq_of_lt (by omega)]
      refine ⟨by simp, ?_⟩
      congr 1
      rw [List.length_singleton, Nat.add_sub_cancel]
      unfold lastDigits
      rw [List.eq_replicate_iff]
      refine ⟨by simp, ?_⟩
      intro x hx
      obtain ⟨i, _, rfl⟩ := List.mem_map.1 hx
      rw [Nat.zero_div]
      rfl

theorem lastDigits_no_nul (k v : Nat) : nul ∉ lastDigits k v := by
  intro h
  obtain ⟨i, _, e⟩ := List.mem_map.1 h
  have : ∀ d < 10, "0123456789".toList.getD d '?' ≠ nul := by decide
  exact this _ (Nat.mod_lt _ (by decide)) e

/-- Amount without the unit. -/
def ergDigits (v : Nat) : List Char := Nat.toDigits 10 (v / 10 ^ 9) ++ ['.'] ++ lastDigits 9 v

theorem ergDigits_length (v : UInt64) : (ergDigits v.toNat).length ≤ 30 := by
  unfold ergDigits
  have h : (Nat.toDigits 10 (v.toNat / 10 ^ 9)).length ≤ 20 := by
    rw [Nat.length_toDigits_le_iff (by decide) (by decide)]
    have := v.toNat_lt
    omega
  simp only [List.length_append, lastDigits_length, List.length_singleton]
  omega

theorem ergDigits_no_nul (v : Nat) : nul ∉ ergDigits v := by
  unfold ergDigits
  simp only [List.mem_append, List.mem_singleton, not_or]
  exact ⟨⟨toDigits_no_nul _, by decide⟩, lastDigits_no_nul _ _⟩

/-- `format_fpu64` writes the amount with nine decimals into a zeroed array. -/
theorem formatFpu64_eq (v : UInt64) :
    ∃ b, formatFpu64 (List.replicate 70 nul) 70 v 9 = some (b, true) ∧ b =
      ergDigits v.toNat ++ List.replicate (70 - (ergDigits v.toNat).length) nul := by
  have hd := digits_u64 v
  have hpos : 0 < (Nat.toDigits 10 v.toNat).length := Nat.length_toDigits_pos
  have hlen := ergDigits_length v
  unfold formatFpu64
  rw [formatU64_eq _ 0 21 v (by omega) (by rw [List.length_replicate]; omega)]
  simp only [List.take_zero, List.nil_append, Nat.zero_add]
  obtain ⟨d, hdd⟩ : ∃ d, d = Nat.toDigits 10 v.toNat := ⟨_, rfl⟩
  have hnn : nul ∉ d := by rw [hdd]; exact toDigits_no_nul _
  obtain ⟨z, hz⟩ : ∃ z, z = (List.replicate 21 nul).drop ((Nat.toDigits 10 v.toNat).length + 1) := ⟨_, rfl⟩
  have hc : cstr (d ++ nul :: z) = d := Holds.cstr ⟨rfl, ⟨z, rfl⟩, hnn⟩
  have hsl : strlen (d ++ nul :: z) 0 = some d.length := by
    unfold strlen
    rw [List.drop_zero, if_pos (by simp), hc]
  rw [← hz, ← hdd, hsl]
  simp only [hc]
  rw [← hdd] at hd hpos
  by_cases h9 : d.length ≤ 9
  · have hv : v.toNat < 10 ^ 9 := by
      rw [← Nat.length_toDigits_le_iff (by decide) (by decide), ← hdd]; exact h9
    obtain ⟨-, e⟩ := lastDigits_small 9 v.toNat hv (by decide)
    rw [← hdd] at e
    have eE : ergDigits v.toNat = '0' :: '.' :: List.replicate (9 - d.length) '0' ++ d := by
      unfold ergDigits
      rw [e, Nat.div_eq_of_lt hv]
      rfl
    rw [if_pos h9, if_neg (by omega), putAt_eq (b := List.replicate 70 nul) (i := 0)
      (s := '0' :: '.' :: List.replicate (9 - d.length) '0') (p := [])
      (m := List.replicate (11 - d.length) nul) (q := List.replicate (59 + d.length) nul)
      (by rw [List.nil_append, List.replicate_append_replicate]; congr 1; omega) rfl
      (by simp only [List.length_replicate, List.length_cons]; omega)]
    simp only
    rw [strncpy_eq (p := '0' :: '.' :: List.replicate (9 - d.length) '0')
      (m := List.replicate (59 + d.length) nul) (q := []) (by simp)
      (by simp only [List.length_replicate, List.length_cons]; omega)
      (by simp only [List.length_replicate]; omega) (by omega)]
    refine ⟨_, rfl, ?_⟩
    rw [eE]
    simp only [List.length_append, List.length_cons, List.length_replicate, List.append_nil,
      List.append_assoc, List.cons_append]
    congr 5
    omega
  · have hv : 10 ^ 9 ≤ v.toNat := by
      by_contra hn
      exact h9 (by rw [hdd, Nat.length_toDigits_le_iff (by decide) (by decide)]; omega)
    have e := toDigits_split 9 v.toNat hv
    rw [← hdd] at e
    obtain ⟨x, hx⟩ : ∃ x, x = Nat.toDigits 10 (v.toNat / 10 ^ 9) := ⟨_, rfl⟩
    obtain ⟨y, hy⟩ : ∃ y, y = lastDigits 9 v.toNat := ⟨_, rfl⟩
    have hyl : y.length = 9 := by rw [hy]; exact lastDigits_length _ _
    rw [← hx, ← hy] at e
    have hxl : d.length = x.length + 9 := by rw [e, List.length_append, hyl]
    have eE : ergDigits v.toNat = x ++ ['.'] ++ y := by unfold ergDigits; rw [← hx, ← hy]
    rw [if_neg h9, if_neg (by omega), show d.length - 9 = x.length by omega]
    have e1 : (d ++ nul :: z).take x.length = x := by
      rw [e, List.append_assoc, List.take_left]
    have e2 : cstr ((d ++ nul :: z).drop x.length) = y := by
      rw [e, List.append_assoc, List.drop_left]
      exact Holds.cstr ⟨rfl, ⟨z, rfl⟩, by rw [hy]; exact lastDigits_no_nul _ _⟩
    rw [e1, e2, putAt_eq (b := List.replicate 70 nul) (i := 0) (s := x ++ ['.']) (p := [])
      (m := List.replicate (x.length + 1) nul) (q := List.replicate (69 - x.length) nul)
      (by rw [List.nil_append, List.replicate_append_replicate]; congr 1; omega) rfl
      (by simp)]
    simp only
    rw [strncpy_eq (p := x ++ ['.']) (m := List.replicate 9 nul) (q := List.replicate (60 - x.length) nul)
      (by rw [List.nil_append, List.append_assoc (x ++ ['.']), List.replicate_append_replicate]; congr 2; omega)
      (by simp) (by simp) (by omega)]
    refine ⟨_, rfl, ?_⟩
    rw [eE]
    simp only [List.length_append, List.length_singleton, hyl, Nat.sub_self, List.replicate_zero,
      List.append_nil, List.append_assoc]
    congr 4
    omega

/-- `format_erg_amount` is never refused and writes the exact amount. -/
theorem formatErg_eq (v : UInt64) :
    ∃ b, formatErgAmount v (List.replicate 70 nul) 70 = some (b, true) ∧ Holds 70 b (ergText v.toNat) := by
  obtain ⟨b, h1, h2⟩ := formatFpu64_eq v
  have hlen := ergDigits_length v
  have hnn := ergDigits_no_nul v.toNat
  unfold formatErgAmount
  rw [h1]
  simp only
  have hh : Holds 70 b (ergDigits v.toNat) := by
    refine ⟨?_, ⟨List.replicate (69 - (ergDigits v.toNat).length) nul, ?_⟩, hnn⟩
    · rw [h2, List.length_append, List.length_replicate]; omega
    · rw [h2, ← List.replicate_succ]; congr 2; omega
  have hsl : strlen b 0 = some (ergDigits v.toNat).length := by
    obtain ⟨_, ⟨r, hr⟩, _⟩ := id hh
    unfold strlen
    rw [List.drop_zero, if_pos (by rw [hr]; simp), hh.cstr]
  rw [hsl]
  simp only
  rw [if_neg (by omega), strncpy_eq (p := ergDigits v.toNat)
    (m := List.replicate (70 - (ergDigits v.toNat).length) nul) (q := []) (by rw [h2, List.append_nil]) rfl
    (by simp) (by show 4 ≤ _; omega)]
  refine ⟨_, rfl, ?_, ⟨List.replicate (65 - (ergDigits v.toNat).length) nul, ?_⟩, ?_⟩
  · simp only [List.length_append, List.length_replicate, List.length_nil]
    rw [show " ERG".toList.length = 4 from rfl]
    omega
  · rw [← List.replicate_succ, List.append_nil, ← List.append_assoc]
    congr 2
    rw [show " ERG".toList.length = 4 from rfl]
    omega
  · show nul ∉ ergDigits v.toNat ++ " ERG".toList
    rw [List.mem_append, not_or]
    exact ⟨hnn, by decide⟩

end Ergo
