import Verif.Spec.ArraySize
import Verif.Proof.DrawPage
import Verif.Proof.Pages
import Verif.Props.PathExact
/-!
# C90: which sizes of the arrays the formatting functions can work with
-/
namespace Ergo
open Spec

/-! ## Numbers -/

theorem putAt_length {b c s : List Char} {i : Nat} (h : putAt b i s = some c) : c.length = b.length := by
  unfold putAt at h
  split at h
  · obtain rfl := Option.some.inj h
    simp only [List.length_append, List.length_take, List.length_drop]
    omega
  · simp at h

theorem putAt_fits {b s : List Char} {i : Nat} (h : i + s.length ≤ b.length) :
    ∃ c, putAt b i s = some c ∧ c.length = b.length := by
  have e : putAt b i s = some (b.take i ++ s ++ b.drop (i + s.length)) := by
    unfold putAt
    rw [if_pos h]
  exact ⟨_, e, putAt_length e⟩

theorem digits_pos (v : Nat) : 0 < (Nat.toDigits 10 v).length := Nat.length_toDigits_pos

/-- A number with too many digits is refused before the end of the array. -/
theorem u64Digits_refused (off m : Nat) : ∀ (v : Nat) (b : List Char) (i : Nat),
    m < i + (Nat.toDigits 10 v).length → (i < m ∨ 9 < v ∧ i ≤ m) → off + m + 1 ≤ b.length →
    ∃ c, u64Digits b off m i v = some (c, none) ∧ c.length = b.length := by
  intro v
  induction v using Nat.strong_induction_on with
  | _ v ih =>
    intro b i h1 h2 h3
    rw [u64Digits]
    by_cases hv : 9 < v
    · rw [dif_pos hv]
      rw [Nat.toDigits_of_base_le (by decide) (by omega)] at h1
      simp only [List.length_append, List.length_singleton] at h1
      obtain ⟨c, e1, e2⟩ := putAt_fits (b := b) (i := off + i) (s := [digitChar (v % 10)])
        (by simp only [List.length_singleton]; omega)
      rw [e1]
      simp only
      by_cases hi : i + 2 > m
      · rw [if_pos hi]
        exact ⟨c, rfl, e2⟩
      · rw [if_neg hi]
        obtain ⟨c', g1, g2⟩ := ih (v / 10) (by omega) c (i + 1) (by omega) (.inl (by omega)) (by omega)
        exact ⟨c', g1, g2.trans e2⟩
    · rw [Nat.toDigits_of_lt_base (by omega)] at h1
      simp only [List.length_singleton] at h1
      omega

/-- C90: `format_u64` for every number and every size: the whole number if its digits and the terminator
fit; otherwise refused, but an array of one character overflows for the numbers below ten. -/
theorem C90_number (v : UInt64) (n : Nat) :
    Leaves n (Nat.toDigits 10 v.toNat) (numberLeft (Nat.toDigits 10 v.toNat).length n)
      (formatU64 (List.replicate n nul) 0 n v) := by
  have hpos := digits_pos v.toNat
  unfold numberLeft
  by_cases h : (Nat.toDigits 10 v.toNat).length < n
  · rw [if_pos h, formatU64_eq _ 0 n v h (by rw [List.length_replicate]; omega)]
    refine ⟨_, rfl, ?_, ⟨_, by rw [List.take_zero, List.nil_append]⟩, toDigits_no_nul _⟩
    simp only [List.length_append, List.length_take, List.length_cons, List.length_drop, List.length_replicate]
    omega
  · rw [if_neg h]
    unfold formatU64
    by_cases h0 : n = 0
    · rw [if_neg (by omega), if_pos h0]
      exact ⟨_, rfl, by simp⟩
    · rw [if_neg h0]
      by_cases h1 : n = 1 ∧ (Nat.toDigits 10 v.toNat).length = 1
      · have hv : ¬ 9 < v.toNat := by
          have := (Nat.length_toDigits_le_iff (b := 10) (n := v.toNat) (by decide) (k := 1) (by decide)).1 (by omega)
          omega
        rw [if_pos h1, u64Digits, dif_neg hv, h1.1]
        rfl
      · rw [if_neg h1]
        have hc : 0 < n - 1 ∨ 9 < v.toNat ∧ 0 ≤ n - 1 := by
          by_cases hn : n = 1
          · refine .inr ⟨?_, by omega⟩
            by_contra hv
            refine h1 ⟨hn, ?_⟩
            rw [Nat.toDigits_of_lt_base (by omega)]
            rfl
          · exact .inl (by omega)
        obtain ⟨c, e1, e2⟩ := u64Digits_refused 0 (n - 1) v.toNat (List.replicate n nul) 0 (by omega) hc
          (by rw [List.length_replicate]; omega)
        rw [e1]
        exact ⟨c, rfl, by rw [e2, List.length_replicate]⟩

/-- C90: a number behind a static text (stx_ui.c:336-341), for every size: the number has the room that the text
leaves. -/
theorem C90_count (pre : List Char) (hp : nul ∉ pre) (v : UInt64) (n : Nat) (hn : pre.length ≤ n) :
    Leaves n (pre ++ Nat.toDigits 10 v.toNat) (numberLeft (Nat.toDigits 10 v.toNat).length (n - pre.length))
      (drawNumber pre v (List.replicate n nul) n) := by
  have hpos := digits_pos v.toNat
  have hs : strncpy (List.replicate n nul) 0 n pre = some (pre ++ List.replicate (n - pre.length) nul) := by
    rw [strncpy_eq (b := List.replicate n nul) (p := []) (m := List.replicate n nul) (q := []) (i := 0) (by simp) rfl
      (by simp) hn]
    simp
  unfold drawNumber
  rw [hs]
  simp only
  generalize hb : pre ++ List.replicate (n - pre.length) nul = b
  have hbl : b.length = n := by
    rw [← hb, List.length_append, List.length_replicate]
    omega
  have htake : b.take pre.length = pre := by rw [← hb, List.take_left]
  unfold numberLeft
  by_cases h : (Nat.toDigits 10 v.toNat).length < n - pre.length
  · rw [if_pos h, formatU64_eq b pre.length _ v h (by omega), htake]
    refine ⟨_, rfl, ?_, ⟨_, rfl⟩, ?_⟩
    · simp only [List.length_append, List.length_cons, List.length_drop]
      omega
    · rw [List.mem_append, not_or]
      exact ⟨hp, toDigits_no_nul _⟩
  · rw [if_neg h]
    unfold formatU64
    by_cases h0 : n - pre.length = 0
    · rw [if_neg (by omega), if_pos h0]
      exact ⟨_, rfl, hbl⟩
    · rw [if_neg h0]
      by_cases h1 : n - pre.length = 1 ∧ (Nat.toDigits 10 v.toNat).length = 1
      · have hv : ¬ 9 < v.toNat := by
          have := (Nat.length_toDigits_le_iff (b := 10) (n := v.toNat) (by decide) (k := 1) (by decide)).1 (by omega)
          omega
        have : putAt b (pre.length + 0) [digitChar v.toNat, nul] = none := by
          unfold putAt
          rw [if_neg]
          simp only [List.length_cons, List.length_nil]
          omega
        rw [if_pos h1, u64Digits, dif_neg hv, this]
        rfl
      · rw [if_neg h1]
        have hc : 0 < n - pre.length - 1 ∨ 9 < v.toNat ∧ 0 ≤ n - pre.length - 1 := by
          by_cases hn : n - pre.length = 1
          · refine .inr ⟨?_, by omega⟩
            by_contra hv
            refine h1 ⟨hn, ?_⟩
            rw [Nat.toDigits_of_lt_base (by omega)]
            rfl
          · exact .inl (by omega)
        obtain ⟨c, e1, e2⟩ := u64Digits_refused pre.length (n - pre.length - 1) v.toNat b 0 (by omega) hc (by omega)
        rw [e1]
        exact ⟨c, rfl, by rw [e2, hbl]⟩

/- Room for two digits and the terminator. -/
example : drawNumber ['n', ':'] 42 (List.replicate 5 nul) 5 = some (['n', ':', '4', '2', nul], true) ∧
    (drawNumber ['n', ':'] 142 (List.replicate 5 nul) 5).map (·.2) = some false ∧
    drawNumber ['n', ':'] 4 (List.replicate 3 nul) 3 = none := by decide +kernel

/-! ## Amounts -/

theorem strlen_text {t z : List Char} (h : nul ∉ t) : strlen (t ++ nul :: z) 0 = some t.length := by
  unfold strlen
  rw [List.drop_zero, if_pos (by simp), cstr_append h]

/-- `format_fpu64` with nine decimals: below the size of the text it is cut and has no terminator. -/
theorem formatFpu64_at (v : UInt64) (n : Nat) (d : List Char) (hd : d = Nat.toDigits 10 v.toNat) :
    formatFpu64 (List.replicate n nul) n v 9 =
      if d.length ≤ 9 then
        if n ≤ 11 - d.length then some (List.replicate n nul, false)
        else some ((ergDigits v.toNat).take n ++ List.replicate (n - 11) nul, true)
      else if n ≤ d.length + 10 then some (List.replicate n nul, false)
      else some (ergDigits v.toNat ++ List.replicate (n - d.length - 1) nul, true) := by
  have hl := digits_u64 v
  have hpos := digits_pos v.toNat
  unfold formatFpu64
  rw [formatU64_eq _ 0 21 v (by omega) (by rw [List.length_replicate]; omega)]
  simp only [List.take_zero, List.nil_append, Nat.zero_add]
  rw [← hd] at hl hpos ⊢
  have hnn : nul ∉ d := by rw [hd]; exact toDigits_no_nul _
  obtain ⟨z, hz⟩ : ∃ z, z = (List.replicate 21 nul).drop (d.length + 1) := ⟨_, rfl⟩
  rw [← hz, strlen_text hnn]
  simp only [cstr_append hnn]
  by_cases h9 : d.length ≤ 9
  · rw [if_pos h9, if_pos h9]
    by_cases hn : n ≤ 11 - d.length
    · rw [if_pos (by omega), if_pos hn]
    · rw [if_neg (by omega), if_neg hn]
      have hv : v.toNat < 10 ^ 9 := by
        rw [← Nat.length_toDigits_le_iff (by decide) (by decide), ← hd]; exact h9
      obtain ⟨-, e⟩ := lastDigits_small 9 v.toNat hv (by decide)
      rw [← hd] at e
      have eE : ergDigits v.toNat = '0' :: '.' :: List.replicate (9 - d.length) '0' ++ d := by
        unfold ergDigits
        rw [e, Nat.div_eq_of_lt hv]
        rfl
      obtain ⟨w, hw⟩ : ∃ w, w = '0' :: '.' :: List.replicate (9 - d.length) '0' := ⟨_, rfl⟩
      have hwl : w.length = 11 - d.length := by
        rw [hw]; simp only [List.length_cons, List.length_replicate]; omega
      rw [eE, ← hw, putAt_eq (b := List.replicate n nul) (i := 0) (s := w) (p := [])
        (m := List.replicate (11 - d.length) nul) (q := List.replicate (n - (11 - d.length)) nul)
        (by rw [List.nil_append, List.replicate_append_replicate]; congr 1; omega) rfl (by simp [hwl])]
      simp only [List.nil_append]
      unfold strncpy
      rw [putAt_eq (p := w) (m := List.replicate (n - (11 - d.length)) nul) (q := []) (by simp)
        (by omega) (by simp only [List.length_append, List.length_take, List.length_replicate]; omega)]
      simp only [List.append_nil]
      rw [List.take_append, List.take_of_length_le (l := w) (by omega), hwl,
        show 2 + 9 - d.length = 11 - d.length by omega, List.append_assoc,
        show n - (11 - d.length) - d.length = n - 11 by omega]
  · rw [if_neg h9, if_neg h9]
    by_cases hn : n ≤ d.length + 10
    · rw [if_pos (by omega), if_pos hn]
    · rw [if_neg (by omega), if_neg hn]
      have hv : 10 ^ 9 ≤ v.toNat := by
        by_contra hc
        exact h9 (by rw [hd, Nat.length_toDigits_le_iff (by decide) (by decide)]; omega)
      have e := toDigits_split 9 v.toNat hv
      rw [← hd] at e
      obtain ⟨x, hx⟩ : ∃ x, x = Nat.toDigits 10 (v.toNat / 10 ^ 9) := ⟨_, rfl⟩
      obtain ⟨y, hy⟩ : ∃ y, y = lastDigits 9 v.toNat := ⟨_, rfl⟩
      have hyl : y.length = 9 := by rw [hy]; exact lastDigits_length _ _
      have hyn : nul ∉ y := by rw [hy]; exact lastDigits_no_nul _ _
      rw [← hx, ← hy] at e
      have hxl : d.length = x.length + 9 := by rw [e, List.length_append, hyl]
      have eE : ergDigits v.toNat = x ++ ['.'] ++ y := by unfold ergDigits; rw [← hx, ← hy]
      have e1 : (d ++ nul :: z).take x.length = x := by rw [e, List.append_assoc, List.take_left]
      have e2 : cstr ((d ++ nul :: z).drop x.length) = y := by
        rw [e, List.append_assoc, List.drop_left]
        exact cstr_append hyn
      rw [show d.length - 9 = x.length by omega, e1, e2, putAt_eq (b := List.replicate n nul) (i := 0)
        (s := x ++ ['.']) (p := []) (m := List.replicate (x.length + 1) nul)
        (q := List.replicate (n - (x.length + 1)) nul)
        (by rw [List.nil_append, List.replicate_append_replicate]; congr 1; omega) rfl (by simp)]
      simp only
      rw [strncpy_eq (p := x ++ ['.']) (m := List.replicate 9 nul) (q := List.replicate (n - (x.length + 10)) nul)
        (by rw [List.nil_append, List.append_assoc (x ++ ['.']), List.replicate_append_replicate]; congr 2; omega)
        (by simp) (by simp) (by omega), eE]
      simp only [hyl, Nat.sub_self, List.replicate_zero, List.append_nil]
      rw [show n - (x.length + 10) = n - d.length - 1 by omega]

theorem ergDigits_len (v : Nat) :
    (ergDigits v).length = if (Nat.toDigits 10 v).length ≤ 9 then 11 else (Nat.toDigits 10 v).length + 1 := by
  have hiff := Nat.length_toDigits_le_iff (b := 10) (n := v) (by decide) (k := 9) (by decide)
  unfold ergDigits
  simp only [List.length_append, List.length_singleton, lastDigits_length]
  by_cases h : (Nat.toDigits 10 v).length ≤ 9
  · rw [if_pos h, Nat.div_eq_of_lt (hiff.1 h)]
    rfl
  · rw [if_neg h]
    have e := congrArg List.length (toDigits_split 9 v (by
      by_contra hc
      exact h (hiff.2 (by omega))))
    rw [List.length_append, lastDigits_length] at e
    omega

theorem ergText_eq (v : Nat) : ergText v = ergDigits v ++ " ERG".toList := rfl

theorem ergText_no_nul (v : Nat) : nul ∉ ergText v := by
  rw [ergText_eq, List.mem_append, not_or]
  exact ⟨ergDigits_no_nul _, by decide⟩

/-- The unit behind an amount. -/
theorem erg_unit {n : Nat} {t : List Char} (k : Nat) (hn : nul ∉ t) (hk : n = t.length + k) (h5 : 5 ≤ k) :
    ∃ b, strncpy (t ++ List.replicate k nul) t.length (n - t.length) " ERG".toList = some b ∧
      Holds n b (t ++ " ERG".toList) := by
  have h4 : " ERG".toList.length = 4 := rfl
  refine ⟨_, strncpy_eq (p := t) (m := List.replicate k nul) (q := []) (by simp) rfl
    (by rw [List.length_replicate]; omega) (by omega), ?_, ⟨List.replicate (k - 5) nul, ?_⟩, ?_⟩
  · simp only [List.length_append, List.length_replicate, List.append_nil, h4]; omega
  · rw [List.append_nil, List.append_assoc, ← List.replicate_succ]
    congr 3
    omega
  · rw [List.mem_append, not_or]
    exact ⟨hn, by decide⟩

/-- C90: `format_erg_amount` for every amount and every size.  From 16 characters on, small amounts are
shown in full; there is a gap below 12 characters where a text without terminator is measured. -/
theorem C90_erg (v : UInt64) (n : Nat) :
    Leaves n (ergText v.toNat) (ergLeft (Nat.toDigits 10 v.toNat).length n)
      (formatErgAmount v (List.replicate n nul) n) := by
  have hl := digits_u64 v
  have hpos := digits_pos v.toNat
  have hlen := ergDigits_len v.toNat
  have hnn := ergDigits_no_nul v.toNat
  obtain ⟨d, hd⟩ : ∃ d, d = Nat.toDigits 10 v.toNat := ⟨_, rfl⟩
  unfold formatErgAmount ergLeft
  rw [formatFpu64_at v n d hd, ergText_eq]
  rw [← hd] at hl hpos hlen ⊢
  by_cases h9 : d.length ≤ 9
  · rw [if_pos h9, if_pos h9]
    rw [if_pos h9] at hlen
    by_cases h1 : n ≤ 11 - d.length
    · rw [if_pos h1, if_neg (by omega), if_neg (by omega)]
      exact ⟨_, rfl, by simp⟩
    · rw [if_neg h1]
      simp only
      by_cases h2 : n ≤ 11
      · rw [if_neg (by omega), if_pos ⟨by omega, h2⟩]
        have : strlen ((ergDigits v.toNat).take n ++ List.replicate (n - 11) nul) 0 = none := by
          unfold strlen
          rw [List.drop_zero, show n - 11 = 0 by omega, List.replicate_zero, List.append_nil,
            if_neg fun hm => hnn (List.mem_of_mem_take hm)]
        rw [this]
        rfl
      · have hs : strlen (ergDigits v.toNat ++ List.replicate (n - 11) nul) 0 = some 11 := by
          rw [show n - 11 = n - 12 + 1 by omega, List.replicate_succ, strlen_text hnn, hlen]
        rw [List.take_of_length_le (by omega), hs]
        simp only
        by_cases h3 : 15 < n
        · rw [if_pos h3, if_neg (by omega)]
          obtain ⟨b, e1, e2⟩ := erg_unit (n := n) (n - 11) hnn (by omega) (by omega)
          rw [hlen] at e1
          rw [e1]
          exact ⟨b, rfl, e2⟩
        · rw [if_neg h3, if_neg (by omega), if_pos (by omega)]
          exact ⟨_, rfl, by simp only [List.length_append, List.length_replicate]; omega⟩
  · rw [if_neg h9, if_neg h9]
    rw [if_neg h9] at hlen
    by_cases h1 : n ≤ d.length + 10
    · rw [if_pos h1, if_neg (by omega)]
      exact ⟨_, rfl, by simp⟩
    · rw [if_neg h1, if_pos (by omega)]
      simp only
      have hs : strlen (ergDigits v.toNat ++ List.replicate (n - d.length - 1) nul) 0 = some (d.length + 1) := by
        rw [show n - d.length - 1 = n - d.length - 2 + 1 by omega, List.replicate_succ, strlen_text hnn, hlen]
      rw [hs]
      simp only
      rw [if_neg (by omega)]
      obtain ⟨b, e1, e2⟩ := erg_unit (n := n) (n - d.length - 1) hnn (by omega) (by omega)
      rw [hlen] at e1
      rw [e1]
      exact ⟨b, rfl, e2⟩

/-! ## Addresses, token ids, paths -/

theorem base58_nonempty {b : Bytes} (h : b ≠ []) : (base58 b).length ≠ 0 := by
  intro h0
  have : base58 b = base58 [] := by rw [List.length_eq_zero_iff.1 h0]; rfl
  exact h (base58_inj this)

/-- C90: `format_b58_id` for all bytes and every size: there is no terminator if the text fills the
array. -/
theorem C90_base58 (raw : Bytes) (n : Nat) :
    Leaves n (base58 raw) (base58Left raw.length (base58 raw).length n)
      (formatB58Id raw (List.replicate n nul) n) := by
  unfold base58Left formatB58Id
  rw [base58Encode_eq]
  by_cases h0 : raw = []
  · subst h0
    rw [if_pos (.inl rfl), if_pos ⟨by decide, Nat.zero_le _⟩]
    obtain ⟨c, e1, e2⟩ := putAt_fits (b := List.replicate n nul) (i := 0) (s := base58 [])
      (by rw [List.length_replicate]; exact Nat.zero_le _)
    simp only
    rw [e1]
    simp only
    rw [if_pos (show (base58 []).length = 0 from rfl)]
    exact ⟨c, rfl, by simpa using e2⟩
  · have hk : raw.length ≠ 0 := fun h => h0 (List.length_eq_zero_iff.1 h)
    by_cases h1 : raw.length ≤ 120 ∧ (base58 raw).length ≤ n
    · rw [if_pos h1, if_neg (by omega)]
      simp only
      by_cases h2 : (base58 raw).length = n
      · rw [if_pos h2, putAt_eq (i := 0) (p := []) (m := List.replicate n nul) (q := []) (by simp) rfl (by simp [h2])]
        simp only
        rw [if_neg (base58_nonempty h0)]
        exact ⟨by simp, h2, base58_no_nul _⟩
      · rw [if_neg h2]
        obtain ⟨b, e1, e2⟩ := holds_put (n := n) (by omega) (base58_no_nul raw)
        rw [e1]
        simp only
        rw [if_neg (base58_nonempty h0)]
        exact ⟨b, rfl, e2⟩
    · rw [if_neg h1, if_pos (by omega)]
      exact ⟨_, rfl, by simp⟩

/-- C90: `format_hex_id` for every token id and every size. -/
theorem C90_id (nanoS : Bool) {id : Bytes} (h : id.length = 32) (n : Nat) :
    Leaves n (idText nanoS id) (idLeft n) (formatHexId nanoS id (List.replicate n nul) n) := by
  have hl : (hexText id).length = 64 := by rw [hexText_len, h]
  have hh : 2 * idHalf nanoS + 3 < 64 := by cases nanoS <;> decide
  rw [← hexIdText_eq h]
  unfold formatHexId formatHex idLeft
  by_cases hn : 64 < n
  · rw [if_pos hn, if_neg (by omega), putAt_eq (b := List.replicate n nul) (i := 0) (s := hexText id ++ [nul])
      (p := []) (m := List.replicate 65 nul) (q := List.replicate (n - 65) nul)
      (by rw [List.nil_append, List.replicate_append_replicate]; congr 1; omega) rfl (by simp [hl])]
    simp only [h]
    rw [if_neg (by decide)]
    obtain ⟨z, e1, e2⟩ := cutMiddle_eq (t := hexText id) (z := List.replicate (n - 65) nul) hl hh
    rw [show ((2 * (32 : Nat) + 1 : Int) - 1).toNat = 64 from rfl, List.nil_append, List.append_assoc,
      List.singleton_append]
    rw [e1]
    have e3 : hexIdText nanoS id = (hexText id).take (idHalf nanoS) ++ ['.', '.', '.'] ++
        (hexText id).drop (64 - idHalf nanoS) := by
      unfold hexIdText removeMiddle
      rw [hl, if_neg (by omega)]
    refine ⟨_, rfl, ?_, ⟨z, by rw [e3]⟩, ?_⟩
    · rw [e2]
      simp only [List.length_append, List.length_cons, List.length_replicate, hl]
      omega
    · rw [e3]
      simp only [List.mem_append, not_or]
      exact ⟨⟨fun g => hexText_no_nul id (List.mem_of_mem_take g), by decide⟩,
        fun g => hexText_no_nul id (List.mem_of_mem_drop g)⟩
  · rw [if_neg hn, if_pos (by omega)]
    exact ⟨_, rfl, by simp⟩

/-- C90: `bip32_path_format` for every path and every size: the text, cut to what fits (C36). -/
theorem C90_path (p : List UInt32) (n : Nat) :
    Leaves n ((pathText p).take (n - 1)) (pathLeft p.length (pathNeed p) n)
      (formatPath p (List.replicate n nul) n) := by
  unfold pathLeft
  by_cases h0 : p.length = 0 ∨ 10 < p.length
  · rw [if_pos h0]
    unfold formatPath
    rw [if_pos h0]
    exact ⟨_, rfl, by simp⟩
  · rw [if_neg h0]
    have hne : p ≠ [] := fun h => h0 (.inl (by rw [h]; rfl))
    by_cases h1 : n = 0
    · subst h1
      rw [if_pos rfl]
      unfold formatPath
      rw [if_neg h0]
      cases p with
      | nil => exact absurd rfl hne
      | cons c cs => rfl
    · rw [if_neg h1]
      obtain ⟨g1, g2⟩ := formatPath_eq p (n := n) (by omega)
      have e := C36_exact p n
      by_cases h2 : pathNeed p < n
      · rw [if_pos h2]
        rw [if_pos ⟨hne, by omega, h2⟩] at e
        exact g1 _ e
      · rw [if_neg h2]
        rw [if_neg (by omega)] at e
        exact ⟨_, g2 e, by simp⟩

/-- C90: the sizes used by the app are in the good part of all tables. -/
theorem C90_used :
    (∀ v : UInt64, numberLeft (Nat.toDigits 10 v.toNat).length 70 = .whole ∧
      ergLeft (Nat.toDigits 10 v.toNat).length 70 = .whole) ∧
    (∀ raw : Bytes, raw ≠ [] → raw.length ≤ 38 → base58Left raw.length (base58 raw).length 55 = .whole) ∧
    idLeft 70 = .whole ∧
    ∀ k need, pathLeft k need 60 ≠ .outside ∧ pathLeft k need 70 ≠ .outside := by
  refine ⟨fun v => ?_, fun raw h0 h => ?_, rfl, fun k need => ?_⟩
  · have := digits_u64 v
    unfold numberLeft ergLeft
    exact ⟨if_pos (by omega), by split <;> exact if_pos (by omega)⟩
  · have hk : raw.length ≠ 0 := fun h => h0 (List.length_eq_zero_iff.1 h)
    obtain ⟨t, _, rfl, h3⟩ := C37_address_fits raw 55 h (by decide)
    unfold base58Left
    rw [if_neg (by omega), if_neg (by omega)]
  · unfold pathLeft
    refine ⟨?_, ?_⟩ <;>
    · split
      · simp
      · rw [if_neg (by decide)]
        split <;> simp

/-- Some sizes, good and bad. -/
example : (formatErgAmount 111111111 (List.replicate 16 nul) 16).map (fun r => (String.ofList (cstr r.1), r.2)) =
      some ("0.111111111 ERG", true) ∧
    formatErgAmount 111111111 (List.replicate 11 nul) 11 = none ∧
    (formatErgAmount 111111111 (List.replicate 2 nul) 2).map (·.2) = some false ∧
    (formatErgAmount 111111111 (List.replicate 15 nul) 15).map (·.2) = some false ∧
    formatU64 [nul] 0 1 7 = none ∧ formatU64 [nul, nul] 0 2 7 = some (['7', nul], true) ∧
    (formatU64 [nul, nul] 0 2 17).map (·.2) = some false ∧
    formatB58Id [0, 0, 1, 0, 255] (List.replicate 5 nul) 5 = some ("11LZL".toList, true) ∧
    formatPath [1, 2] (List.replicate 4 nul) 4 = some (['1', '/', '2', nul], true) := by
  decide +kernel

end Ergo
