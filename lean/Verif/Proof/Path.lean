import Verif.Model.Bip32
import Verif.Spec.Path
import Mathlib.Tactic.NormNum
/-!
Helper lemmas about BIP-32 paths.
-/
namespace Ergo
open Spec

theorem hardened_iff (c : UInt32) : c ≥ hardened ↔ Hardened c := by
  unfold Hardened hardened
  rw [ge_iff_le, UInt32.le_iff_toNat_le]
  show 2147483648 ≤ _ ↔ _
  norm_num

theorem hardened_le (c : UInt32) : hardened ≤ c ↔ Hardened c := hardened_iff c

theorem lt_hardened_iff (c : UInt32) : c < hardened ↔ ¬ Hardened c := by
  unfold Hardened hardened
  rw [UInt32.lt_iff_toNat_lt]
  show _ < 2147483648 ↔ _
  omega

theorem validate_account (p : List UInt32) :
    pathValidate p .accountGe3 = true ↔ IsAccountPath p := by
  unfold pathValidate IsAccountPath
  match p with
  | [] => simp
  | [x] => simp
  | [x, y] => simp
  | x :: y :: a :: more =>
    have e1 : purpose44 = 0x8000002C := rfl
    have e2 : coinErgo = 0x800001AD := rfl
    simp only [List.length_cons, List.getD_cons_zero, List.getD_cons_succ, e1, e2, List.drop_succ_cons,
      List.drop_zero, List.all_cons, List.cons.injEq]
    by_cases hx : x = 0x8000002C
    · by_cases hy : y = 0x800001AD
      · subst hx hy
        simp [hardened_le]
      · simp [hy]
    · simp [hx]

theorem validate_address (p : List UInt32) :
    pathValidate p .addressGe5 = true ↔ IsAddressPath p := by
  unfold pathValidate IsAddressPath
  match p with
  | [] => simp
  | [x] => simp
  | [x, y] => simp
  | [x, y, z] => simp
  | [x, y, z, w] => simp
  | x :: y :: a :: ch :: i :: more =>
    have e1 : purpose44 = 0x8000002C := rfl
    have e2 : coinErgo = 0x800001AD := rfl
    simp only [List.length_cons, List.getD_cons_zero, List.getD_cons_succ, e1, e2, List.drop_succ_cons,
      List.drop_zero, List.all_cons, List.cons.injEq]
    by_cases hx : x = 0x8000002C
    · by_cases hy : y = 0x800001AD
      · subst hx hy
        simp only [lt_hardened_iff, hardened_iff]
        by_cases ha : Hardened a
        · by_cases hc : ch = 0 ∨ ch = 1
          · simp [hardened_le, lt_hardened_iff, ha, hc]
          · have : ch ≠ 0 ∧ ch ≠ 1 := not_or.1 hc
            simp [lt_hardened_iff, ha, this]
        · simp [lt_hardened_iff, ha]
      · simp [hy]
    · simp [hx]

theorem validate_addressE5 (p : List UInt32) :
    pathValidate p .addressE5 = true ↔ IsAddressPath p ∧ p.length = 5 := by
  rw [← validate_address]
  unfold pathValidate
  match p with
  | [] => simp
  | [x] => simp
  | [x, y] => simp
  | [x, y, z] => simp
  | [x, y, z, w] => simp
  | x :: y :: a :: ch :: i :: more =>
    simp only [List.length_cons, List.getD_cons_zero, List.getD_cons_succ, List.drop_succ_cons,
      List.drop_zero, List.all_cons]
    by_cases hx : x = purpose44
    · by_cases hy : y = coinErgo
      · cases more with
        | nil =>
          simp only [hx, hy, lt_hardened_iff, hardened_iff]
          by_cases ha : Hardened a <;> by_cases hc0 : ch = 0 <;> by_cases hc1 : ch = 1 <;>
            by_cases hi : Hardened i <;> simp [ha, hc0, hc1, hi]
        | cons b bs => simp
      · simp [hy]
    · simp [hx]

/-! ## Text -/

theorem compText_eq (c : UInt32) :
    decimal (c &&& 0x7FFFFFFF).toNat ++ (if c &&& 0x80000000 ≠ 0 then ['\''] else []) =
      compText c := by
  have h1 : (c &&& 0x7FFFFFFF).toNat = c.toNat % 2 ^ 31 := by
    rw [UInt32.toNat_and]; exact Nat.and_two_pow_sub_one_eq_mod c.toNat 31
  have h2 : (c &&& 0x80000000 ≠ 0) ↔ 2 ^ 31 ≤ c.toNat := by
    have hc := c.toNat_lt
    have e : (c &&& 0x80000000).toNat = 2 ^ 31 * (c.toNat / 2 ^ 31 % 2) := by
      rw [UInt32.toNat_and]
      show c.toNat &&& 2 ^ 31 = _
      have e1 : c.toNat = c.toNat / 2 ^ 31 * 2 ^ 31 + c.toNat % 2 ^ 31 := by omega
      have hd : c.toNat / 2 ^ 31 = 0 ∨ c.toNat / 2 ^ 31 = 1 := by omega
      have t := @Nat.testBit_eq_decide_div_mod_eq 31 c.toNat
      apply Nat.eq_of_testBit_eq
      intro i
      rw [Nat.testBit_and, Nat.testBit_two_pow]
      rcases hd with hd | hd
      · rw [hd] at t ⊢
        by_cases hi : 31 = i
        · subst hi; rw [t]; simp
        · simp [hi]
      · rw [hd] at t ⊢
        by_cases hi : 31 = i
        · subst hi; rw [t]; decide
        · simp only [hi, decide_false, Bool.and_false]
          show _ = (2 ^ 31).testBit i
          rw [Nat.testBit_two_pow]; simp [hi]
    rw [ne_eq, ← UInt32.toNat_inj, e]
    show ¬ _ = 0 ↔ _
    omega
  unfold compText decimal
  have hc := c.toNat_lt
  by_cases h : c.toNat < 2 ^ 31
  · have h' : ¬ (c &&& 0x80000000 ≠ 0) := by rw [h2]; omega
    rw [if_pos h, if_neg h', h1, Nat.mod_eq_of_lt h, List.append_nil]
  · have h' : c &&& 0x80000000 ≠ 0 := by rw [h2]; omega
    have e : c.toNat % 2 ^ 31 = c.toNat - 2 ^ 31 := by omega
    rw [if_neg h, if_pos h', h1, e]

theorem decimal_ne_nil (n : Nat) : decimal n ≠ [] := Nat.toDigits_ne_nil

/-- `snput` writes the whole text when it fits. -/
theorem snput_fits {n : Nat} {acc txt : List Char} (hne : txt ≠ [])
    (h : acc.length + txt.length < n) : snput n acc txt = some (acc ++ txt) := by
  have hl := List.length_pos_iff.2 hne
  unfold snput
  have e : txt.take (n - acc.length - 1) = txt := List.take_of_length_le (by omega)
  simp only [e]
  rw [if_neg (by omega)]

/-- If `snput` succeeds, the text is complete or the buffer is full. -/
theorem snput_some {n : Nat} {acc txt r : List Char} (h : snput n acc txt = some r) :
    (r = acc ++ txt ∧ acc.length + txt.length < n) ∨
      (r = (acc ++ txt).take (n - 1) ∧ r.length = n - 1 ∧ r.length < acc.length + txt.length) := by
  unfold snput at h
  simp only at h
  split at h
  · simp at h
  · rename_i hc
    simp only [Option.some.injEq] at h
    rw [List.length_take] at hc
    by_cases hf : acc.length + txt.length < n
    · left
      rw [List.take_of_length_le (by omega)] at h
      exact ⟨h.symm, hf⟩
    · right
      have : acc.length < n := by omega
      have e : (acc ++ txt).take (n - 1) = acc ++ txt.take (n - acc.length - 1) := by
        rw [List.take_append, List.take_of_length_le (by omega)]
        congr 2; omega
      refine ⟨by rw [e, h], ?_, ?_⟩
      · rw [← h, List.length_append, List.length_take]; omega
      · rw [← h, List.length_append, List.length_take]; omega

/-- Nothing more can be written into a full buffer. -/
theorem snput_full {n : Nat} {acc txt : List Char} (h : acc.length = n - 1) :
    snput n acc txt = none := by
  unfold snput
  have e : n - acc.length - 1 = 0 := by omega
  rw [e]
  simp

theorem pathFormatOne_fits {n : Nat} {acc : List Char} {c : UInt32} {last : Bool}
    (h : acc.length + (compText c).length + (if last then 0 else 1) < n) :
    pathFormatOne n acc c last = some (acc ++ compText c ++ if last then [] else ['/']) := by
  have hc := compText_eq c
  have hlen := congrArg List.length hc
  rw [List.length_append] at hlen
  unfold pathFormatOne
  by_cases hh : c &&& 0x80000000 ≠ 0
  · rw [if_pos hh] at hc hlen
    simp only [List.length_cons, List.length_nil] at hlen
    rw [snput_fits (decimal_ne_nil _) (by split at h <;> omega)]
    simp only [if_pos hh]
    rw [snput_fits (by simp) (by simp only [List.length_append, List.length_cons, List.length_nil]; split at h <;> omega)]
    simp only
    cases last with
    | true => simp [← hc]
    | false =>
      simp only [Bool.false_eq_true, if_false] at h ⊢
      rw [snput_fits (by simp)]
      · simp [← hc]
      · simp only [List.length_append, List.length_cons, List.length_nil]; omega
  · rw [if_neg hh] at hc hlen
    simp only [List.length_nil] at hlen
    rw [snput_fits (decimal_ne_nil _) (by split at h <;> omega)]
    simp only [if_neg hh]
    cases last with
    | true => simp [← hc]
    | false =>
      simp only [Bool.false_eq_true, if_false] at h ⊢
      rw [snput_fits (by simp)]
      · simp [← hc]
      · simp only [List.length_append, List.length_cons, List.length_nil]; omega

theorem pathText_cons (c : UInt32) (cs : List UInt32) :
    pathText (c :: cs) = compText c ++ (if cs.isEmpty then [] else ['/']) ++ pathText cs := by
  cases cs with
  | nil => simp [pathText]
  | cons d ds => simp [pathText]

theorem pathFormatLoop_fits {n : Nat} : ∀ (p : List UInt32) (acc : List Char),
    acc.length + (pathText p).length < n → pathFormatLoop n acc p = some (acc ++ pathText p)
  | [], acc, _ => by simp [pathFormatLoop, pathText]
  | c :: cs, acc, h => by
    rw [pathText_cons] at h ⊢
    simp only [List.length_append] at h
    simp only [pathFormatLoop]
    rw [pathFormatOne_fits (by cases cs <;> simp at h ⊢ <;> omega)]
    simp only
    rw [pathFormatLoop_fits cs _ (by cases cs <;> simp at h ⊢ <;> omega)]
    simp

/-- A component is written completely, or it is the last, not hardened, and fills the buffer. -/
theorem pathFormatOne_some {n : Nat} {acc r : List Char} {c : UInt32} {last : Bool}
    (h : pathFormatOne n acc c last = some r) :
    (r = acc ++ compText c ++ (if last then [] else ['/']) ∧ r.length < n) ∨
    (r = (acc ++ compText c ++ if last then [] else ['/']).take (n - 1) ∧ r.length = n - 1 ∧
      (last = true → ¬ Hardened c)) := by
  have hc := compText_eq c
  have hhard : (c &&& 0x80000000 ≠ 0) ↔ Hardened c := by
    have hc' := hc
    unfold compText at hc'
    unfold Hardened
    by_cases hlt : c.toNat < 2 ^ 31
    · rw [if_pos hlt] at hc'
      constructor
      · intro hh
        rw [if_pos hh] at hc'
        have : '\'' ∈ Nat.toDigits 10 c.toNat := by rw [← hc']; simp
        have := Nat.isDigit_of_mem_toDigits (by omega) (by omega) this
        exact absurd this (by decide)
      · intro hh; omega
    · rw [if_neg hlt] at hc'
      constructor
      · intro _; omega
      · intro _ hz
        rw [if_neg (by simp [hz])] at hc'
        have : '\'' ∈ decimal (c &&& 0x7FFFFFFF).toNat := by
          rw [List.append_nil] at hc'; rw [hc']; simp
        have := Nat.isDigit_of_mem_toDigits (by omega) (by omega) this
        exact absurd this (by decide)
  unfold pathFormatOne at h
  cases h1 : snput n acc (decimal (c &&& 0x7FFFFFFF).toNat) with
  | none => rw [h1] at h; simp at h
  | some a1 =>
    rw [h1] at h
    simp only at h
    rcases snput_some h1 with ⟨e1, l1⟩ | ⟨e1, l1, l1'⟩
    · by_cases hh : c &&& 0x80000000 ≠ 0
      · rw [if_pos hh] at h hc
        cases h2 : snput n a1 ['\''] with
        | none => rw [h2] at h; simp at h
        | some a2 =>
          rw [h2] at h
          simp only at h
          rcases snput_some h2 with ⟨e2, l2⟩ | ⟨e2, l2, l2'⟩
          · have ea2 : a2 = acc ++ compText c := by rw [e2, e1, ← hc]; simp
            cases last with
            | true =>
              simp only [if_true, Option.some.injEq] at h
              left; refine ⟨by simp [← h, ea2], ?_⟩
              rw [← h, e2]; simpa using l2
            | false =>
              simp only [Bool.false_eq_true, if_false] at h
              rcases snput_some h with ⟨e3, l3⟩ | ⟨e3, l3, _⟩
              · left; refine ⟨by simp [e3, ea2], ?_⟩
                rw [e3]; simpa using l3
              · right; refine ⟨by simp [e3, ea2], l3, by simp⟩
          · exfalso
            have hal : a1.length = n - 1 := by
              simp only [List.length_cons, List.length_nil] at l2'
              rw [e1] at l2' ⊢
              simp only [List.length_append] at l2' l1 ⊢
              omega
            rw [snput_full hal] at h2; simp at h2
      · rw [if_neg hh] at h hc
        rw [List.append_nil] at hc
        simp only at h
        have ea1 : a1 = acc ++ compText c := by rw [e1, ← hc]
        cases last with
        | true =>
          simp only [if_true, Option.some.injEq] at h
          left; refine ⟨by simp [← h, ea1], ?_⟩
          rw [← h, e1]; simpa using l1
        | false =>
          simp only [Bool.false_eq_true, if_false] at h
          rcases snput_some h with ⟨e3, l3⟩ | ⟨e3, l3, _⟩
          · left; refine ⟨by simp [e3, ea1], ?_⟩
            rw [e3]; simpa using l3
          · right; refine ⟨by simp [e3, ea1], l3, by simp⟩
    · by_cases hh : c &&& 0x80000000 ≠ 0
      · rw [if_pos hh, snput_full l1] at h; simp at h
      · rw [if_neg hh] at h hc
        rw [List.append_nil] at hc
        simp only at h
        cases last with
        | true =>
          simp only [if_true, Option.some.injEq] at h
          right; refine ⟨by rw [← h, e1, hc]; simp, by rw [← h]; exact l1, ?_⟩
          intro _ hhc
          exact hh (hhard.2 hhc)
        | false =>
          simp only [Bool.false_eq_true, if_false] at h
          rw [snput_full l1] at h; simp at h

theorem pathFormatLoop_full {n : Nat} {acc r : List Char} (h : acc.length = n - 1)
    (p : List UInt32) (hr : pathFormatLoop n acc p = some r) : p = [] := by
  cases p with
  | nil => rfl
  | cons c cs =>
    exfalso
    simp only [pathFormatLoop, pathFormatOne, snput_full h] at hr
    simp at hr

/-- A successful formatting gives the text cut to the buffer; if it was cut, the last component is
not hardened. -/
theorem pathFormatLoop_some {n : Nat} : ∀ (p : List UInt32) (acc r : List Char),
    acc.length < n → pathFormatLoop n acc p = some r →
    r = (acc ++ pathText p).take (n - 1) ∧
      ((∃ c, p.getLast? = some c ∧ Hardened c) → r = acc ++ pathText p)
  | [], acc, r, hl, h => by
    simp only [pathFormatLoop, Option.some.injEq] at h
    subst h
    simp only [pathText, List.append_nil]
    exact ⟨(List.take_of_length_le (by omega)).symm, fun _ => trivial⟩
  | c :: cs, acc, r, hl, h => by
    simp only [pathFormatLoop] at h
    cases h1 : pathFormatOne n acc c cs.isEmpty with
    | none => rw [h1] at h; simp at h
    | some a1 =>
      rw [h1] at h
      simp only at h
      rw [pathText_cons]
      rcases pathFormatOne_some h1 with ⟨e1, l1⟩ | ⟨e1, l1, hlast⟩
      · obtain ⟨h2, h3⟩ := pathFormatLoop_some cs a1 r l1 h
        subst e1
        refine ⟨by rw [h2]; simp, ?_⟩
        rintro ⟨d, hd, hh⟩
        cases cs with
        | nil =>
          simp only [pathFormatLoop, Option.some.injEq] at h
          rw [← h]; simp [pathText]
        | cons e es =>
          rw [h3 ⟨d, by simpa using hd, hh⟩]; simp
      · have hcs := pathFormatLoop_full l1 cs h
        subst hcs
        simp only [pathFormatLoop, Option.some.injEq] at h
        subst h
        refine ⟨by simpa [pathText] using e1, ?_⟩
        rintro ⟨d, hd, hh⟩
        simp only [List.getLast?_singleton, Option.some.injEq] at hd
        subst hd
        exact absurd hh (hlast rfl)

/-! ## Injectivity of the text -/

theorem toDigits_inj {a b : Nat} (h : Nat.toDigits 10 a = Nat.toDigits 10 b) : a = b := by
  rw [← Nat.ofDigitChars_ten_toDigits (n := a), h, Nat.ofDigitChars_ten_toDigits]

theorem compText_no_slash (c : UInt32) : ∀ x ∈ compText c, x ≠ '/' := by
  intro x hx
  unfold compText at hx
  split at hx
  · have := Nat.isDigit_of_mem_toDigits (by omega) (by omega) hx
    rintro rfl; exact absurd this (by decide)
  · rcases List.mem_append.1 hx with h | h
    · have := Nat.isDigit_of_mem_toDigits (by omega) (by omega) h
      rintro rfl; exact absurd this (by decide)
    · simp at h; rw [h]; decide

theorem compText_inj {c d : UInt32} (h : compText c = compText d) : c = d := by
  unfold compText at h
  have hq : ∀ n, '\'' ∉ Nat.toDigits 10 n := by
    intro n hx
    exact absurd (Nat.isDigit_of_mem_toDigits (by omega) (by omega) hx) (by decide)
  rw [← UInt32.toNat_inj]
  split at h <;> split at h
  · exact toDigits_inj h
  · exact absurd (by rw [h]; simp) (hq c.toNat)
  · exact absurd (by rw [← h]; simp) (hq d.toNat)
  · have := toDigits_inj (List.append_cancel_right h)
    omega

/-- Splitting at the first separator. -/
theorem split_sep {x : Char} : ∀ {a b r s : List Char}, (∀ y ∈ a, y ≠ x) → (∀ y ∈ b, y ≠ x) →
    (r = [] ∨ ∃ r', r = x :: r') → (s = [] ∨ ∃ s', s = x :: s') → a ++ r = b ++ s → a = b ∧ r = s
  | [], [], r, s, _, _, _, _, h => ⟨rfl, by simpa using h⟩
  | [], b :: bs, r, s, _, hb, hr, _, h => by
    rcases hr with rfl | ⟨r', rfl⟩
    · simp at h
    · simp only [List.nil_append, List.cons_append, List.cons.injEq] at h
      exact absurd h.1.symm (hb b (by simp))
  | a :: as, [], r, s, ha, _, _, hs, h => by
    rcases hs with rfl | ⟨s', rfl⟩
    · simp at h
    · simp only [List.nil_append, List.cons_append, List.cons.injEq] at h
      exact absurd h.1 (ha a (by simp))
  | a :: as, b :: bs, r, s, ha, hb, hr, hs, h => by
    simp only [List.cons_append, List.cons.injEq] at h
    have := split_sep (fun y hy => ha y (List.mem_cons_of_mem _ hy))
      (fun y hy => hb y (List.mem_cons_of_mem _ hy)) hr hs h.2
    exact ⟨by rw [h.1, this.1], this.2⟩

theorem compText_ne_nil (c : UInt32) : compText c ≠ [] := by
  unfold compText
  split
  · exact Nat.toDigits_ne_nil
  · simp

theorem pathText_inj : ∀ {p q : List UInt32}, pathText p = pathText q → p = q
  | [], [], _ => rfl
  | [], c :: cs, h => by
    rw [pathText_cons] at h
    simp only [pathText, List.append_assoc] at h
    exact absurd (List.append_eq_nil_iff.1 h.symm).1 (compText_ne_nil c)
  | c :: cs, [], h => by
    rw [pathText_cons] at h
    simp only [pathText, List.append_assoc] at h
    exact absurd (List.append_eq_nil_iff.1 h).1 (compText_ne_nil c)
  | c :: cs, d :: ds, h => by
    rw [pathText_cons, pathText_cons, List.append_assoc, List.append_assoc] at h
    have key : ∀ es : List UInt32, (if es.isEmpty then [] else ['/']) ++ pathText es = [] ∨
        ∃ r', (if es.isEmpty then [] else ['/']) ++ pathText es = '/' :: r' := by
      intro es; cases es <;> simp [pathText]
    have := split_sep (compText_no_slash c) (compText_no_slash d) (key cs) (key ds) h
    have hc := compText_inj this.1
    subst hc
    cases cs with
    | nil =>
      cases ds with
      | nil => rfl
      | cons e es => simp [pathText] at this
    | cons e es =>
      cases ds with
      | nil => simp [pathText] at this
      | cons e' es' =>
        have h2 := this.2
        simp only [List.isEmpty_cons, Bool.false_eq_true, if_false, List.cons_append,
          List.nil_append, List.cons.injEq, true_and] at h2
        rw [pathText_inj h2]

/-- Length of a component text. -/
theorem compText_length_le (c : UInt32) :
    (compText c).length ≤ 10 + (if c.toNat < 2 ^ 31 then 0 else 1) := by
  have hc := c.toNat_lt
  unfold compText
  split
  · exact (Nat.length_toDigits_le_iff (by omega) (by omega)).2 (by norm_num; omega)
  · have : (Nat.toDigits 10 (c.toNat - 2 ^ 31)).length ≤ 10 :=
      (Nat.length_toDigits_le_iff (by omega) (by omega)).2 (by norm_num; omega)
    simp only [List.length_append, List.length_cons, List.length_nil]
    omega

theorem pathText_length_le : ∀ (p : List UInt32), (∀ c ∈ p, c.toNat < 2 ^ 31) →
    (pathText p).length ≤ 11 * p.length - 1
  | [], _ => by simp [pathText]
  | [c], h => by
    have := compText_length_le c
    rw [if_pos (h c (by simp))] at this
    simp [pathText]; omega
  | c :: d :: cs, h => by
    have h1 := compText_length_le c
    rw [if_pos (h c (by simp))] at h1
    have h2 := pathText_length_le (d :: cs) (fun x hx => h x (List.mem_cons_of_mem _ hx))
    simp only [pathText, List.length_append, List.length_cons] at h2 ⊢
    omega

end Ergo
