import Verif.Proof.Path
/-!
# C17 (path classes) and C36 (path text)
-/
namespace Ergo
open Spec

/-- C17: the account-key check accepts exactly the paths `m/44'/429'/a'/…` with all further
components hardened. -/
theorem C17_account_paths (p : List UInt32) :
    pathValidate p .accountGe3 = true ↔ IsAccountPath p := validate_account p

example : pathValidate [0x8000002C, 0x800001AD, 0x80000005] .accountGe3 = true ∧
    pathValidate [0x8000002C, 0x800001AD, 5] .accountGe3 = false ∧
    pathValidate [0x8000002C, 0x80000001, 0x80000005] .accountGe3 = false := by decide +kernel

/-- C17: the address check accepts exactly the paths `m/44'/429'/a'/{0,1}/i/…` with
non-hardened components from `i` on. -/
theorem C17_address_paths (p : List UInt32) :
    pathValidate p .addressGe5 = true ↔ IsAddressPath p := validate_address p

example : pathValidate [0x8000002C, 0x800001AD, 0x80000005, 1, 7] .addressGe5 = true ∧
    pathValidate [0x8000002C, 0x800001AD, 0x80000005, 2, 7] .addressGe5 = false ∧
    pathValidate [0x8000002C, 0x800001AD, 0x80000005, 1] .addressGe5 = false := by decide +kernel

/-- C17: the standard address check accepts exactly the address paths of five components. -/
theorem C17_address_paths5 (p : List UInt32) :
    pathValidate p .addressE5 = true ↔ IsAddressPath p ∧ p.length = 5 := validate_addressE5 p

example : pathValidate [0x8000002C, 0x800001AD, 0x80000005, 1, 7] .addressE5 = true ∧
    pathValidate [0x8000002C, 0x800001AD, 0x80000005, 1, 7, 7] .addressE5 = false := by
  decide +kernel

/-! ## C36 -/

/-- C36 (partial): a text that fits the buffer is produced completely, for every path of 1 to 10
components.  Missing for the full claim: a text that does not fit is not always refused, see
`C36_negation`. -/
theorem C36_partial (p : List UInt32) (n : Nat) (h0 : p ≠ []) (h10 : p.length ≤ 10)
    (hfit : (pathText p).length < n) : pathFormat p n = some (pathText p) := by
  unfold pathFormat
  have := List.length_pos_iff.2 h0
  rw [if_neg (by omega), pathFormatLoop_fits p [] (by simpa using hfit)]
  rfl

example : pathFormat [0x8000002C, 0x800001AD, 0x80000000, 1, 12] 60 =
    some "44'/429'/0'/1/12".toList := by decide +kernel

/-- C36 (partial): whatever is shown is the path text cut to the buffer, never anything else. -/
theorem C36_prefix_partial (p : List UInt32) (n : Nat) (t : List Char) (hn : 0 < n)
    (h : pathFormat p n = some t) : t = (pathText p).take (n - 1) := by
  unfold pathFormat at h
  split at h
  · simp at h
  · simpa using (pathFormatLoop_some p [] t (by simpa using hn) h).1

example : pathFormat [12345, 678] 8 = some "12345/6".toList ∧
    pathFormat [12345, 678] 7 = none ∧ pathFormat [12345, 0x80000000] 8 = none := by decide +kernel

/-- C36: different paths have different (complete) texts. -/
theorem C36_text_injective {p q : List UInt32} (h : pathText p = pathText q) : p = q :=
  pathText_inj h

example : pathText [1, 12] = "1/12".toList ∧ pathText [11, 2] = "11/2".toList ∧
    pathText [0x80000001, 12] = "1'/12".toList := by decide +kernel

/-- C36: an account path is shown completely or refused, whatever the buffer. -/
theorem C36_account (p : List UInt32) (n : Nat) (t : List Char) (hn : 0 < n)
    (hp : IsAccountPath p) (h : pathFormat p n = some t) : t = pathText p := by
  have hl : ∃ c, p.getLast? = some c ∧ Hardened c := by
    obtain ⟨a, more, rfl, ha, hm⟩ := hp
    cases hmore : more.getLast? with
    | none =>
      rw [List.getLast?_eq_none_iff] at hmore
      subst hmore
      exact ⟨a, by simp, ha⟩
    | some c =>
      refine ⟨c, ?_, hm c (List.mem_of_getLast? hmore)⟩
      rw [List.getLast?_cons, List.getLast?_cons, List.getLast?_cons, hmore]
      simp
  unfold pathFormat at h
  split at h
  · simp at h
  · simpa using (pathFormatLoop_some p [] t (by simpa using hn) h).2 hl

/-- C36: two account paths with the same shown text are equal. -/
theorem C36_account_injective (p q : List UInt32) (n : Nat) (t : List Char) (hn : 0 < n)
    (hp : IsAccountPath p) (hq : IsAccountPath q) (h1 : pathFormat p n = some t)
    (h2 : pathFormat q n = some t) : p = q :=
  pathText_inj ((C36_account p n t hn hp h1).symm.trans (C36_account q n t hn hq h2))

example : pathFormat [0x8000002C, 0x800001AD, 0x80000002] 60 = some "44'/429'/2'".toList ∧
    pathFormat [0x8000002C, 0x800001AD, 0xFFFFFFFF, 0xFFFFFFFF, 0xFFFFFFFF, 0xFFFFFFFF,
      0xFFFFFFFF] 60 = none := by decide +kernel

/-- Length of the text of an address path. -/
theorem addressText_length (p : List UInt32) (hp : IsAddressPath p) :
    (pathText p).length ≤ 11 * p.length - 22 := by
  obtain ⟨a, ch, i, more, rfl, ha, hch, hi, hm⟩ := hp
  have h1 := compText_length_le a
  have h2 := pathText_length_le (i :: more) (by
    intro c hc
    have : ¬ Hardened c := by
      rcases List.mem_cons.1 hc with rfl | hc
      · exact hi
      · exact hm c hc
    unfold Hardened at this; omega)
  have e1 : (compText 0x8000002C).length = 3 := by decide +kernel
  have e2 : (compText 0x800001AD).length = 4 := by decide +kernel
  have e3 : (compText ch).length = 1 := by
    rcases hch with rfl | rfl <;> decide +kernel
  simp only [pathText, List.length_append, List.length_cons, e1, e2, e3] at h2 ⊢
  split at h1 <;> omega

/-- C36: address paths of up to 7 components (8 in the larger output buffer) are always shown
completely. -/
theorem C36_address (p : List UInt32) (n : Nat) (hp : IsAddressPath p)
    (hn : 11 * p.length - 22 < n) (h10 : p.length ≤ 10) :
    pathFormat p n = some (pathText p) := by
  refine C36_partial p n ?_ h10 (lt_of_le_of_lt (addressText_length p hp) hn)
  obtain ⟨a, ch, i, more, rfl, _⟩ := hp
  simp

/-- C36: two address paths of up to 7 components with the same text on the 60-byte signing and
address screens are equal. -/
theorem C36_address_injective (p q : List UInt32) (hp : IsAddressPath p) (hq : IsAddressPath q)
    (lp : p.length ≤ 7) (lq : q.length ≤ 7) (h : pathFormat p 60 = pathFormat q 60) : p = q := by
  rw [C36_address p 60 hp (by omega) (by omega), C36_address q 60 hq (by omega) (by omega)] at h
  exact pathText_inj (Option.some.inj h)

example : IsAddressPath [0x8000002C, 0x800001AD, 0xFFFFFFFF, 1, 2147483647, 2147483647,
    2147483647] := by
  rw [← validate_address]; decide +kernel

/-- C36 is false: two different valid signing paths of 8 components are shown with the same
text. -/
theorem C36_negation : ∃ p q : List UInt32, p ≠ q ∧ IsAddressPath p ∧ IsAddressPath q ∧
    ∃ t, pathFormat p 60 = some t ∧ pathFormat q 60 = some t := by
  refine ⟨[0x8000002C, 0x800001AD, 0xFFFFFFFF, 1, 2147483647, 2147483647, 2147483647, 2147483647],
    [0x8000002C, 0x800001AD, 0xFFFFFFFF, 1, 2147483647, 2147483647, 2147483647, 2147000000],
    by decide, ?_, ?_, "44'/429'/2147483647'/1/2147483647/2147483647/2147483647/214".toList, ?_, ?_⟩
  · rw [← validate_address]; decide +kernel
  · rw [← validate_address]; decide +kernel
  · decide +kernel
  · decide +kernel

end Ergo
