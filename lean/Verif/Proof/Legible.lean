import Verif.Proof.DrawPage
import Verif.Proof.Path
import Mathlib.Data.Nat.ModEq
/-!
# Different values have different texts
-/
namespace Ergo
open Spec

theorem digits_mod {B : Nat} {v w : Nat} : ∀ k, (∀ j < k, v / B ^ j % B = w / B ^ j % B) →
    v % B ^ k = w % B ^ k
  | 0, _ => by simp [Nat.mod_one]
  | k + 1, h => by
    rw [Nat.mod_pow_succ, Nat.mod_pow_succ, digits_mod k (fun j hj => h j (by omega)), h k (by omega)]

theorem map_range_inj {α : Type} {f g : Nat → α} {k : Nat}
    (h : (List.range k).map f = (List.range k).map g) : ∀ i < k, f i = g i := by
  intro i hi
  have := congrArg (·[i]?) h
  simpa [List.getElem?_map, List.getElem?_range hi] using this

theorem lastDigits_inj {k v w : Nat} (h : lastDigits k v = lastDigits k w) : v % 10 ^ k = w % 10 ^ k := by
  refine digits_mod k fun j hj => ?_
  have h1 := map_range_inj h (k - 1 - j) (by omega)
  rw [show k - 1 - (k - 1 - j) = j by omega] at h1
  have : ∀ a < 10, ∀ b < 10, "0123456789".toList.getD a '?' = "0123456789".toList.getD b '?' → a = b := by
    decide
  exact this _ (Nat.mod_lt _ (by decide)) _ (Nat.mod_lt _ (by decide)) h1

theorem ergText_inj {v w : Nat} (h : ergText v = ergText w) : v = w := by
  unfold ergText at h
  have h1 := List.append_cancel_right h
  obtain ⟨h2, h3⟩ := List.append_inj' h1 (by rw [lastDigits_length, lastDigits_length])
  have h4 := toDigits_inj (List.append_cancel_right h2)
  have h5 := lastDigits_inj h3
  rw [← Nat.div_add_mod v (10 ^ 9), ← Nat.div_add_mod w (10 ^ 9), h4, h5]

theorem appText_inj {v w : UInt32} (h : shownText (.appToken v) = shownText (.appToken w)) : v = w := by
  unfold shownText at h
  have h1 := List.append_cancel_left h
  have h2 : v.toNat % 16 ^ 8 = w.toNat % 16 ^ 8 := by
    refine digits_mod 8 fun j hj => ?_
    have h3 := map_range_inj h1 (7 - j) (by omega)
    rw [show 7 - (7 - j) = j by omega] at h3
    have : ∀ a < 16, ∀ b < 16, "0123456789abcdef".toList.getD a '?' = "0123456789abcdef".toList.getD b '?' →
      a = b := by decide
    exact this _ (Nat.mod_lt _ (by decide)) _ (Nat.mod_lt _ (by decide)) h3
  have a := v.toNat_lt
  have b := w.toNat_lt
  rw [← UInt32.toNat_inj]
  omega

theorem toDigits_digit {n : Nat} : ∀ c ∈ Nat.toDigits 10 n, c.isDigit = true :=
  fun _ hc => Nat.isDigit_of_mem_toDigits (by decide) (by decide) hc

theorem toDigits_head (n : Nat) : ∃ c l, Nat.toDigits 10 n = c :: l ∧ c.isDigit = true := by
  cases h : Nat.toDigits 10 n with
  | nil => exact absurd h Nat.toDigits_ne_nil
  | cons c l => exact ⟨c, l, rfl, toDigits_digit c (by rw [h]; simp)⟩

theorem erg_dot (v : Nat) : '.' ∈ ergText v := by simp [ergText]
theorem erg_no_x (v : Nat) : 'x' ∉ ergText v := by
  unfold ergText
  intro h
  simp only [List.mem_append] at h
  rcases h with ((h | h) | h) | h
  · exact absurd (toDigits_digit _ h) (by decide)
  · exact absurd h (by decide)
  · obtain ⟨i, _, e⟩ := List.mem_map.1 h
    have : ∀ d < 10, "0123456789".toList.getD d '?' ≠ 'x' := by decide
    exact this _ (Nat.mod_lt _ (by decide)) e
  · exact absurd h (by decide)

theorem erg_head (n : Nat) : ∃ c l, ergText n = c :: l ∧ c.isDigit = true := by
  obtain ⟨c, l, e, h⟩ := toDigits_head (n / 10 ^ 9)
  exact ⟨c, _, by unfold ergText; rw [e]; rfl, h⟩

/-- The kind of number, read off the text. -/
def textKind (t : List Char) : Nat :=
  if t.head? = some 'M' then 0 else if t.head? = some 'B' then 1
  else if 'x' ∈ t then 2 else if '.' ∈ t then 3 else 4

theorem kind_app (v : UInt32) : textKind (shownText (.appToken v)) = 2 := by
  have h1 : (shownText (.appToken v)).head? = some '0' := rfl
  have h2 : 'x' ∈ shownText (.appToken v) := by
    unfold shownText
    exact List.mem_append_left _ (by decide)
  unfold textKind
  rw [h1, if_neg (by decide), if_neg (by decide), if_pos h2]

theorem head_digit {t : List Char} (h : ∃ c l, t = c :: l ∧ c.isDigit = true) :
    t.head? ≠ some 'M' ∧ t.head? ≠ some 'B' := by
  obtain ⟨c, l, rfl, hd⟩ := h
  simp only [List.head?_cons, ne_eq, Option.some.injEq]
  constructor <;> · rintro rfl; exact absurd hd (by decide)

theorem kind_erg (v : UInt64) : textKind (shownText (.erg v)) = 3 := by
  unfold shownText
  obtain ⟨h1, h2⟩ := head_digit (erg_head v.toNat)
  unfold textKind
  rw [if_neg h1, if_neg h2, if_neg (erg_no_x _), if_pos (erg_dot _)]

theorem kind_amount (v : UInt64) : textKind (shownText (.amount v)) = 4 := by
  unfold shownText
  obtain ⟨h1, h2⟩ := head_digit (toDigits_head v.toNat)
  unfold textKind
  rw [if_neg h1, if_neg h2, if_neg (fun h => absurd (toDigits_digit _ h) (by decide)),
    if_neg (fun h => absurd (toDigits_digit _ h) (by decide))]

theorem kind_minting (v : Nat) : textKind (shownText (.minting v)) = 0 := by
  have h1 : (shownText (.minting v)).head? = some 'M' := rfl
  unfold textKind
  rw [h1, if_pos rfl]

theorem kind_burning (v : Nat) : textKind (shownText (.burning v)) = 1 := by
  have h1 : (shownText (.burning v)).head? = some 'B' := rfl
  unfold textKind
  rw [h1, if_neg (by decide), if_pos rfl]

theorem ergShown_inj {v w : UInt64} (h : shownText (.erg v) = shownText (.erg w)) : v = w := by
  unfold shownText at h
  exact UInt64.toNat_inj.1 (ergText_inj h)

theorem amountShown_inj {v w : UInt64} (h : shownText (.amount v) = shownText (.amount w)) : v = w := by
  unfold shownText at h
  exact UInt64.toNat_inj.1 (toDigits_inj h)

theorem mintingShown_inj {v w : Nat} (h : shownText (.minting v) = shownText (.minting w)) : v = w := by
  unfold shownText at h
  exact toDigits_inj (List.append_cancel_left h)

theorem burningShown_inj {v w : Nat} (h : shownText (.burning v) = shownText (.burning w)) : v = w := by
  unfold shownText at h
  exact toDigits_inj (List.append_cancel_left h)

theorem shownText_inj {s s' : Shown} (hs : s.numeric = true) (hs' : s'.numeric = true)
    (h : shownText s = shownText s') : s = s' := by
  have hk := congrArg textKind h
  cases s with
  | nothing => cases hs
  | text _ => cases hs
  | appToken v =>
    rw [kind_app] at hk
    cases s' with
    | nothing => cases hs'
    | text _ => cases hs'
    | appToken w => rw [appText_inj h]
    | erg w => rw [kind_erg] at hk; cases hk
    | amount w => rw [kind_amount] at hk; cases hk
    | minting w => rw [kind_minting] at hk; cases hk
    | burning w => rw [kind_burning] at hk; cases hk
  | erg v =>
    rw [kind_erg] at hk
    cases s' with
    | nothing => cases hs'
    | text _ => cases hs'
    | appToken w => rw [kind_app] at hk; cases hk
    | erg w => rw [ergShown_inj h]
    | amount w => rw [kind_amount] at hk; cases hk
    | minting w => rw [kind_minting] at hk; cases hk
    | burning w => rw [kind_burning] at hk; cases hk
  | amount v =>
    rw [kind_amount] at hk
    cases s' with
    | nothing => cases hs'
    | text _ => cases hs'
    | appToken w => rw [kind_app] at hk; cases hk
    | erg w => rw [kind_erg] at hk; cases hk
    | amount w => rw [amountShown_inj h]
    | minting w => rw [kind_minting] at hk; cases hk
    | burning w => rw [kind_burning] at hk; cases hk
  | minting v =>
    rw [kind_minting] at hk
    cases s' with
    | nothing => cases hs'
    | text _ => cases hs'
    | appToken w => rw [kind_app] at hk; cases hk
    | erg w => rw [kind_erg] at hk; cases hk
    | amount w => rw [kind_amount] at hk; cases hk
    | minting w => rw [mintingShown_inj h]
    | burning w => rw [kind_burning] at hk; cases hk
  | burning v =>
    rw [kind_burning] at hk
    cases s' with
    | nothing => cases hs'
    | text _ => cases hs'
    | appToken w => rw [kind_app] at hk; cases hk
    | erg w => rw [kind_erg] at hk; cases hk
    | amount w => rw [kind_amount] at hk; cases hk
    | minting w => rw [kind_minting] at hk; cases hk
    | burning w => rw [burningShown_inj h]

end Ergo
