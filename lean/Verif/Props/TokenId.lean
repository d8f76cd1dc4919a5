import Verif.Model.Ui
import Mathlib.Tactic.NormNum
/-!
# C41: what the text of a token id says about the id
-/
namespace Ergo

/-- Hexadecimal digit of a number below 16. -/
def hexChar (n : Nat) : Char := "0123456789ABCDEF".toList.getD n '?'

/-- All hexadecimal digits of a byte string (two per byte). -/
def fullHex : Bytes → List Char
  | [] => []
  | b :: bs => hexChar (b.toNat / 16) :: hexChar (b.toNat % 16) :: fullHex bs

theorem hexText_eq : ∀ b : Bytes, hexText b = fullHex b
  | [] => rfl
  | b :: bs => by
    have h : ∀ n < 16, hexDigits.getD n '?' = hexChar n := by decide +kernel
    have hb := b.toNat_lt
    have ih := hexText_eq bs
    unfold hexText at ih ⊢
    rw [List.flatMap_cons, ih, h _ (by omega), h _ (by omega)]
    rfl

theorem fullHex_length : ∀ b : Bytes, (fullHex b).length = 2 * b.length
  | [] => rfl
  | b :: bs => by simp [fullHex, fullHex_length bs]; omega

theorem hexChar_inj : ∀ i < 16, ∀ j < 16, hexChar i = hexChar j → i = j := by decide +kernel

theorem fullHex_inj : ∀ {a b : Bytes}, fullHex a = fullHex b → a = b
  | [], [], _ => rfl
  | [], _ :: _, h => by simp [fullHex] at h
  | _ :: _, [], h => by simp [fullHex] at h
  | x :: a, y :: b, h => by
    simp only [fullHex, List.cons.injEq] at h
    obtain ⟨h1, h2, h3⟩ := h
    have hx := x.toNat_lt
    have hy := y.toNat_lt
    have e1 := hexChar_inj _ (by omega) _ (by omega) h1
    have e2 := hexChar_inj _ (by omega) _ (by omega) h2
    have : x = y := by rw [← UInt8.toNat_inj]; omega
    rw [this, fullHex_inj h3]

/-- C41 (partial): the text shown for a 32-byte id is the first 26 (7 on Nano S) hex digits, three
dots, and the last 26 (7).  Missing for the full claim: the digits in the middle are not shown. -/
theorem C41_partial (nanoS : Bool) (id : Bytes) (h : id.length = 32) :
    hexIdText nanoS id = (fullHex id).take (if nanoS then 7 else 26) ++ "...".toList ++
      (fullHex id).drop (64 - (if nanoS then 7 else 26)) := by
  have hl := fullHex_length id
  unfold hexIdText removeMiddle idHalf
  rw [hexText_eq, hl, h, if_neg (by split <;> omega)]
  rfl

/-- C41 (partial): two ids have the same text exactly when they agree on those digits. -/
theorem C41_same_text_partial (nanoS : Bool) (a b : Bytes) (ha : a.length = 32)
    (hb : b.length = 32) :
    hexIdText nanoS a = hexIdText nanoS b ↔
      (fullHex a).take (if nanoS then 7 else 26) = (fullHex b).take (if nanoS then 7 else 26) ∧
      (fullHex a).drop (64 - if nanoS then 7 else 26) =
        (fullHex b).drop (64 - if nanoS then 7 else 26) := by
  have hla := fullHex_length a
  have hlb := fullHex_length b
  rw [C41_partial nanoS a ha, C41_partial nanoS b hb]
  constructor
  · intro h
    have l1 : ((fullHex a).take (if nanoS then 7 else 26) ++ "...".toList).length =
        ((fullHex b).take (if nanoS then 7 else 26) ++ "...".toList).length := by
      simp [hla, hlb, ha, hb]
    have h1 := List.append_inj_left h l1
    have h2 := List.append_inj_right h l1
    exact ⟨List.append_cancel_right h1, h2⟩
  · rintro ⟨h1, h2⟩
    rw [h1, h2]

example : hexIdText true (List.replicate 16 0xAB ++ List.replicate 16 0x05) =
    "ABABABA...5050505".toList := by decide +kernel

/-- C41 is false on every device: two different token ids with the same text. -/
theorem C41_negation (nanoS : Bool) : ∃ a b : Bytes, a ≠ b ∧ a.length = 32 ∧ b.length = 32 ∧
    hexIdText nanoS a = hexIdText nanoS b := by
  refine ⟨List.replicate 32 0, List.replicate 15 0 ++ [1] ++ List.replicate 16 0, by decide,
    rfl, rfl, ?_⟩
  cases nanoS <;> decide +kernel

end Ergo
