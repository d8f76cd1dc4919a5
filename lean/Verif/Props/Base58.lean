import Verif.Proof.Base58
/-!
# C37: base58 text
-/
namespace Ergo
open Spec

/-- C37: the encoder gives exactly the base58 text, and refuses exactly the inputs of more than 120
bytes and the texts that do not fit the buffer. -/
theorem C37_text (b : Bytes) (n : Nat) :
    base58Encode b n =
      if b.length ≤ 120 ∧ (base58 b).length ≤ n then some (base58 b) else none :=
  base58Encode_eq b n

example : base58Encode [0, 0, 1, 0, 255] 10 = some "11LZL".toList ∧
    base58Encode [0, 0, 1, 0, 255] 4 = none := by decide +kernel

/-- C37: the output never exceeds the buffer. -/
theorem C37_fits (b : Bytes) (n : Nat) (t : List Char) (h : base58Encode b n = some t) :
    t.length ≤ n := by
  rw [base58Encode_eq] at h
  split at h
  · rename_i hc; rw [← Option.some.inj h]; exact hc.2
  · simp at h

/-- C37: different byte strings never have the same text. -/
theorem C37_injective (a b : Bytes) (n m : Nat) (t : List Char) (ha : base58Encode a n = some t)
    (hb : base58Encode b m = some t) : a = b := by
  rw [base58Encode_eq] at ha hb
  split at ha
  · split at hb
    · exact base58_inj ((Option.some.inj ha).trans (Option.some.inj hb).symm)
    · simp at hb
  · simp at ha

example : base58Encode [0, 1] 5 = some "12".toList ∧ base58Encode [1] 5 = some "2".toList ∧
    base58Encode [0] 5 = some "1".toList := by decide +kernel

/-- C37: the text has at most `1 + 1.38·length` characters, so every address (38 and 29 bytes) fits
the address buffers (55 and 70 characters) with room for the terminator. -/
theorem C37_address_fits (b : Bytes) (n : Nat) (hb : b.length ≤ 38) (hn : 54 ≤ n) :
    ∃ t, base58Encode b n = some t ∧ t = base58 b ∧ t.length ≤ 53 := by
  have h := base58_length_le b
  have h2 : 138 * b.length / 100 ≤ 52 := by omega
  refine ⟨base58 b, ?_, rfl, by omega⟩
  rw [base58Encode_eq, if_pos ⟨by omega, by omega⟩]

example : ((base58Encode (List.replicate 38 255) 55).map List.length) = some 52 := by
  decide +kernel

end Ergo
