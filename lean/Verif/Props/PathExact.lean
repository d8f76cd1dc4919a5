import Verif.Proof.Start
import Verif.Props.Path
/-!
# C36: exactly which texts are shown
-/
namespace Ergo
open Spec

/-- C36: exactly what the formatting function gives: the text, cut to the buffer, if the path has 1 to 10
components and what must not be cut fits (`pathNeed`); otherwise nothing. -/
theorem C36_exact (p : List UInt32) (n : Nat) :
    pathFormat p n = if p ≠ [] ∧ p.length ≤ 10 ∧ pathNeed p < n then some ((pathText p).take (n - 1))
      else none := by
  by_cases h : p ≠ [] ∧ p.length ≤ 10 ∧ pathNeed p < n
  · rw [if_pos h]
    obtain ⟨t, ht⟩ := Option.isSome_iff_exists.1 ((pathFormat_iff p n).2 h)
    rw [ht, C36_prefix_partial p n t (by omega) ht]
  · rw [if_neg h]
    cases ht : pathFormat p n with
    | none => rfl
    | some t => exact absurd ((pathFormat_iff p n).1 (by rw [ht]; rfl)) h

example : pathFormat [0x8000002C, 0x800001AD, 0x80000000, 0, 1, 2, 3, 4] 60 =
    some "44'/429'/0'/0/1/2/3/4".toList := by decide +kernel

/-- C36: two paths that can be shown have the same text on the 60-byte screens exactly if their full
texts agree in the first 59 characters; if one of the texts is complete there, the paths are equal. -/
theorem C36_same {p q : List UInt32} {t u : List Char} (hp : pathFormat p 60 = some t)
    (hq : pathFormat q 60 = some u) :
    (t = u ↔ (pathText p).take 59 = (pathText q).take 59) ∧
    (t = u → (pathText p).length < 59 → p = q) := by
  have e1 := C36_prefix_partial p 60 t (by omega) hp
  have e2 := C36_prefix_partial q 60 u (by omega) hq
  refine ⟨by rw [e1, e2], fun h hl => ?_⟩
  rw [e1, e2] at h
  simp only [Nat.add_one_sub_one] at h
  refine pathText_inj ?_
  have hlen := congrArg List.length h
  simp only [List.length_take] at hlen
  rw [List.take_of_length_le (by omega), List.take_of_length_le (by omega)] at h
  exact h

/-- A long path whose text is complete on the screen. -/
example : pathFormat [0x8000002C, 0x800001AD, 0x80000000, 0, 1, 2, 3, 4] 60 =
      some "44'/429'/0'/0/1/2/3/4".toList ∧
    (pathText [0x8000002C, 0x800001AD, 0x80000000, 0, 1, 2, 3, 4]).length < 59 := by decide +kernel

end Ergo
