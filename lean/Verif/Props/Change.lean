import Verif.Proof.Path
import Verif.Model.P2pk
/-!
# C34: which change outputs are hidden
-/
namespace Ergo
open Spec

theorem address_mem3 (p : List UInt32) (hp : IsAddressPath p) :
    (pathMem p).take 3 = [0x2C, 0, 0] := by
  obtain ⟨a, ch, i, more, rfl, _⟩ := hp
  simp only [pathMem, List.flatMap_cons, leBytes32, List.cons_append, List.take_succ_cons,
    List.take_zero]
  decide +kernel

theorem address_mem5 (p : List UInt32) (hp : IsAddressPath p) :
    (pathMem p).take 5 = [0x2C, 0, 0, 0x80, 0xAD] := by
  obtain ⟨a, ch, i, more, rfl, _⟩ := hp
  simp only [pathMem, List.flatMap_cons, leBytes32, List.cons_append, List.nil_append,
    List.take_succ_cons, List.take_zero]
  decide +kernel

theorem address_length (p : List UInt32) (hp : IsAddressPath p) : 5 ≤ p.length := by
  obtain ⟨a, ch, i, more, rfl, _⟩ := hp
  simp

/-- Any two address paths are treated as being of the same account. -/
theorem sameAccount_always (p q : List UInt32) (hp : IsAddressPath p) (hq : IsAddressPath q) :
    pathSameAccount p q = true := by
  have h1 := address_length p hp
  have h2 := address_length q hq
  simp only [pathSameAccount, address_mem3 p hp, address_mem3 q hq, decide_eq_true_eq]
  refine ⟨by omega, by omega, trivial⟩

/-- Any two address paths of five components are treated as equal. -/
theorem isEqual_always (p q : List UInt32) (hp : IsAddressPath p) (hq : IsAddressPath q)
    (h5 : p.length = 5) : pathIsEqual p q = decide (q.length = 5) := by
  simp only [pathIsEqual, h5, address_mem5 p hp, address_mem5 q hq, and_true]
  rw [Bool.eq_iff_iff]
  simp [eq_comm]

/-- C34 (partial): the exact set of change paths that are not shown, for a valid signing path `own`
and an approved change path `last` (or none): five components, and either *any* five-component
change was approved just before, or the change/index part is in the window of the signing path.
The account is not compared. -/
theorem C34_partial (own last p : List UInt32) (o : OutInfo) (hown : IsAddressPath own)
    (hlast : last = [] ∨ IsAddressPath last) (hp : IsAddressPath p)
    (hfin : o.finished = true) (ht : o.type = .bip32) (hd : o.data = .path p) :
    shouldShow own last o = some false ↔
      p.length = 5 ∧ (last.length = 5 ∨
        (p[3]? = own[3]? ∧ ∃ i j, p[4]? = some i ∧ own[4]? = some j ∧ i.toNat < j.toNat + 20)) := by
  have hw : (p.getD 3 0 = own.getD 3 0 ∧ p.getD 4 0 < own.getD 4 0 + 20) ↔
      (p[3]? = own[3]? ∧ ∃ i j, p[4]? = some i ∧ own[4]? = some j ∧ i.toNat < j.toNat + 20) := by
    obtain ⟨a, ch, i, more, rfl, _, _, hi, _⟩ := hp
    obtain ⟨a', ch', i', more', rfl, _, _, hi', _⟩ := hown
    unfold Hardened at hi hi'
    have : (i' + 20).toNat = i'.toNat + 20 := by
      rw [UInt32.toNat_add]; show (_ + 20) % _ = _; omega
    simp [UInt32.lt_iff_toNat_lt, this]
  have hsa := sameAccount_always p own hp hown
  unfold shouldShow
  rw [if_neg (by simp [hfin]), ht, hd]
  simp only
  by_cases h5 : p.length = 5
  · have hv : pathValidate p .addressE5 = true := (validate_addressE5 p).2 ⟨hp, h5⟩
    rw [if_neg (by simp [hv])]
    have hie : pathIsEqual p last = decide (last.length = 5) := by
      rcases hlast with rfl | hl
      · simp [pathIsEqual, h5]
      · exact isEqual_always p last hp hl h5
    rw [hie, hsa]
    by_cases hl5 : last.length = 5
    · simp [hl5, h5]
    · simp only [hl5, decide_false, Bool.false_eq_true, if_false, true_and, h5, false_or]
      rw [← hw]
      split <;> simp_all
  · have hv : ¬ pathValidate p .addressE5 = true := fun h => h5 ((validate_addressE5 p).1 h).2
    simp [hv, h5]

/-- A finished change output to path `p`. -/
def exChange (p : List UInt32) : OutInfo :=
  { OutInfo.init 1000 with type := .bip32, treeSet := true, boxFinished := true, data := .path p }

example : (exChange [0x8000002C, 0x800001AD, 0x80000000, 0, 3]).finished = true ∧
    shouldShow [0x8000002C, 0x800001AD, 0x80000000, 0, 0] []
      (exChange [0x8000002C, 0x800001AD, 0x80000000, 0, 19]) = some false ∧
    shouldShow [0x8000002C, 0x800001AD, 0x80000000, 0, 0] []
      (exChange [0x8000002C, 0x800001AD, 0x80000000, 0, 20]) = some true ∧
    shouldShow [0x8000002C, 0x800001AD, 0x80000000, 0, 0] []
      (exChange [0x8000002C, 0x800001AD, 0x80000000, 1, 0]) = some true := by decide +kernel

/-- C34 is false: with no approved change, change to another account than the signing account is
hidden. -/
theorem C34_negation_account : ∃ own p : List UInt32, IsAddressPath own ∧ IsAddressPath p ∧
    p[2]? ≠ own[2]? ∧ shouldShow own [] (exChange p) = some false := by
  refine ⟨[0x8000002C, 0x800001AD, 0x80000000, 0, 0], [0x8000002C, 0x800001AD, 0x80000007, 0, 0],
    ?_, ?_, by decide, by decide +kernel⟩
  · rw [← validate_address]; decide +kernel
  · rw [← validate_address]; decide +kernel

/-- C34 is false: after one approved change, a different change path outside of the window is
hidden. -/
theorem C34_negation_approved : ∃ own last p : List UInt32, IsAddressPath own ∧
    IsAddressPath last ∧ IsAddressPath p ∧ p ≠ last ∧ p[2]? ≠ own[2]? ∧
    shouldShow own [] (exChange last) = some true ∧ shouldShow own [] (exChange p) = some true ∧
    shouldShow own last (exChange p) = some false := by
  refine ⟨[0x8000002C, 0x800001AD, 0x80000000, 0, 0], [0x8000002C, 0x800001AD, 0x80000000, 1, 5],
    [0x8000002C, 0x800001AD, 0x80000009, 1, 1000000], ?_, ?_, ?_, by decide, by decide,
    by decide +kernel, by decide +kernel, by decide +kernel⟩
  · rw [← validate_address]; decide +kernel
  · rw [← validate_address]; decide +kernel
  · rw [← validate_address]; decide +kernel

end Ergo
