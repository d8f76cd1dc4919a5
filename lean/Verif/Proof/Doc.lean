import Verif.Spec.Doc
import Verif.Proof.Pieces
import Mathlib.Tactic.Tauto
/-!
# The documented requests and the accepted ones
-/
namespace Ergo
open Spec

theorem pathOf_length (d : Bytes) (k : Nat) (h : d.length = pathLen d + k) :
    (pathOf d).length = field d 0 1 := by
  unfold pathOf
  rw [List.length_map]
  have hl : ((d.drop 1).take (4 * field d 0 1)).length = field d 0 1 * 4 := by
    unfold pathLen at h
    simp only [List.length_take, List.length_drop]
    omega
  rw [pieces_length (by omega) _ _ hl]

theorem account_iff {p : List UInt32} : IsAccountPath p ↔
    (p[0]? = some 0x8000002C ∧ p[1]? = some 0x800001AD ∧ ∀ c, p[2]? = some c → Hardened c) ∧
      3 ≤ p.length ∧ ∀ c ∈ p.drop 2, Hardened c := by
  constructor
  · rintro ⟨a, more, rfl, h1, h2⟩
    refine ⟨⟨rfl, rfl, ?_⟩, by simp, ?_⟩
    · intro c hc; cases hc; exact h1
    · intro c hc
      simp only [List.drop_succ_cons, List.drop_zero, List.mem_cons] at hc
      rcases hc with rfl | hc
      · exact h1
      · exact h2 c hc
  · rintro ⟨⟨h0, h1, _⟩, hl, h⟩
    match p, h0, h1, hl, h with
    | _ :: _ :: a :: more, h0, h1, _, h =>
      cases h0
      cases h1
      exact ⟨a, more, rfl, h a (by simp), fun c hc => h c (by simp [hc])⟩

theorem address_iff {p : List UInt32} : IsAddressPath p ↔
    (p[0]? = some 0x8000002C ∧ p[1]? = some 0x800001AD ∧ ∀ c, p[2]? = some c → Hardened c) ∧
      5 ≤ p.length ∧ (p[3]? = some 0 ∨ p[3]? = some 1) ∧ ∀ c ∈ p.drop 4, ¬ Hardened c := by
  constructor
  · rintro ⟨a, ch, i, more, rfl, h1, h2, h3, h4⟩
    refine ⟨⟨rfl, rfl, ?_⟩, by simp, ?_, ?_⟩
    · intro c hc; cases hc; exact h1
    · rcases h2 with rfl | rfl
      · left; rfl
      · right; rfl
    · intro c hc
      simp only [List.drop_succ_cons, List.drop_zero, List.mem_cons] at hc
      rcases hc with rfl | hc
      · exact h3
      · exact h4 c hc
  · rintro ⟨⟨h0, h1, h2⟩, hl, h3, h⟩
    match p, h0, h1, h2, hl, h3, h with
    | _ :: _ :: a :: ch :: i :: more, h0, h1, h2, _, h3, h =>
      cases h0
      cases h1
      refine ⟨a, ch, i, more, rfl, h2 a rfl, ?_, h i (by simp), fun c hc => h c (by simp [hc])⟩
      rcases h3 with h3 | h3 <;> cases h3 <;> simp

theorem starts_cases {ins p1 p2 : UInt8} (hs : starts ins p1 p2 = true) :
    ins = 0x10 ∧ (p1 = 1 ∨ p1 = 2) ∧ p2 = 0 ∨ ins = 0x11 ∧ (p1 = 1 ∨ p1 = 2) ∧ (p2 = 1 ∨ p2 = 2) ∨
    ins = 0x20 ∧ p1 = 1 ∧ (p2 = 1 ∨ p2 = 2) ∨ ins = 0x21 ∧ p1 = 1 ∧ (p2 = 1 ∨ p2 = 2) := by
  unfold starts paramsOk at hs
  simp only [Bool.or_eq_true, Bool.and_eq_true, decide_eq_true_eq] at hs
  rcases hs with ⟨rfl | rfl, h⟩ | ⟨⟨rfl | rfl, h1⟩, h2⟩
  · left
    rw [if_neg (by decide), if_pos rfl] at h
    exact ⟨rfl, by simpa using h⟩
  · right; left
    rw [if_neg (by decide), if_neg (by decide), if_pos rfl] at h
    exact ⟨rfl, by simpa using h⟩
  · exact .inr (.inr (.inl ⟨rfl, h1, h2⟩))
  · exact .inr (.inr (.inr ⟨rfl, h1, h2⟩))

/-- The rule of C51 is the documentation with further demands. -/
theorem good_iff {env : Env} {a : Request} (hs : starts a.ins a.p1 a.p2 = true) :
    a.Good env ↔ a.Documented ∧ a.Narrower ∧ a.Keys env := by
  obtain ⟨ins, p1, p2, data, rnd⟩ := a
  have hc := starts_cases hs
  simp only at hc
  clear hs
  have hb : ∀ (c : Prop) [Decidable c], (if decide c = true then 4 else 0 : Nat) = if c then 4 else 0 := by
    intro c _; by_cases h : c <;> simp [h]
  rcases hc with ⟨rfl, h1, h2⟩ | ⟨rfl, h1, h2⟩ | ⟨rfl, h1, h2⟩ | ⟨rfl, h1, h2⟩
  · simp only [Request.Good, Request.Documented, Request.Narrower, Request.Keys, Request.path, Request.hasToken,
      wantedLen, pathCount, if_true, h1, h2, Option.some.injEq, hb,
      (by decide : (0x10 : UInt8) ≠ 0x20), (by decide : (0x10 : UInt8) ≠ 0x11), (by decide : (0x10 : UInt8) ≠ 0x21),
      if_false, false_and, or_false, true_and, false_or, true_implies, false_implies, and_true, account_iff]
    generalize (if p1 = 2 then 4 else 0 : Nat) = k
    constructor
    · rintro ⟨e, ⟨n1, n2⟩, ⟨⟨q0, q1, q2⟩, q3, q4⟩, q5⟩
      have := pathOf_length data k e.symm
      exact ⟨⟨e.symm, by omega, n2, q0, q1, q2⟩, ⟨q3, q4⟩, q5⟩
    · rintro ⟨⟨e, n1, n2, q0, q1, q2⟩, ⟨q3, q4⟩, q5⟩
      exact ⟨e.symm, ⟨by omega, n2⟩, ⟨⟨q0, q1, q2⟩, q3, q4⟩, q5⟩
  · simp only [Request.Good, Request.Documented, Request.Narrower, Request.Keys, Request.path, Request.hasToken,
      wantedLen, pathCount, if_true, h1, h2, Option.some.injEq, hb,
      (by decide : (0x11 : UInt8) ≠ 0x10), (by decide : (0x11 : UInt8) ≠ 0x20), (by decide : (0x11 : UInt8) ≠ 0x21),
      if_false, false_and, or_false, true_and, false_or, true_implies, false_implies, and_true, address_iff]
    rw [show field data 1 1 = field (data.drop 1) 0 1 by simp [field]]
    generalize (if p2 = 2 then 4 else 0 : Nat) = k
    have hl : 1 + pathLen (data.drop 1) + k = data.length ↔
        data ≠ [] ∧ (data.drop 1).length = pathLen (data.drop 1) + k := by
      cases data with
      | nil => simp
      | cons x data => simp only [List.drop_one, List.tail_cons, List.length_cons]; constructor
                       · intro h; exact ⟨by simp, by omega⟩
                       · rintro ⟨_, h⟩; omega
    rw [hl]
    constructor
    · rintro ⟨⟨ne, e⟩, ⟨n1, n2⟩, ⟨⟨q0, q1, q2⟩, q3, q4, q5⟩, q6, q7⟩
      have := pathOf_length _ k e
      exact ⟨⟨ne, q6, ⟨e, by omega, n2, q0, q1, q2⟩, q4⟩, q5, q7⟩
    · rintro ⟨⟨ne, q6, ⟨e, n1, n2, q0, q1, q2⟩, q4⟩, q5, q7⟩
      have := pathOf_length _ k e
      exact ⟨⟨ne, e⟩, ⟨by omega, n2⟩, ⟨⟨q0, q1, q2⟩, by omega, q4, q5⟩, q6, q7⟩
  · simp only [Request.Good, Request.Documented, Request.Narrower, Request.Keys, Request.path, Request.hasToken,
      wantedLen, pathCount, if_true, h1, h2, Option.some.injEq, hb,
      (by decide : (0x20 : UInt8) ≠ 0x10), (by decide : (0x20 : UInt8) ≠ 0x11), (by decide : (0x20 : UInt8) ≠ 0x21),
      if_false, false_and, or_false, true_and, false_or, true_implies, false_implies, and_true]
    generalize (if p2 = 2 then 4 else 0 : Nat) = k
    constructor
    · rintro ⟨e, h⟩; exact ⟨e.symm, h⟩
    · rintro ⟨e, h⟩; exact ⟨e.symm, h⟩
  · simp only [Request.Good, Request.Documented, Request.Narrower, Request.Keys, Request.path, Request.hasToken,
      wantedLen, pathCount, if_true, h1, h2, Option.some.injEq, hb,
      (by decide : (0x21 : UInt8) ≠ 0x10), (by decide : (0x21 : UInt8) ≠ 0x11), (by decide : (0x21 : UInt8) ≠ 0x20),
      if_false, false_and, or_false, true_and, false_or, true_implies, false_implies, and_true, address_iff, (by decide : (1 : UInt8) ≠ 5)]
    rw [show field data 1 1 = field (data.drop 1) 0 1 by simp [field]]
    generalize (if p2 = 2 then 4 else 0 : Nat) = k
    have hl : 1 + pathLen (data.drop 1) + k = data.length ↔
        data ≠ [] ∧ (data.drop 1).length = pathLen (data.drop 1) + k := by
      cases data with
      | nil => simp
      | cons x data => simp only [List.drop_one, List.tail_cons, List.length_cons]; constructor
                       · intro h; exact ⟨by simp, by omega⟩
                       · rintro ⟨_, h⟩; omega
    rw [hl]
    constructor
    · rintro ⟨⟨ne, e⟩, ⟨n1, n2⟩, ⟨⟨q0, q1, q2⟩, q3, q4, q5⟩, q6, q7⟩
      have := pathOf_length _ k e
      refine ⟨⟨ne, ?_, ⟨e, by omega, n2, q0, q1, q2⟩⟩, ⟨q5, q6, q4⟩, q7⟩
      rcases q6 with q6 | q6 <;> rw [q6] <;> decide
    · rintro ⟨⟨ne, _, ⟨e, n1, n2, q0, q1, q2⟩⟩, ⟨q5, q6, q4⟩, q7⟩
      have := pathOf_length _ k e
      exact ⟨⟨ne, e⟩, ⟨by omega, n2⟩, ⟨⟨q0, q1, q2⟩, by omega, q4, q5⟩, q6, q7⟩

end Ergo
