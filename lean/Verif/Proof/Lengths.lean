import Verif.Spec.Lengths
import Verif.Proof.Chunks
/-!
# Lengths of command data
-/
namespace Ergo
open Spec

theorem bufU8_cases (d : Bytes) : d.length < 1 ∧ bufU8 d = none ∨
    1 ≤ d.length ∧ ∃ v, bufU8 d = some (v, d.drop 1) := by
  cases d with
  | nil => left; simp [bufU8]
  | cons a r => right; exact ⟨by simp, a, by simp [bufU8]⟩

theorem bufU16_cases (d : Bytes) : d.length < 2 ∧ bufU16 d = none ∨
    2 ≤ d.length ∧ ∃ v, bufU16 d = some (v, d.drop 2) := by
  rcases d with _ | ⟨a, _ | ⟨b, r⟩⟩
  · left; simp [bufU16]
  · left; simp [bufU16]
  · right; exact ⟨by simp, _, rfl⟩

theorem bufU32_cases (d : Bytes) : d.length < 4 ∧ bufU32 d = none ∨
    4 ≤ d.length ∧ ∃ v, bufU32 d = some (v, d.drop 4) := by
  rcases d with _ | ⟨a, _ | ⟨b, _ | ⟨c, _ | ⟨e, r⟩⟩⟩⟩
  iterate 4 (· left; simp [bufU32])
  right; exact ⟨by simp, _, rfl⟩

theorem bufU64_cases (d : Bytes) : d.length < 8 ∧ bufU64 d = none ∨
    8 ≤ d.length ∧ ∃ v, bufU64 d = some (v, d.drop 8) := by
  rcases d with _ | ⟨a, _ | ⟨b, _ | ⟨c, _ | ⟨e, _ | ⟨f, _ | ⟨g, _ | ⟨i, _ | ⟨j, r⟩⟩⟩⟩⟩⟩⟩⟩
  iterate 8 (· left; simp [bufU64])
  right; exact ⟨by simp, _, rfl⟩

theorem bufBytes_cases (n : Nat) (d : Bytes) : d.length < n ∧ bufBytes n d = none ∨
    n ≤ d.length ∧ ∃ v, bufBytes n d = some (v, d.drop n) := by
  unfold bufBytes
  by_cases h : d.length < n
  · left; simp [h]
  · right; exact ⟨by omega, d.take n, by simp [h]⟩

theorem pathReadLoop_cases : ∀ (n : Nat) (d : Bytes), d.length < 4 * n ∧ pathReadLoop n d = none ∨
    4 * n ≤ d.length ∧ ∃ p, pathReadLoop n d = some (p, d.drop (4 * n))
  | 0, d => .inr ⟨by omega, [], by simp [pathReadLoop]⟩
  | n + 1, d => by
    rcases bufU32_cases d with ⟨h1, h2⟩ | ⟨h1, v, h2⟩
    · left; exact ⟨by omega, by simp [pathReadLoop, h2]⟩
    · rcases pathReadLoop_cases n (d.drop 4) with ⟨h3, h4⟩ | ⟨h3, p, h4⟩
      · left
        simp only [List.length_drop] at h3
        exact ⟨by omega, by simp [pathReadLoop, h2, h4]⟩
      · right
        simp only [List.length_drop] at h3
        refine ⟨by omega, v :: p, ?_⟩
        simp only [pathReadLoop, h2, h4, List.drop_drop]
        rw [show 4 + 4 * n = 4 * (n + 1) by omega]

/-- The token at the end of the data. -/
theorem token_cases (b : Bool) (d : Bytes) :
    d.length < (if b then 4 else 0) ∧ (if b then bufU32 d else some (0, d)) = none ∨
    (if b then 4 else 0) ≤ d.length ∧
      ∃ v, (if b then bufU32 d else some (0, d)) = some (v, d.drop (if b then 4 else 0)) := by
  cases b with
  | false => right; exact ⟨by simp, 0, by simp⟩
  | true => simpa using bufU32_cases d

/-- First byte as a number. -/
theorem field_first (d : Bytes) : field d 0 1 = match d with | [] => 0 | b :: _ => b.toNat := by
  cases d with
  | nil => rfl
  | cons b r => simp [field, be_one]

theorem ne_nil_of_length {d : Bytes} (h : 0 < d.length) : d ≠ [] := by
  rintro rfl; simp at h

/-- Result of reading a path with its length. -/
theorem readPath_cases (d : Bytes) :
    (d.length < pathLen d ∨ field d 0 1 = 0 ∨ 10 < field d 0 1) ∧ readPath d = none ∨
    (pathLen d ≤ d.length ∧ 1 ≤ field d 0 1 ∧ field d 0 1 ≤ 10) ∧
      ∃ p, readPath d = some (p, d.drop (pathLen d)) := by
  unfold pathLen
  rw [field_first]
  cases d with
  | nil => left; simp [readPath, bufU8]
  | cons b r =>
    simp only [readPath, bufU8, bufPath, List.length_cons]
    by_cases h0 : b.toNat = 0 ∨ b.toNat > 10
    · left; simp only [if_pos h0, and_true]; omega
    · rw [if_neg h0]
      rcases pathReadLoop_cases b.toNat r with ⟨h1, h2⟩ | ⟨h1, p, h2⟩
      · left; exact ⟨by omega, h2⟩
      · right
        refine ⟨by omega, p, ?_⟩
        rw [h2, show 1 + 4 * b.toNat = 4 * b.toNat + 1 by omega, List.drop_succ_cons]

/-- Result of `parsePathToken` in terms of the lengths. -/
theorem parsePathToken_eq (d : Bytes) (b : Bool) : parsePathToken d b =
    match readPath d with
    | none => .error Sw.notEnoughData
    | some (path, d) =>
      match (if b then bufU32 d else some (0, d)) with
      | none => .error Sw.notEnoughData
      | some (token, d) => if d ≠ [] then .error Sw.tooMuchData else .ok (path, token) := by
  unfold parsePathToken readPath
  cases bufU8 d with
  | none => rfl
  | some r => rfl

theorem pathToken_len {d : Bytes} {b : Bool} {q : List UInt32 × UInt32}
    (h : parsePathToken d b = .ok q) : d.length = pathLen d + if b then 4 else 0 := by
  rw [parsePathToken_eq] at h
  rcases readPath_cases d with ⟨_, h1⟩ | ⟨h0, p, h1⟩
  · simp only [h1] at h; cases h
  · simp only [h1] at h
    rcases token_cases b (d.drop (pathLen d)) with ⟨_, h2⟩ | ⟨h3, v, h2⟩
    · simp only [h2] at h; cases h
    · simp only [h2] at h
      by_cases h4 : (d.drop (pathLen d)).drop (if b then 4 else 0) = []
      case neg => rw [if_pos h4] at h; cases h
      · have := congrArg List.length h4
        simp only [List.length_drop, List.length_nil] at this h3
        omega

theorem parsePathToken_short {d : Bytes} {b : Bool} (h : d.length < pathLen d + if b then 4 else 0) :
    parsePathToken d b = .error Sw.notEnoughData := by
  rw [parsePathToken_eq]
  rcases readPath_cases d with ⟨_, h1⟩ | ⟨h0, p, h1⟩
  · simp only [h1]
  · simp only [h1]
    rcases token_cases b (d.drop (pathLen d)) with ⟨_, h2⟩ | ⟨h3, v, h2⟩
    · simp only [h2]
    · simp only [List.length_drop] at h3; omega

theorem parsePathToken_long {d : Bytes} {b : Bool} (h : pathLen d + (if b then 4 else 0) < d.length)
    (hn : 1 ≤ field d 0 1 ∧ field d 0 1 ≤ 10) : parsePathToken d b = .error Sw.tooMuchData := by
  rw [parsePathToken_eq]
  rcases readPath_cases d with ⟨h0, h1⟩ | ⟨h0, p, h1⟩
  · omega
  · simp only [h1]
    rcases token_cases b (d.drop (pathLen d)) with ⟨h3, h2⟩ | ⟨h3, v, h2⟩
    · simp only [List.length_drop] at h3; omega
    · simp only [h2]
      rw [if_pos]
      apply ne_nil_of_length
      simp only [List.length_drop]; omega

theorem parseSignInit_len {d : Bytes} {b : Bool} {q : UInt8 × List UInt32 × UInt32}
    (h : parseSignInit d b = .ok q) : d.length = 1 + pathLen (d.drop 1) + if b then 4 else 0 := by
  unfold parseSignInit at h
  rcases bufU8_cases d with ⟨_, h0⟩ | ⟨hl, n, h0⟩
  · simp only [h0] at h; cases h
  simp only [h0] at h
  rcases readPath_cases (d.drop 1) with ⟨_, h1⟩ | ⟨h3, p, h1⟩
  · simp only [h1] at h; cases h
  · simp only [h1] at h
    rcases token_cases b ((d.drop 1).drop (pathLen (d.drop 1))) with ⟨_, h2⟩ | ⟨h4, v, h2⟩
    · simp only [h2] at h; cases h
    · simp only [h2] at h
      by_cases h5 : ((d.drop 1).drop (pathLen (d.drop 1))).drop (if b then 4 else 0) = []
      case neg => rw [if_pos h5] at h; cases h
      · have := congrArg List.length h5
        simp only [List.length_drop, List.length_nil] at this h4 h3
        omega

theorem parseSignInit_short {d : Bytes} {b : Bool}
    (h : d.length < 1 + pathLen (d.drop 1) + if b then 4 else 0) :
    parseSignInit d b = .error (if d.length = 0 then Sw.notEnoughData else
      if d.length < 1 + pathLen (d.drop 1) ∨ field d 1 1 = 0 ∨ 10 < field d 1 1 then Sw.bufferError
      else Sw.notEnoughData) := by
  have hf : field (d.drop 1) 0 1 = field d 1 1 := by simp [field]
  unfold parseSignInit
  rcases bufU8_cases d with ⟨hl, h0⟩ | ⟨hl, n, h0⟩
  · simp [h0, show d.length = 0 by omega]
  simp only [h0, if_neg (show ¬ d.length = 0 by omega)]
  rcases readPath_cases (d.drop 1) with ⟨h3, h1⟩ | ⟨h3, p, h1⟩
  · simp only [h1]
    rw [if_pos (by simp only [List.length_drop, hf] at h3; omega)]
  · simp only [h1]
    rw [if_neg (show ¬ (d.length < 1 + pathLen (d.drop 1) ∨ field d 1 1 = 0 ∨ 10 < field d 1 1) by
      simp only [List.length_drop, hf] at h3; omega)]
    rcases token_cases b ((d.drop 1).drop (pathLen (d.drop 1))) with ⟨_, h2⟩ | ⟨h4, v, h2⟩
    · simp only [h2]
    · simp only [List.length_drop] at h4 h3; omega

theorem parseSignInit_long {d : Bytes} {b : Bool}
    (h : 1 + pathLen (d.drop 1) + (if b then 4 else 0) < d.length)
    (hn : 1 ≤ field d 1 1 ∧ field d 1 1 ≤ 10) : parseSignInit d b = .error Sw.tooMuchData := by
  have hf : field (d.drop 1) 0 1 = field d 1 1 := by simp [field]
  unfold parseSignInit
  rcases bufU8_cases d with ⟨hl, h0⟩ | ⟨hl, n, h0⟩
  · omega
  simp only [h0]
  rcases readPath_cases (d.drop 1) with ⟨h3, h1⟩ | ⟨h3, p, h1⟩
  · simp only [List.length_drop, hf] at h3; omega
  · simp only [h1]
    rcases token_cases b ((d.drop 1).drop (pathLen (d.drop 1))) with ⟨h3, h2⟩ | ⟨h3, v, h2⟩
    · simp only [List.length_drop] at h3; omega
    · simp only [h2]
      rw [if_pos]
      apply ne_nil_of_length
      simp only [List.length_drop]; omega

theorem attestParse_len {d : Bytes} {b : Bool} {i : AttestInit} (h : attestParse d b = .ok i) :
    d.length = 55 + if b then 4 else 0 := by
  obtain ⟨t, e, l1, ht⟩ := attestParse_some h
  have := congrArg List.length e
  simp only [List.length_append, l1, length_writeU64, length_writeU32, writeU16be, List.length_cons,
    List.length_nil] at this
  cases b with
  | false => simp only [Bool.false_eq_true, if_false] at ht ⊢; simp [ht.1] at this; omega
  | true => simp only [if_true] at ht ⊢; subst ht; simp [length_writeU32] at this; omega

theorem attestParse_short {d : Bytes} {b : Bool} (h : d.length < 55 + if b then 4 else 0) :
    attestParse d b = .error Sw.notEnoughData := by
  unfold attestParse
  rcases bufBytes_cases idLen d with ⟨g1, h1⟩ | ⟨g1, v1, h1⟩
  · simp only [h1]
  simp only [h1]
  rcases bufU16_cases (d.drop idLen) with ⟨g2, h2⟩ | ⟨g2, v2, h2⟩
  · simp only [h2]
  simp only [h2]
  rcases bufU64_cases ((d.drop idLen).drop 2) with ⟨g3, h3⟩ | ⟨g3, v3, h3⟩
  · simp only [h3]
  simp only [h3]
  rcases bufU32_cases (((d.drop idLen).drop 2).drop 8) with ⟨g4, h4⟩ | ⟨g4, v4, h4⟩
  · simp only [h4]
  simp only [h4]
  rcases bufU32_cases ((((d.drop idLen).drop 2).drop 8).drop 4) with ⟨g5, h5⟩ | ⟨g5, v5, h5⟩
  · simp only [h5]
  simp only [h5]
  rcases bufU8_cases (((((d.drop idLen).drop 2).drop 8).drop 4).drop 4) with ⟨g6, h6⟩ | ⟨g6, v6, h6⟩
  · simp only [h6]
  simp only [h6]
  rcases bufU32_cases ((((((d.drop idLen).drop 2).drop 8).drop 4).drop 4).drop 1) with
    ⟨g7, h7⟩ | ⟨g7, v7, h7⟩
  · simp only [h7]
  simp only [h7]
  rcases token_cases b (((((((d.drop idLen).drop 2).drop 8).drop 4).drop 4).drop 1).drop 4) with
    ⟨g8, h8⟩ | ⟨g8, v8, h8⟩
  · simp only [h8]
  · simp only [List.length_drop, idLen] at *; omega

theorem attestParse_long {d : Bytes} {b : Bool} (h : 55 + (if b then 4 else 0) < d.length) :
    attestParse d b = .error Sw.tooMuchData := by
  unfold attestParse
  rcases bufBytes_cases idLen d with ⟨g1, h1⟩ | ⟨g1, v1, h1⟩
  · simp only [List.length_drop, idLen] at *; omega
  simp only [h1]
  rcases bufU16_cases (d.drop idLen) with ⟨g2, h2⟩ | ⟨g2, v2, h2⟩
  · simp only [List.length_drop, idLen] at *; omega
  simp only [h2]
  rcases bufU64_cases ((d.drop idLen).drop 2) with ⟨g3, h3⟩ | ⟨g3, v3, h3⟩
  · simp only [List.length_drop, idLen] at *; omega
  simp only [h3]
  rcases bufU32_cases (((d.drop idLen).drop 2).drop 8) with ⟨g4, h4⟩ | ⟨g4, v4, h4⟩
  · simp only [List.length_drop, idLen] at *; omega
  simp only [h4]
  rcases bufU32_cases ((((d.drop idLen).drop 2).drop 8).drop 4) with ⟨g5, h5⟩ | ⟨g5, v5, h5⟩
  · simp only [List.length_drop, idLen] at *; omega
  simp only [h5]
  rcases bufU8_cases (((((d.drop idLen).drop 2).drop 8).drop 4).drop 4) with ⟨g6, h6⟩ | ⟨g6, v6, h6⟩
  · simp only [List.length_drop, idLen] at *; omega
  simp only [h6]
  rcases bufU32_cases ((((((d.drop idLen).drop 2).drop 8).drop 4).drop 4).drop 1) with
    ⟨g7, h7⟩ | ⟨g7, v7, h7⟩
  · simp only [List.length_drop, idLen] at *; omega
  simp only [h7]
  rcases token_cases b (((((((d.drop idLen).drop 2).drop 8).drop 4).drop 4).drop 1).drop 4) with
    ⟨g8, h8⟩ | ⟨g8, v8, h8⟩
  · simp only [List.length_drop, idLen] at *; omega
  · simp only [h8]
    rw [if_pos]
    apply ne_nil_of_length
    simp only [List.length_drop, idLen] at *; omega

theorem parseStart_short {d : Bytes} (h : d.length < 7) : parseStart d = .error Sw.notEnoughData := by
  unfold parseStart
  rcases bufU16_cases d with ⟨g1, h1⟩ | ⟨g1, v1, h1⟩
  · simp only [h1]
  simp only [h1]
  rcases bufU16_cases (d.drop 2) with ⟨g2, h2⟩ | ⟨g2, v2, h2⟩
  · simp only [h2]
  simp only [h2]
  rcases bufU8_cases ((d.drop 2).drop 2) with ⟨g3, h3⟩ | ⟨g3, v3, h3⟩
  · simp only [h3]
  simp only [h3]
  rcases bufU16_cases (((d.drop 2).drop 2).drop 1) with ⟨g4, h4⟩ | ⟨g4, v4, h4⟩
  · simp only [h4]
  · simp only [List.length_drop] at *; omega

theorem parseStart_long {d : Bytes} (h : 7 < d.length) : parseStart d = .error Sw.tooMuchData := by
  unfold parseStart
  rcases bufU16_cases d with ⟨g1, h1⟩ | ⟨g1, v1, h1⟩
  · omega
  simp only [h1]
  rcases bufU16_cases (d.drop 2) with ⟨g2, h2⟩ | ⟨g2, v2, h2⟩
  · simp only [List.length_drop] at *; omega
  simp only [h2]
  rcases bufU8_cases ((d.drop 2).drop 2) with ⟨g3, h3⟩ | ⟨g3, v3, h3⟩
  · simp only [List.length_drop] at *; omega
  simp only [h3]
  rcases bufU16_cases (((d.drop 2).drop 2).drop 1) with ⟨g4, h4⟩ | ⟨g4, v4, h4⟩
  · simp only [List.length_drop] at *; omega
  · simp only [h4]
    rw [if_pos]
    apply ne_nil_of_length
    simp only [List.length_drop] at *; omega

theorem parseOutput_short {d : Bytes} (h : d.length < 21) : parseOutput d = .error Sw.notEnoughData := by
  unfold parseOutput
  rcases bufU64_cases d with ⟨g1, h1⟩ | ⟨g1, v1, h1⟩
  · simp only [h1]
  simp only [h1]
  rcases bufU32_cases (d.drop 8) with ⟨g2, h2⟩ | ⟨g2, v2, h2⟩
  · simp only [h2]
  simp only [h2]
  rcases bufU32_cases ((d.drop 8).drop 4) with ⟨g3, h3⟩ | ⟨g3, v3, h3⟩
  · simp only [h3]
  simp only [h3]
  rcases bufU8_cases (((d.drop 8).drop 4).drop 4) with ⟨g4, h4⟩ | ⟨g4, v4, h4⟩
  · simp only [h4]
  simp only [h4]
  rcases bufU32_cases ((((d.drop 8).drop 4).drop 4).drop 1) with ⟨g5, h5⟩ | ⟨g5, v5, h5⟩
  · simp only [h5]
  · simp only [List.length_drop] at *; omega

theorem parseOutput_long {d : Bytes} (h : 21 < d.length) : parseOutput d = .error Sw.tooMuchData := by
  unfold parseOutput
  rcases bufU64_cases d with ⟨g1, h1⟩ | ⟨g1, v1, h1⟩
  · omega
  simp only [h1]
  rcases bufU32_cases (d.drop 8) with ⟨g2, h2⟩ | ⟨g2, v2, h2⟩
  · simp only [List.length_drop] at *; omega
  simp only [h2]
  rcases bufU32_cases ((d.drop 8).drop 4) with ⟨g3, h3⟩ | ⟨g3, v3, h3⟩
  · simp only [List.length_drop] at *; omega
  simp only [h3]
  rcases bufU8_cases (((d.drop 8).drop 4).drop 4) with ⟨g4, h4⟩ | ⟨g4, v4, h4⟩
  · simp only [List.length_drop] at *; omega
  simp only [h4]
  rcases bufU32_cases ((((d.drop 8).drop 4).drop 4).drop 1) with ⟨g5, h5⟩ | ⟨g5, v5, h5⟩
  · simp only [List.length_drop] at *; omega
  · simp only [h5]
    rw [if_pos]
    apply ne_nil_of_length
    simp only [List.length_drop] at *; omega

theorem parseOutput_len {d : Bytes} {q : UInt64 × UInt32 × UInt32 × UInt8 × UInt32}
    (h : parseOutput d = .ok q) : d.length = 21 := by
  rcases Nat.lt_trichotomy d.length 21 with h1 | h1 | h1
  · rw [parseOutput_short h1] at h; cases h
  · exact h1
  · rw [parseOutput_long h1] at h; cases h

theorem parseStart_len {d : Bytes} {q : UInt16 × UInt16 × UInt8 × UInt16}
    (h : parseStart d = .ok q) : d.length = 7 := by
  rcases Nat.lt_trichotomy d.length 7 with h1 | h1 | h1
  · rw [parseStart_short h1] at h; cases h
  · exact h1
  · rw [parseStart_long h1] at h; cases h

/-! ## Lists of entries -/

theorem dataInputsLoop_len : ∀ (n : Nat) (b : Bytes) (x y : FullSt) (r : Res FullErr),
    FullSt.dataInputsLoop n b x = (y, r) → r.passes → b.length % 32 = 0
  | n, [], x, y, r, h, hp => by simp
  | 0, c :: cs, x, y, r, h, hp => by
    simp only [FullSt.dataInputsLoop, Prod.mk.injEq] at h
    obtain ⟨rfl, rfl⟩ := h
    simp [Res.passes] at hp
  | n + 1, c :: cs, x, y, r, h, hp => by
    simp only [FullSt.dataInputsLoop] at h
    split at h
    · exact (full_fail_not_passes h hp).elim
    rcases bufBytes_cases idLen (c :: cs) with ⟨_, h1⟩ | ⟨hl, v, h1⟩
    · rw [h1] at h
      exact (full_fail_not_passes h hp).elim
    rw [h1] at h
    have := dataInputsLoop_len n _ _ _ _ h hp
    simp only [List.length_drop, idLen] at this hl ⊢
    omega

theorem addDataInputs_len {x y : FullSt} {b : Bytes} {r : Res FullErr}
    (h : x.addDataInputs b = (y, r)) (hp : r.passes) : b.length % 32 = 0 := by
  unfold FullSt.addDataInputs at h
  split at h
  · exact (full_fail_not_passes h hp).elim
  cases hq : FullSt.dataInputsLoop b.length b x with
  | mk z q =>
    rw [hq] at h
    cases q with
    | ok => exact dataInputsLoop_len _ _ _ _ _ hq rfl
    | more => exact dataInputsLoop_len _ _ _ _ _ hq rfl
    | err e =>
      simp only [Prod.mk.injEq] at h
      obtain ⟨rfl, rfl⟩ := h; simp [Res.passes] at hp
    | ub =>
      simp only [Prod.mk.injEq] at h
      obtain ⟨rfl, rfl⟩ := h; simp [Res.passes] at hp

theorem fullAddTokens_len {x y : FullSt} {b : Bytes} {r : Res FullErr}
    (h : x.addTokens b = (y, r)) (hp : r.passes) : b.length % 32 = 0 := by
  unfold FullSt.addTokens at h
  split at h
  · exact (full_fail_not_passes h hp).elim
  cases hq : tableAddLoop x.c.distinct b.length b x.s.a.table with
  | mk z q =>
    have key : q.passes → b.length % 32 = 0 := by
      intro hq'
      obtain ⟨_, _, ⟨k, hk⟩, _⟩ := tableAddLoop_passes _ _ _ _ _ hq hq'
      omega
    simp only [tableAdd, hq] at h
    cases q with
    | ok => exact key rfl
    | more => exact key rfl
    | err e => exact (full_fail_not_passes h hp).elim
    | ub =>
      simp only [Prod.mk.injEq] at h
      obtain ⟨rfl, rfl⟩ := h; simp [Res.passes] at hp

theorem boxAddTokens_len {σ : Type} {cbs : BoxCbs σ} {table : Option TableArg} {x y : BoxSt σ}
    {b : Bytes} {r : Res BoxErr} (h : x.addTokens cbs table b = (y, r)) (hp : r.passes) :
    b.length % itemWidth table = 0 := by
  unfold BoxSt.addTokens at h
  split at h
  · exact (fail_not_passes h hp).elim
  cases hq : BoxSt.tokensLoop cbs table b.length b x with
  | mk z q =>
    have key : q.passes → b.length % itemWidth table = 0 := by
      intro hq'
      obtain ⟨_, k, hk, _⟩ := tokensLoop_passes _ _ _ _ _ _ _ hq hq'
      rw [hk]; exact Nat.mul_mod_left _ _
    rw [hq] at h
    cases q with
    | ok => exact key rfl
    | more => exact key rfl
    | err e =>
      simp only [Prod.mk.injEq] at h
      obtain ⟨rfl, rfl⟩ := h; simp [Res.passes] at hp
    | ub =>
      simp only [Prod.mk.injEq] at h
      obtain ⟨rfl, rfl⟩ := h; simp [Res.passes] at hp

theorem addBoxTokens_len {env : Env} {x y : FullSt} {b : Bytes} {r : Res FullErr}
    (h : x.addBoxTokens env b = (y, r)) (hp : r.passes) : b.length % 12 = 0 := by
  unfold FullSt.addBoxTokens FullSt.boxPart at h
  split at h
  · exact (full_fail_not_passes h hp).elim
  split at h
  · rename_i bc hb
    cases hq : BoxSt.addTokens (accCbs env) (some (x.c.distinct, x.s.a.table)) ⟨bc, x.h, x.s⟩ b with
    | mk z q =>
      have key : q.passes → b.length % 12 = 0 := fun hq' => boxAddTokens_len hq hq'
      simp only [hq] at h
      cases q with
      | ok => exact key rfl
      | more => exact key rfl
      | err e => exact (full_fail_not_passes h hp).elim
      | ub =>
        simp only [Prod.mk.injEq] at h
        obtain ⟨rfl, rfl⟩ := h; simp [Res.passes] at hp
  · simp only [Prod.mk.injEq] at h
    obtain ⟨rfl, rfl⟩ := h; simp [Res.passes] at hp

theorem withTx_cases {p p' : P2pk} {f : FullSt → FullSt × Res FullErr} (h : p.withTx f = .ok p') :
    ∃ y x r, f y = (x, r) ∧ r.passes := by
  cases hu : p.u with
  | transaction t =>
    obtain ⟨x, r, h1, h2, _⟩ := withTx_ok hu h
    exact ⟨_, x, r, h1, h2⟩
  | _ => simp [P2pk.withTx, hu] at h

/-- An accepted sign subcommand has a documented length. -/
theorem signOp_length {env : Env} {key : Bytes} {p p' : P2pk} {sub p2 : UInt8} {data : Bytes}
    (h : signOp env key p sub data = .ok p') (h1 : 0x10 ≤ sub) (h2 : sub ≤ 0x1A) :
    lengthOk 0x21 sub p2 data := by
  unfold signOp at h
  split at h
  · rename_i e
    subst e
    unfold opStart at h
    split at h
    · cases h
    rename_i hp
    refine ⟨fun n hn => ?_, by simp [entryLen], by simp [leastLen]⟩
    simp [wantedLen] at hn
    rw [← hn]; exact parseStart_len hp
  split at h
  · rename_i e
    subst e
    unfold P2pk.addTokens at h
    split at h
    · cases h
    obtain ⟨y, x, r, hf, hr⟩ := withTx_cases h
    refine ⟨by simp [wantedLen], fun n hn => ?_, by simp [leastLen]⟩
    simp [entryLen] at hn
    rw [← hn]; exact fullAddTokens_len hf hr
  split at h
  · rename_i e
    subst e
    refine ⟨by simp [wantedLen], by simp [entryLen], ?_⟩
    unfold opFrame at h
    simp only at h
    split at h
    · cases h
    split at h
    · cases h
    split at h
    · cases h
    rename_i f hf
    obtain ⟨f1, f2, f3, f4, f5, f6, f7, f8⟩ := frameParse_fields hf
    simp only [leastLen, and_self, if_true]
    split
    · rename_i h0
      rw [f3] at h0
      obtain ⟨n, rest, e, l1, lt, l16, h0', _⟩ := frameParse_some hf
      obtain ⟨e4, r4, _, hr4⟩ := h0' (UInt8.toNat_inj.1 h0)
      have hn : field data 42 1 = n.toNat := by
        rw [field_of (d := data) (pre := f.boxId ++ [f.count, f.index] ++ writeU64be f.value)
          (a := [n]) (post := f.tokens ++ rest) (by rw [e]; simp) (by simp [l1, length_writeU64])
          (by rfl), be_one]
      have hl := congrArg List.length e
      have hl4 := congrArg List.length hr4
      rw [mul40] at lt
      simp only [List.length_append, l1, lt, length_writeU64, length_writeU32, List.length_drop,
        List.length_cons, List.length_nil] at hl hl4
      rw [hn]
      omega
    · omega
  split at h
  · rename_i e
    subst e
    exact ⟨by simp [wantedLen], by simp [entryLen], by simp [leastLen]⟩
  split at h
  · rename_i e
    subst e
    unfold P2pk.addDataInputs at h
    split at h
    · cases h
    obtain ⟨y, x, r, hf, hr⟩ := withTx_cases h
    refine ⟨by simp [wantedLen], fun n hn => ?_, by simp [leastLen]⟩
    simp [entryLen] at hn
    rw [← hn]; exact addDataInputs_len hf hr
  split at h
  · rename_i e
    subst e
    unfold opOutput at h
    split at h
    · cases h
    rename_i hp
    refine ⟨fun n hn => ?_, by simp [entryLen], by simp [leastLen]⟩
    simp [wantedLen] at hn
    rw [← hn]; exact parseOutput_len hp
  split at h
  · rename_i e
    subst e
    exact ⟨by simp [wantedLen], by simp [entryLen], by simp [leastLen]⟩
  split at h
  · rename_i e
    subst e
    unfold opFee at h
    split at h
    · cases h
    rename_i hp
    refine ⟨fun n hn => ?_, by simp [entryLen], by simp [leastLen]⟩
    simp [wantedLen] at hn
    rw [not_not.1 hp, ← hn]; rfl
  split at h
  · rename_i e
    subst e
    refine ⟨by simp [wantedLen], by simp [entryLen], ?_⟩
    unfold opChange at h
    rcases readPath_cases data with ⟨_, hp⟩ | ⟨hp, _⟩
    · rw [hp] at h; cases h
    · simpa [leastLen] using hp.1
  split at h
  · rename_i e
    subst e
    unfold P2pk.addOutputTokens at h
    obtain ⟨_, t, o, x1, r1, o1, _, _, hf, hr, _⟩ := withOut_cases h
    refine ⟨by simp [wantedLen], fun n hn => ?_, by simp [leastLen]⟩
    simp [entryLen] at hn
    rw [← hn]; exact addBoxTokens_len hf hr
  · have e : sub = 0x1A := by
      rename_i n0 n1 n2 n3 n4 n5 n6 n7 n8 n9
      rw [UInt8.le_iff_toNat_le] at h1 h2
      simp only [← UInt8.toNat_inj] at *
      simp at *
      omega
    subst e
    exact ⟨by simp [wantedLen], by simp [entryLen], by simp [leastLen]⟩

/-- An accepted attest subcommand has a documented length. -/
theorem attestOp_length {env : Env} {key : Bytes} {x x' : AttestCtx} {sub p2 : UInt8}
    {data out : Bytes} (h : attestOp env key x sub data = .ok x' out)
    (hs : sub = 2 ∨ sub = 3 ∨ sub = 4 ∨ sub = 5) : lengthOk 0x20 sub p2 data := by
  rcases hs with rfl | rfl | rfl | rfl
  · exact ⟨by simp [wantedLen], by simp [entryLen], by simp [leastLen]⟩
  · replace h : x.addTokens env data = .ok x' out := h
    refine ⟨by simp [wantedLen], fun n hn => ?_, by simp [leastLen]⟩
    simp [entryLen] at hn
    subst hn
    unfold AttestCtx.addTokens AttestCtx.part at h
    split at h
    · cases h
    split at h
    · rename_i hq
      exact boxAddTokens_len (table := none) hq rfl
    · rename_i hq
      exact boxAddTokens_len (table := none) hq rfl
    · cases h
    · cases h
  · exact ⟨by simp [wantedLen], by simp [entryLen], by simp [leastLen]⟩
  · replace h : x.getFrame env key data = .ok x' out := h
    refine ⟨fun n hn => ?_, by simp [entryLen], by simp [leastLen]⟩
    simp [wantedLen] at hn
    subst hn
    unfold AttestCtx.getFrame at h
    split at h
    · cases h
    rcases bufU8_cases data with ⟨_, h1⟩ | ⟨hl, v, h1⟩
    · rw [h1] at h; cases h
    simp only [h1] at h
    split at h
    · cases h
    rename_i h2
    have := congrArg List.length (not_not.1 h2)
    simp only [List.length_drop, List.length_nil] at this
    omega

end Ergo
