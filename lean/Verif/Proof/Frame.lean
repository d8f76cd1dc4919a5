import Verif.Model.Attest
import Verif.Spec.Frame
import Verif.Proof.Bytes
/-!
Helper lemmas about frames.
-/
namespace Ergo
open Spec

theorem framesCount_eq (n : Nat) : framesCount n = framesFor n := by
  simp only [framesCount, framesFor]
  split <;> split <;> omega

theorem frameTokens_eq {α : Type} : ∀ (i : Nat) (l : List α),
    frameTokens i l = (l.drop (i * 4)).take 4
  | i, [] => by cases i <;> simp [frameTokens]
  | 0, x :: l => by simp [frameTokens]
  | i + 1, [a] => by simp [frameTokens, Nat.add_mul]
  | i + 1, [a, b] => by simp [frameTokens, Nat.add_mul]
  | i + 1, [a, b, c] => by simp [frameTokens, Nat.add_mul]
  | i + 1, a :: b :: c :: d :: l => by
    simp only [frameTokens, frameTokens_eq i l, Nat.add_mul]
    rfl

theorem amountBytes_eq (v : UInt64) : amountBytes v = writeU64be v := by
  have h : ∀ (k : UInt64) (n : Nat), k.toNat % 64 = 8 * n → n ≤ 7 →
      UInt8.ofNat (v.toNat / 256 ^ n) = (v >>> k).toUInt8 := by
    intro k n hk hn
    rw [← UInt8.toNat_inj, UInt64.toNat_toUInt8, UInt64.toNat_shiftRight, hk,
      Nat.shiftRight_eq_div_pow, UInt8.toNat_ofNat', pow_mul]
    norm_num
  have h0 : UInt8.ofNat (v.toNat / 256 ^ 0) = v.toUInt8 := by
    rw [← UInt8.toNat_inj, UInt64.toNat_toUInt8, UInt8.toNat_ofNat']; simp
  simp only [amountBytes, writeU64be, List.range, List.range.loop, List.map_cons, List.map_nil]
  rw [h 56 7 (by decide) (by omega), h 48 6 (by decide) (by omega), h 40 5 (by decide) (by omega),
    h 32 4 (by decide) (by omega), h 24 3 (by decide) (by omega), h 16 2 (by decide) (by omega),
    h 8 1 (by decide) (by omega), h0]

theorem writeU64be_length (v : UInt64) : (writeU64be v).length = 8 := rfl

theorem frameBody_eq (boxId : Bytes) (value : UInt64) (tokens : List (Bytes × UInt64)) (i : UInt8) :
    frameBody boxId value tokens i = frameBytes boxId value tokens i.toNat := by
  have hi : UInt8.ofNat i.toNat = i := by rw [← UInt8.toNat_inj]; simp
  simp only [frameBody, frameBytes, framesCount_eq, frameTokens_eq, amountBytes_eq, hi]

theorem flatMap_tokens_length : ∀ (l : List (Bytes × UInt64)), (∀ t ∈ l, t.1.length = 32) →
    (l.flatMap (fun t => t.1 ++ writeU64be t.2)).length = 40 * l.length
  | [], _ => rfl
  | t :: l, h => by
    have := flatMap_tokens_length l (fun x hx => h x (List.mem_cons_of_mem _ hx))
    simp only [List.flatMap_cons, List.length_append, this, h t (by simp), writeU64be_length,
      List.length_cons]
    omega

theorem frameTokens_length {α : Type} (i : Nat) (l : List α) : (frameTokens i l).length ≤ 4 := by
  rw [frameTokens_eq]; simp

theorem frameTokens_mem {α : Type} {i : Nat} {l : List α} {x : α} (h : x ∈ frameTokens i l) :
    x ∈ l := by
  rw [frameTokens_eq] at h
  exact List.mem_of_mem_drop (List.mem_of_mem_take h)

theorem frameBytes_length (boxId : Bytes) (value : UInt64) (tokens : List (Bytes × UInt64)) (i : Nat)
    (hb : boxId.length = 32) (ht : ∀ t ∈ tokens, t.1.length = 32) :
    (frameBytes boxId value tokens i).length = 43 + 40 * (frameTokens i tokens).length := by
  have := flatMap_tokens_length (frameTokens i tokens) (fun t h => ht t (frameTokens_mem h))
  simp only [frameBytes, amountBytes_eq, List.length_append, hb, this, writeU64be_length,
    List.length_cons, List.length_nil]

/-- What the parser reads. -/
theorem frameParse_some {d : Bytes} {f : Frame} (h : frameParse d = some f) :
    ∃ n : UInt8, ∃ rest, d = f.boxId ++ ([f.count, f.index] ++ (writeU64be f.value ++
      ([n] ++ (f.tokens ++ rest)))) ∧ f.boxId.length = 32 ∧ f.tokens.length = (n * 40).toNat ∧
      16 ≤ rest.length ∧
      (f.index = 0 → ∃ e r, f.ext = some e ∧ rest.drop 16 = writeU32be e ++ r) ∧
      (f.index ≠ 0 → f.ext = none) := by
  unfold frameParse at h
  cases h1 : bufBytes idLen d with
  | none => rw [h1] at h; simp at h
  | some r1 =>
    obtain ⟨boxId, d1⟩ := r1
    rw [h1] at h; simp only at h
    obtain ⟨e1, l1⟩ := bufBytes_some h1
    cases h2 : bufU8 d1 with
    | none => rw [h2] at h; simp at h
    | some r2 =>
      obtain ⟨count, d2⟩ := r2
      rw [h2] at h; simp only at h
      have e2 := bufU8_some h2
      cases h3 : bufU8 d2 with
      | none => rw [h3] at h; simp at h
      | some r3 =>
        obtain ⟨index, d3⟩ := r3
        rw [h3] at h; simp only at h
        have e3 := bufU8_some h3
        cases h4 : bufU64 d3 with
        | none => rw [h4] at h; simp at h
        | some r4 =>
          obtain ⟨value, d4⟩ := r4
          rw [h4] at h; simp only at h
          have e4 := bufU64_some h4
          cases h5 : bufU8 d4 with
          | none => rw [h5] at h; simp at h
          | some r5 =>
            obtain ⟨n, d5⟩ := r5
            rw [h5] at h; simp only at h
            have e5 := bufU8_some h5
            split at h
            · simp at h
            · rename_i hl
              have hsplit : d5 = d5.take (n * 40).toNat ++ d5.drop (n * 40).toNat :=
                (List.take_append_drop _ _).symm
              have hd : d = boxId ++ ([count, index] ++ (writeU64be value ++ ([n] ++
                  (d5.take (n * 40).toNat ++ d5.drop (n * 40).toNat)))) := by
                rw [← hsplit, e1, e2, e3, e4, e5]; rfl
              have hlen : (d5.take (n * 40).toNat).length = (n * 40).toNat := by
                simp only [List.length_take]; omega
              have hrest : 16 ≤ (d5.drop (n * 40).toNat).length := by
                simp only [List.length_drop]; omega
              have hdrop : (d5.drop (n * 40).toNat).drop 16 = d5.drop ((n * 40).toNat + 16) := by
                rw [List.drop_drop]
              split at h
              · rename_i hi
                cases h6 : bufU32 (d5.drop ((n * 40).toNat + 16)) with
                | none => rw [h6] at h; simp at h
                | some r6 =>
                  obtain ⟨ext, d6⟩ := r6
                  rw [h6] at h; simp only [Option.some.injEq] at h
                  subst h
                  exact ⟨n, _, hd, l1, hlen, hrest,
                    fun _ => ⟨ext, d6, rfl, by rw [hdrop]; exact bufU32_some h6⟩,
                    fun hne => absurd hi hne⟩
              · rename_i hi
                simp only [Option.some.injEq] at h
                subst h
                exact ⟨n, _, hd, l1, hlen, hrest, fun h0 => absurd h0 hi, fun _ => rfl⟩

end Ergo
