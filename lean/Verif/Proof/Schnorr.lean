import Verif.Model.Schnorr
import Verif.Spec.Schnorr
import Mathlib.Algebra.Group.Basic
import Mathlib.Tactic.Ring
import Mathlib.Tactic.NormNum
import Mathlib.Tactic.Abel
/-!
Helper lemmas about signatures.
-/
namespace Ergo
open Spec

theorem secpN_eq : secpN = groupOrder := by decide +kernel

theorem beNat_foldl (a : Nat) : ∀ b : Bytes,
    b.foldl (fun a x => a * 256 + x.toNat) a = a * 256 ^ b.length + be b
  | [] => by simp [be]
  | x :: b => by
    rw [List.foldl_cons, beNat_foldl _ b]
    simp only [be, List.length_cons, pow_succ]
    ring

theorem beNat_eq (b : Bytes) : beNat b = be b := by
  unfold beNat; rw [beNat_foldl]; simp

theorem beBytes_length : ∀ n v : Nat, (beBytes n v).length = n
  | 0, _ => rfl
  | n + 1, v => by simp [beBytes, beBytes_length n v]

theorem be_beBytes : ∀ n v : Nat, be (beBytes n v) = v % 256 ^ n
  | 0, v => by simp [beBytes, be, Nat.mod_one]
  | n + 1, v => by
    simp only [beBytes, be, beBytes_length, be_beBytes n v, UInt8.toNat_ofNat']
    have e : v % 256 ^ (n + 1) = v % 256 ^ n + 256 ^ n * (v / 256 ^ n % 256) := by
      rw [pow_succ, Nat.mod_mul]
    rw [e]
    ring

/-- The transcript prefix produced at the start of a session. -/
theorem schnorrInitLoop_some (env : Env) (secret : Bytes) (draws : Nat → Bytes) :
    ∀ (fuel i : Nat) (t k : Bytes), schnorrInitLoop env secret draws fuel i = some (t, k) →
    ∃ j pk w, k = draws j ∧ env.mulG secret = some pk ∧ env.mulG k = some w ∧
      t = schnorrPrefix ++ compress pk ++ schnorrSuffix ++ compress w ∧
      scalarOk secret = true ∧ scalarOk k = true
  | 0, i, t, k, h => by simp [schnorrInitLoop] at h
  | fuel + 1, i, t, k, h => by
    simp only [schnorrInitLoop] at h
    cases ht : schnorrTry env secret (draws i) with
    | none => rw [ht] at h; exact schnorrInitLoop_some env secret draws fuel (i + 1) t k h
    | some r =>
      rw [ht] at h
      simp only [Option.some.injEq] at h
      subst h
      unfold schnorrTry at ht
      split at ht
      · simp at ht
      · rename_i hs
        cases hp : env.mulG secret with
        | none => rw [hp] at ht; simp at ht
        | some pk =>
          rw [hp] at ht
          simp only at ht
          split at ht
          · simp at ht
          · rename_i hk
            cases hw : env.mulG (draws i) with
            | none => rw [hw] at ht; simp at ht
            | some w =>
              rw [hw] at ht
              simp only [Option.some.injEq, Prod.mk.injEq] at ht
              obtain ⟨rfl, rfl⟩ := ht
              exact ⟨i, pk, w, rfl, rfl, hw, rfl, by simpa using hs, by simpa using hk⟩

/-- Algebra of the response. -/
theorem schnorr_algebra {G : Type} [AddCommGroup G] (g : G) (n c s k : Nat) (hn : n • g = 0) :
    ((k + c * s % n) % n) • g - c • (s • g) = k • g := by
  have hmod : ∀ m : Nat, (m % n) • g = m • g := by
    intro m
    conv_rhs => rw [← Nat.mod_add_div m n]
    rw [add_nsmul, mul_comm n, mul_nsmul', hn, nsmul_zero, add_zero]
  rw [hmod, add_nsmul, hmod, mul_nsmul' g c s]
  abel

/-- The response completes a valid proof. -/
theorem schnorr_valid {G : Type} [AddCommGroup G] (g : G) (ser : G → Bytes) (env : Env)
    (hn : groupOrder • g = 0) (hmul : ∀ k p, env.mulG k = some p → compress p = ser (be k • g))
    (hb : ∀ b, (env.blake b).length = 32)
    (secret msg key t sig : Bytes) (draws : Nat → Bytes)
    (h1 : schnorrInit env secret draws = some (t, key))
    (h2 : schnorrFinish env (t ++ msg) secret key = some sig) :
    ValidSig g ser env.blake (be secret • g) msg sig := by
  obtain ⟨j, pk, w, _, hpk, hw, rfl, _, _⟩ := schnorrInitLoop_some env secret draws 100 0 t key h1
  have epk := hmul _ _ hpk
  have ew := hmul _ _ hw
  unfold schnorrFinish at h2
  simp only at h2
  split at h2
  · simp at h2
  · simp only [Option.some.injEq] at h2
    have hpos : 0 < groupOrder := by decide +kernel
    have hz : be (beBytes 32 ((beNat key + beNat ((env.blake (schnorrPrefix ++ compress pk ++
        schnorrSuffix ++ compress w ++ msg)).take 24) * beNat secret % secpN) % secpN)) =
        (be key + be ((env.blake (schnorrPrefix ++ compress pk ++
        schnorrSuffix ++ compress w ++ msg)).take 24) * be secret % groupOrder) % groupOrder := by
      rw [be_beBytes, secpN_eq, beNat_eq, beNat_eq, beNat_eq]
      apply Nat.mod_eq_of_lt
      refine lt_of_lt_of_le (Nat.mod_lt _ hpos) ?_
      decide +kernel
    refine ⟨_, _, ?_, beBytes_length _ _, h2.symm, ?_, ?_⟩
    · simp [hb]
    · rw [hz]; exact Nat.mod_lt _ hpos
    · rw [hz, schnorr_algebra g groupOrder _ (be secret) (be key) hn]
      simp only [← epk, ← ew]
      rfl

end Ergo
