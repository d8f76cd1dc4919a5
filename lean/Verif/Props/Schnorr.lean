import Verif.Proof.Schnorr
import Mathlib.Data.ZMod.Basic
/-!
# C07: signatures verify (the two halves of the signing operation)

The theorem for whole sessions is `C07_session` in `Props/Session.lean`.
-/
namespace Ergo
open Spec

/-- C07: if the start of a session gave transcript prefix `t` and ephemeral key `key`, and any
message bytes were appended to the transcript, then the response is a valid proof of knowledge for
that message and the session's public key, in every group with the order of secp256k1, for every
33-byte form of points and every hash function. -/
theorem C07_signature {G : Type} [AddCommGroup G] (g : G) (ser : G → Bytes) (env : Env)
    (hn : groupOrder • g = 0) (hmul : ∀ k p, env.mulG k = some p → compress p = ser (be k • g))
    (hb : ∀ b, (env.blake b).length = 32)
    (secret msg key t sig : Bytes) (draws : Nat → Bytes)
    (h1 : schnorrInit env secret draws = some (t, key))
    (h2 : schnorrFinish env (t ++ msg) secret key = some sig) :
    ValidSig g ser env.blake (be secret • g) msg sig :=
  schnorr_valid g ser env hn hmul hb secret msg key t sig draws h1 h2

/-- An environment over the additive group of integers modulo the group order. -/
def zmodEnv : Env where
  blake b := List.replicate 31 7 ++ [UInt8.ofNat b.length]
  hmac _ _ := []
  derive _ := none
  pubOf _ := none
  mulG k := some (4 :: beBytes 32 (be k % groupOrder) ++ List.replicate 32 2)
  appName := []
  appVersion := []

/-- Its 33-byte form of points. -/
def zmodSer (x : ZMod groupOrder) : Bytes := 2 :: beBytes 32 x.val

theorem zmod_compress (v : Nat) : compress (4 :: beBytes 32 v ++ List.replicate 32 2) = 2 :: beBytes 32 v := by
  have h : ∀ l : Bytes, l.length = 32 → compress (4 :: l ++ List.replicate 32 2) = 2 :: l := by
    intro l hl
    simp [compress, hl, List.getD, List.getElem?_append]
    decide
  exact h _ (beBytes_length _ _)

/-- The hypotheses of `C07_signature` are satisfiable: a complete signing run. -/
example : groupOrder • (1 : ZMod groupOrder) = 0 ∧
    (∀ k p, zmodEnv.mulG k = some p → compress p = zmodSer (be k • (1 : ZMod groupOrder))) ∧
    (∀ b, (zmodEnv.blake b).length = 32) ∧
    ∃ t key sig, schnorrInit zmodEnv [5] (fun i => [UInt8.ofNat i]) = some (t, key) ∧
      schnorrFinish zmodEnv (t ++ [1, 2, 3]) [5] key = some sig := by
  have hz : NeZero groupOrder := ⟨by decide +kernel⟩
  refine ⟨by simp, ?_, fun b => by simp [zmodEnv], ?_⟩
  · intro k p h
    simp only [zmodEnv, Option.some.injEq] at h
    rw [← h, nsmul_one, zmodSer, ZMod.val_natCast]
    exact zmod_compress _
  · have e : (schnorrInit zmodEnv [5] (fun i => [UInt8.ofNat i])).isSome = true := by decide +kernel
    obtain ⟨r, hr⟩ := Option.isSome_iff_exists.1 e
    have e2 : ((schnorrInit zmodEnv [5] (fun i => [UInt8.ofNat i])).bind
        (fun r => schnorrFinish zmodEnv (r.1 ++ [1, 2, 3]) [5] r.2)).isSome = true := by
      decide +kernel
    rw [hr] at e2
    obtain ⟨s, hs⟩ := Option.isSome_iff_exists.1 e2
    exact ⟨r.1, r.2, s, hr, hs⟩

end Ergo
