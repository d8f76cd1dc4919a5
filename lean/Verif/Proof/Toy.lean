import Verif.Model.Env
/-!
A small concrete environment, used only in examples and counterexamples.
-/
namespace Ergo

/-- A toy environment for the examples: constant hash and keys. -/
def toyEnv : Env where
  blake b := List.replicate 31 7 ++ [UInt8.ofNat b.length]
  hmac k b := List.replicate 31 9 ++ [UInt8.ofNat (k.length + b.length)]
  derive p := some (List.replicate 31 0 ++ [UInt8.ofNat (p.length + 1)], List.replicate 32 1)
  pubOf k := some (4 :: k.take 32 ++ List.replicate (64 - (k.take 32).length) 2)
  mulG k := some (4 :: k.take 32 ++ List.replicate (64 - (k.take 32).length) 2)
  appName := []
  appVersion := []

theorem toyEnv_wf : toyEnv.WF where
  blake_len b := by simp [toyEnv]
  hmac_len k b := by simp [toyEnv]
  derive_len p k c h := by
    simp only [toyEnv, Option.some.injEq, Prod.mk.injEq] at h
    obtain ⟨rfl, rfl⟩ := h; simp
  pub_len k p h := by
    simp only [toyEnv, Option.some.injEq] at h
    subst h; simp; omega
  mul_len k p h := by
    simp only [toyEnv, Option.some.injEq] at h
    subst h; simp; omega

end Ergo
