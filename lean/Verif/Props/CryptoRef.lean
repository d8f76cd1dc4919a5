import Verif.Proof.CryptoRef
import Verif.Proof.Toy
import Verif.Props.Crypto
/-!
# C67: the cryptographic functions, statement by statement, compute what the rest of the model uses
-/
namespace Ergo
open Spec Work

/-- C67, public keys: with an SDK that behaves as `env`, whatever is in memory before, the caller's
arrays get the public key and the chain code, or an error is returned. -/
theorem C67_public (sdk : Sdk) (env : Env) (H : Serves sdk env) (W : env.WF) (path : List UInt32) (has : Bool)
    (s : Work) (hs : Sized s) :
    match env.genPublic path with
    | some (p, c) => (s.generatePublic sdk path has).2 = 0 ∧ (s.generatePublic sdk path has).1.arr .rawPub = p ∧
        (has = true → (s.generatePublic sdk path has).1.arr .chainOut = c)
    | none => (s.generatePublic sdk path has).2 ≠ 0 := by
  cases h : env.genPublic path with
  | none => exact generatePublic_none H W hs h
  | some r => exact generatePublic_some H W hs h

/-- C67, start of a signing session: same status, same bytes in the hash, same ephemeral key, for the
draws the random number generator makes from now on. -/
theorem C67_init (sdk : Sdk) (env : Env) (H : Serves sdk env) (W : env.WF) (path : List UInt32) (network : UInt8)
    (s : Work) (hs : Sized s) :
    match p2pkInit env path network (fun i => ((sdk.rng (s.draws + i) ++ List.replicate 32 0).take 32)) with
    | .ok p => (s.opInit sdk path network).2 = 0x9000 ∧ (s.opInit sdk path network).1.hash = p.hash ∧
        (s.opInit sdk path network).1.arr .nonce = p.key
    | .err e => (s.opInit sdk path network).2 = e
    | .ub => False := by
  unfold p2pkInit opInit
  by_cases hp : ¬ pathValidate path .addressGe5
  · simp only [if_pos hp]
  simp only [if_neg hp]
  by_cases hw : ¬ networkSupported network
  · simp only [if_pos hw]
  simp only [if_neg hw]
  cases hk : env.genPrivate path with
  | none =>
    have := generatePrivate_none (sdk := sdk) (s := s) H hk
    simp only [if_pos this]
  | some secret =>
    obtain ⟨a1, a2, a3, a4⟩ := generatePrivate_some (sdk := sdk) (s := s) H W hs hk
    have g1 := (generatePrivate_facts (sdk := sdk) path s).1
    have lb : ((s.generatePrivate sdk path).1.arr .buf).length = 65 := by rw [g1 _ (by decide), hs]; rfl
    have ln : ((s.generatePrivate sdk path).1.arr .nonce).length = 32 := by rw [g1 _ (by decide), hs]; rfl
    have q := signInit_spec (sdk := sdk) H W _ lb ln
    rw [a2, a4] at q
    simp only [a1, ne_eq, not_true_eq_false, if_false]
    generalize (s.generatePrivate sdk path).1 = s1 at *
    change match (match schnorrInit env secret (fun i => drawOf sdk (s.draws + i)) with
      | none => OpRes.err Sw.internalCryptoError
      | some (h, key) => .ok ⟨.initialized, key, path, h, network, .zero, .zero⟩) with
      | .ok p => _ | .err e => _ | .ub => _
    cases hi : schnorrInit env secret (fun i => drawOf sdk (s.draws + i)) with
    | none =>
      rw [hi] at q
      simp only at q
      simp only [q, Bool.false_eq_true, not_false_eq_true, if_true]
    | some r =>
      obtain ⟨t, key⟩ := r
      rw [hi] at q
      obtain ⟨q1, q2, q3⟩ := q
      simp only [q1, not_true_eq_false, if_false]
      exact ⟨rfl, q2, (wipe_other (by decide)).trans q3⟩

/-- C67, signature: for a finalized operation whose hash and ephemeral key are those in memory, the same
signature or the same error. -/
theorem C67_finish (sdk : Sdk) (env : Env) (H : Serves sdk env) (W : env.WF) (p : P2pk)
    (s : Work) (hs : Sized s) (hp : p.state = .finalized) (hh : s.hash = p.hash) (hk : s.arr .nonce = p.key) :
    (s.opFinish sdk p.path).2 = p.sendResponse env := by
  unfold P2pk.sendResponse opFinish
  simp only [hp, ne_eq, not_true_eq_false, if_false]
  cases hk' : env.genPrivate p.path with
  | none =>
    have := generatePrivate_none (sdk := sdk) (s := s) H hk'
    simp only [this, not_false_eq_true, if_true]
  | some secret =>
    obtain ⟨a1, a2, a3, a4⟩ := generatePrivate_some (sdk := sdk) (s := s) H W hs hk'
    have g1 := (generatePrivate_facts (sdk := sdk) p.path s).1
    have lb : ((s.generatePrivate sdk p.path).1.arr .buf).length = 65 := by rw [g1 _ (by decide), hs]; rfl
    have lg : ((s.generatePrivate sdk p.path).1.arr .sig).length = 56 := by rw [g1 _ (by decide), hs]; rfl
    have q := signFinish_spec (sdk := sdk) H W _ lb lg
    rw [a2, a3, hh, g1 .nonce (by decide), hk] at q
    simp only [a1, not_true_eq_false, if_false]
    generalize (s.generatePrivate sdk p.path).1 = s1 at *
    cases hi : schnorrFinish env p.hash secret p.key with
    | none =>
      rw [hi] at q
      simp only at q
      simp only [q, Bool.false_eq_true, if_false]
    | some g =>
      rw [hi] at q
      obtain ⟨q1, q2⟩ := q
      simp only [q1, if_true]
      rw [wipe_other (by decide), wipe_other (by decide), q2]
      have lg : g.length = 56 := by
        unfold schnorrFinish at hi
        simp only at hi
        split at hi
        · cases hi
        · simp only [Option.some.injEq] at hi
          rw [← hi, List.length_append, beBytes_length, List.length_take, W.blake_len]
          rfl
      rw [List.take_of_length_le (by omega)]

theorem cleanMem_sized : Sized cleanMem := fun _ => by simp [cleanMem]

/-- The toy SDK serves the toy environment used for the other examples. -/
theorem toySdk_serves : Serves (toySdk fun _ => 0) toyEnv where
  derive_some p k c h t t' := by
    simp only [toyEnv, Option.some.injEq, Prod.mk.injEq] at h
    obtain ⟨rfl, rfl⟩ := h
    refine ⟨_, rfl, ?_⟩
    simp [toySdk, keyPart, List.take_append]
  derive_none p h := by simp [toyEnv] at h
  pub_some k p h t := by
    simp only [toyEnv, Option.some.injEq] at h
    subst h; rfl
  pub_none k h := by simp [toyEnv] at h
  hash _ := rfl
  digest := rfl
  cmp _ := rfl
  mul_some k p h t := by
    simp only [toyEnv, Option.some.injEq] at h
    subst h; rfl
  mul_none k h := by simp [toyEnv] at h
  multm _ _ _ := rfl
  addm _ _ _ := rfl

/-- With dirty memory: the signing session of the main model and of this one. -/
example : let s : Work := ⟨fun a => List.replicate (size a) 0xAA, [1, 2, 3], 7, []⟩
    (s.opInit (toySdk fun _ => 0) cleanPath 0).2 = 0x9000 ∧
    (s.opInit (toySdk fun _ => 0) cleanPath 0).1.hash =
      schnorrPrefix ++ [2] ++ List.replicate 31 0 ++ [6] ++ schnorrSuffix ++ [2] ++ List.replicate 31 0 ++ [3] := by
  decide +kernel

/-- The theorem applies to it: the memory-level start agrees with the main model. -/
example : let s : Work := ⟨fun a => List.replicate (size a) 0xAA, [1, 2, 3], 7, []⟩
    ∃ p, p2pkInit toyEnv cleanPath 0 (fun _ => List.replicate 31 0 ++ [3]) = .ok p ∧
      (s.opInit (toySdk fun _ => 0) cleanPath 0).1.hash = p.hash := by
  intro s
  have h := C67_init (toySdk fun _ => 0) toyEnv toySdk_serves toyEnv_wf cleanPath 0 s (fun _ => by simp [s])
  have e : (fun i => (((toySdk fun _ => 0).rng (s.draws + i) ++ List.replicate 32 0).take 32)) =
      fun _ => (List.replicate 31 0 ++ [3] : Bytes) := by
    funext i; simp [toySdk]
  rw [e] at h
  cases hp : p2pkInit toyEnv cleanPath 0 (fun _ => List.replicate 31 0 ++ [3]) with
  | ok p => rw [hp] at h; exact ⟨p, rfl, h.2.1⟩
  | err c =>
    rw [hp] at h
    have : (s.opInit (toySdk fun _ => 0) cleanPath 0).2 = 0x9000 := by decide +kernel
    rw [this] at h
    have : (match p2pkInit toyEnv cleanPath 0 (fun _ => List.replicate 31 0 ++ [3]) with
      | .ok _ => true | _ => false) = true := by decide +kernel
    rw [hp] at this
    cases this
  | ub => rw [hp] at h; exact h.elim

end Ergo
