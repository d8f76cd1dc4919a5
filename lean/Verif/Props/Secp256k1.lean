import Verif.Proof.Secp256k1
import Verif.Props.Session
import Verif.Model.Crypto
/-!
# C72: signatures on secp256k1

The curve operations of the operating system, until now any function (`Env.mulG`, `Env.pubOf`), are the
multiplication of the base point of secp256k1.  The group of the curve is that of Mathlib.
-/
namespace Ergo
open Spec WeierstrassCurve.Affine

/-- C72: `SECP256K1_G` is a point of the curve, the base point of SEC 2, and `SECP256K1_N` is its order;
both the order and the modulus of the coordinates are prime. -/
theorem C72_order : ∃ (g : SecpPoint) (x y : ZMod fieldPrime) (h : _), IsBase g ∧ g = .some x y h ∧
    4 :: Work.secpG = uncompressed x y ∧ addOrderOf g = secpN ∧ secpN.Prime ∧ fieldPrime.Prime := by
  have e : 4 :: Work.secpG = 4 :: (bytes32 (secpGxy.1 % fieldPrime) ++ bytes32 (secpGxy.2 % fieldPrime)) := by
    decide +kernel
  refine ⟨secpBase, _, _, _, secpBase_isBase, rfl, ?_, addOrderOf_base.trans secpN_eq.symm, prime_secpN,
    prime_secpP⟩
  rw [uncompressed, ZMod.val_natCast, ZMod.val_natCast]
  exact e

/-- The order is that of the source, and a point of the curve that is not the base point: `2 • g`. -/
example : secpN = groupOrder ∧ ∀ g : SecpPoint, IsBase g → 2 • g ≠ g ∧ 2 • g ≠ 0 := by
  refine ⟨secpN_eq, fun g hg => ?_⟩
  rw [isBase_eq hg]
  constructor
  · conv_rhs => rw [← one_nsmul secpBase]
    rw [Ne, base_smul_eq]
    decide +kernel
  · rw [← zero_nsmul secpBase, Ne, base_smul_eq]
    decide +kernel

/-- C72: for every scalar, of any length, the formulas give the uncompressed form of the multiple of the
base point; they give nothing exactly for the multiples of the order. -/
theorem C72_mul {g : SecpPoint} (hg : IsBase g) (k : Bytes) :
    (secpMul k = none ↔ groupOrder ∣ be k) ∧
    ∀ p, secpMul k = some p ↔ ∃ x y h, be k • g = .some x y h ∧ p = uncompressed x y := by
  rw [isBase_eq hg]
  have h0 : be k • secpBase = 0 ↔ groupOrder ∣ be k := by
    rw [← addOrderOf_base, addOrderOf_dvd_iff_nsmul_eq_zero]
  rcases secpMul_cases k with ⟨h1, h2⟩ | ⟨x, y, hn, h2, h1⟩
  · refine ⟨by rw [h1, ← h0, h2]; simp, fun p => ?_⟩
    rw [h1, h2]
    constructor
    · intro h; cases h
    · rintro ⟨x, y, h, e, _⟩; cases e
  · refine ⟨by rw [h1, ← h0, h2]; simp, fun p => ?_⟩
    rw [h1, h2]
    constructor
    · intro h; cases h; exact ⟨x, y, hn, rfl, rfl⟩
    · rintro ⟨x', y', h, e, rfl⟩
      cases e
      rfl

/-- The scalars 1 and 7 as two bytes; the order itself has no point. -/
example : secpMul [0, 1] = some (4 :: (beBytes 32 secpGxy.1 ++ beBytes 32 secpGxy.2)) ∧
    ((secpMul [0, 7]).map fun p => (p.take 5, p.length)) = some ([4, 0x5c, 0xbd, 0xf0, 0x64], 65) ∧
    groupOrder ∣ be (beBytes 32 secpN) := by
  refine ⟨by decide +kernel, by decide +kernel, ?_⟩
  rw [be_beBytes, secpN_eq]
  decide +kernel

/-- C72: the public key reported for a path is the multiple of the base point by the private key of the
path, and two paths have the same 33-byte key only if their private keys are equal modulo the order. -/
theorem C72_public {g : SecpPoint} (hg : IsBase g) {env : Env} (hpub : env.pubOf = secpMul)
    {path : List UInt32} {p chain : Bytes} (h : env.genPublic path = some (p, chain)) :
    ∃ secret x y hn, env.derive path = some (secret, chain) ∧ be secret • g = .some x y hn ∧
      p = uncompressed x y ∧ compress p = serPoint (be secret • g) ∧
      ∀ path' p' chain', env.genPublic path' = some (p', chain') → compress p' = compress p →
        ∃ secret', env.derive path' = some (secret', chain') ∧ be secret' % groupOrder = be secret % groupOrder := by
  have key : ∀ {path : List UInt32} {p chain : Bytes}, env.genPublic path = some (p, chain) →
      ∃ secret, env.derive path = some (secret, chain) ∧ secpMul secret = some p := by
    intro path p chain h
    unfold Env.genPublic at h
    cases hd : env.derive path with
    | none => rw [hd] at h; cases h
    | some kc =>
      obtain ⟨k, c⟩ := kc
      rw [hd, hpub] at h
      simp only at h
      cases hm : secpMul k with
      | none => rw [hm] at h; cases h
      | some q =>
        rw [hm] at h
        cases h
        exact ⟨k, rfl, hm⟩
  obtain ⟨secret, hd, hm⟩ := key h
  obtain ⟨x, y, hn, e1, e2⟩ := ((C72_mul hg secret).2 p).1 hm
  have hs : compress p = serPoint (be secret • g) := by rw [isBase_eq hg]; exact secpMul_ser hm
  refine ⟨secret, x, y, hn, hd, e1, e2, hs, fun path' p' chain' h' heq => ?_⟩
  obtain ⟨secret', hd', hm'⟩ := key h'
  refine ⟨secret', hd', ?_⟩
  rw [hs, secpMul_ser hm', isBase_eq hg] at heq
  exact base_smul_eq.1 (serPoint_inj heq)

/-- The environment with the curve and with toy hash and derivation. -/
def secpToy : Env := { toyEnv with mulG := secpMul, pubOf := secpMul }

/-- Two paths of different length have different private keys there, hence different public keys. -/
example : secpToy.pubOf = secpMul ∧ (secpToy.genPublic [1]).isSome = true ∧
    (secpToy.genPublic [1]).map (fun p => compress p.1) ≠ (secpToy.genPublic [1, 2]).map (fun p => compress p.1) := by
  refine ⟨rfl, ?_, ?_⟩ <;> decide +kernel

/-- C72: every released signature is a valid proof on secp256k1 for the public key of the session's path
and the transaction described by the session, whatever the hash. -/
theorem C72_session {g : SecpPoint} (hg : IsBase g) {env : Env} (hwf : env.WF)
    (hv : env.appVersion.length ≠ 56) (hn : env.appName.length ≠ 56) (hmul : env.mulG = secpMul)
    {nanoS : Bool} {key : Bytes} {tr : List Obs} {d : Device}
    (h : Runs env nanoS key tr d) (e : Event) (out : Bytes)
    (hr : (d.step env nanoS e).2 = .sw 0x9000 out) (hl : out.length = 56) :
    ∃ S secret chain, (know tr).sign = some S ∧
      env.derive (pathOf (S.start.data.drop 1)) = some (secret, chain) ∧
      ValidSig g serPoint env.blake (be secret • g) (txBytesSoFar env.keyOf (describe S.log)) out := by
  rw [isBase_eq hg]
  refine C07_session secpBase serPoint hwf hv hn base_order (fun k p hk => ?_) h e out hr hl
  rw [hmul] at hk
  exact secpMul_ser hk

/-- A session on the curve that ends with a signature. -/
example : secpToy.mulG = secpMul ∧
    ((Device.boot [1]).run secpToy false (demoOpen ++ demoTx ++ demoConfirm)).2.getLast?.map isSig =
      some true :=
  ⟨rfl, by decide +kernel⟩

/-- C72: two valid proofs with one commitment and different challenges determine the private key modulo
the order (special soundness of the proof the device gives). -/
theorem C72_extract {g : SecpPoint} (hg : IsBase g) (s : Nat) {c₁ c₂ z₁ z₂ : Bytes}
    (h₁ : c₁.length = 24) (h₂ : c₂.length = 24) (hc : c₁ ≠ c₂)
    (same : serPoint (be z₁ • g - be c₁ • (s • g)) = serPoint (be z₂ • g - be c₂ • (s • g))) :
    ((be c₁ : ZMod groupOrder) - be c₂) ≠ 0 ∧
    (s : ZMod groupOrder) = ((be z₁ : ZMod groupOrder) - be z₂) / ((be c₁ : ZMod groupOrder) - be c₂) := by
  have hP := serPoint_inj same
  rw [isBase_eq hg] at hP
  have : be z₁ • secpBase + (be c₂ * s) • secpBase = be z₂ • secpBase + (be c₁ * s) • secpBase := by
    rw [mul_nsmul', mul_nsmul', ← sub_eq_sub_iff_add_eq_add]
    exact hP
  rw [← add_nsmul, ← add_nsmul, base_smul_eq, ← ZMod.natCast_eq_natCast_iff] at this
  exact extract_scalar h₁ h₂ hc this

/-- Key 5, nonce 3, challenges 1 and 2, responses 8 and 13. -/
example {g : SecpPoint} (hg : IsBase g) :
    serPoint (8 • g - be (List.replicate 23 0 ++ [1]) • (5 • g)) =
      serPoint (13 • g - be (List.replicate 23 0 ++ [2]) • (5 • g)) ∧
    ((5 : Nat) : ZMod groupOrder) = (((8 : Nat) : ZMod groupOrder) - (13 : Nat)) / (((1 : Nat) : ZMod groupOrder) - (2 : Nat)) := by
  have e1 : be (List.replicate 23 0 ++ [1]) = 1 := by decide +kernel
  have e2 : be (List.replicate 23 0 ++ [2]) = 2 := by decide +kernel
  have same : serPoint (8 • g - be (List.replicate 23 0 ++ [1]) • (5 • g)) =
      serPoint (13 • g - be (List.replicate 23 0 ++ [2]) • (5 • g)) := by
    rw [e1, e2]
    congr 1
    abel
  have a1 : be [8] = 8 := by decide
  have a2 : be [13] = 13 := by decide
  have h := (C72_extract hg 5 (z₁ := [8]) (z₂ := [13]) (c₁ := List.replicate 23 0 ++ [1])
    (c₂ := List.replicate 23 0 ++ [2]) rfl rfl (by decide) (by rw [a1, a2]; exact same)).2
  rw [e1, e2, a1, a2] at h
  exact ⟨same, h⟩

/-- C72: if two released signatures, of any two sessions on any devices with the same keys, use one path
and the same random scalars, and differ in the challenge, then the private key of the path is computed
from the two signatures (whence the requirement C06). -/
theorem C72_reuse {env : Env} (hwf : env.WF) (hv : env.appVersion.length ≠ 56)
    (hn : env.appName.length ≠ 56) {nanoS₁ nanoS₂ : Bool} {key₁ key₂ : Bytes} {tr₁ tr₂ : List Obs}
    {d₁ d₂ : Device} (h₁ : Runs env nanoS₁ key₁ tr₁ d₁) (h₂ : Runs env nanoS₂ key₂ tr₂ d₂)
    {e₁ e₂ : Event} {out₁ out₂ : Bytes}
    (hr₁ : (d₁.step env nanoS₁ e₁).2 = .sw 0x9000 out₁) (hl₁ : out₁.length = 56)
    (hr₂ : (d₂.step env nanoS₂ e₂).2 = .sw 0x9000 out₂) (hl₂ : out₂.length = 56)
    {S₁ S₂ : SignSess} (hS₁ : (know tr₁).sign = some S₁) (hS₂ : (know tr₂).sign = some S₂)
    (hpath : pathOf (S₁.start.data.drop 1) = pathOf (S₂.start.data.drop 1))
    (hkeys : S₁.start.rnd.keys = S₂.start.rnd.keys) (hc : out₁.take 24 ≠ out₂.take 24) :
    ∃ secret chain, env.derive (pathOf (S₁.start.data.drop 1)) = some (secret, chain) ∧
      (be secret : ZMod groupOrder) =
        ((be (out₁.drop 24) : ZMod groupOrder) - be (out₂.drop 24)) /
          ((be (out₁.take 24) : ZMod groupOrder) - be (out₂.take 24)) := by
  obtain ⟨x, S, n, path, secret, k, pk, w, R⟩ := released hwf hv hn h₁ hr₁ hl₁
  obtain ⟨x', S', n', path', secret', k', pk', w', R'⟩ := released hwf hv hn h₂ hr₂ hl₂
  cases hS₁.symm.trans R.sign
  cases hS₂.symm.trans R'.sign
  obtain ⟨kc, hkc, e1⟩ := Option.map_eq_some_iff.1 R.priv
  subst e1
  have hpp : path = path' := by rw [R.path_eq, R'.path_eq, hpath]
  have hsec : secret' = kc.1 := by
    have := R'.priv
    rw [← hpp, R.priv] at this
    exact (Option.some.inj this).symm
  subst hsec
  obtain ⟨t, i1, _⟩ := R.init
  obtain ⟨t', i2, _⟩ := R'.init
  have hk : k = k' := by
    rw [hkeys, i2] at i1
    cases i1
    rfl
  subst hk
  refine ⟨kc.1, kc.2, by rw [← R.path_eq]; exact hkc, ?_⟩
  obtain ⟨c1, z1⟩ := finish_response hwf.blake_len R.fin
  obtain ⟨c2, z2⟩ := finish_response hwf.blake_len R'.fin
  refine (extract_scalar (c₁ := out₁.take 24) (c₂ := out₂.take 24) (by simp [hl₁]) (by simp [hl₂]) hc ?_).2
  rw [z1, z2, ZMod.natCast_eq_natCast_iff, Nat.ModEq, Nat.mod_add_mod, Nat.mod_add_mod]
  congr 1
  ring

/-- An environment whose hash depends on all bytes. -/
def sumEnv : Env :=
  { toyEnv with blake := fun b => List.replicate 23 1 ++ [b.foldl (· + ·) 0] ++ List.replicate 8 0 }

/-- The transaction of `demoTx` with value 91 and fee 9. -/
def demoTx' : List Event :=
  [cmd 0x21 0x10 7 [0, 1, 0, 0, 0, 0, 2], cmd 0x21 0x12 7 (demoFrame 1 1 0 100 [] [0, 0, 0, 0]),
   cmd 0x21 0x15 7 [0, 0, 0, 0, 0, 0, 0, 91, 0, 0, 0, 36, 0, 0, 0, 1, 0, 0, 0, 0, 0],
   cmd 0x21 0x16 7 demoTree, .left, .left, .both,
   cmd 0x21 0x15 7 [0, 0, 0, 0, 0, 0, 0, 7, 0, 0, 0, 105, 0, 0, 0, 1, 0, 0, 0, 0, 0],
   cmd 0x21 0x17 7 []]

/-- Data of the last reply of a list of events. -/
def lastData (es : List Event) : Bytes :=
  match ((Device.boot [1]).run sumEnv false es).2.getLast? with
  | some (.sw _ b) => b
  | _ => []

set_option maxRecDepth 100000 in
/-- Two such sessions with equal random scalars (3) and different transactions: the private key (6) from
the two signatures. -/
example (a b : Bytes) (ha : a = lastData (demoOpen ++ demoTx ++ demoConfirm))
    (hb : b = lastData (demoOpen ++ demoTx' ++ demoConfirm)) :
    a.length = 56 ∧ b.length = 56 ∧ a.take 24 ≠ b.take 24 ∧
      (be (a.drop 24) + be (b.take 24) * 6) % groupOrder = (be (b.drop 24) + be (a.take 24) * 6) % groupOrder ∧
      (sumEnv.derive [1, 2, 3, 4, 5]).map (be ·.1) = some 6 := by
  subst ha hb
  decide +kernel

end Ergo
