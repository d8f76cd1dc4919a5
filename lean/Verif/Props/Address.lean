import Verif.Model.Address
import Verif.Proof.Toy
import Mathlib.Tactic.NormNum
/-!
# C38: address bytes
-/
namespace Ergo

/-- Number form of the network check: succeeds for ids 0..252. -/
theorem networkValid_iff (n : UInt8) : networkValid n = true ↔ n.toNat ≤ 252 := by
  unfold networkValid
  rw [decide_eq_true_eq, UInt8.le_iff_toNat_le]; rfl

/-- C38: a P2PK address is the type/network byte, the 33-byte key and the first 4 hash bytes;
generation fails exactly for networks above 252. -/
theorem C38_p2pk (env : Env) (hwf : env.WF) (n : UInt8) (pk : Bytes) (hpk : pk.length = 33) :
    (n.toNat ≤ 252 → ∃ a t, addressFromCompressed env n pk = some a ∧ a.length = 38 ∧
      t.toNat = 1 + n.toNat ∧ a = (t :: pk) ++ (env.blake (t :: pk)).take 4) ∧
    (252 < n.toNat → addressFromCompressed env n pk = none) := by
  constructor
  · intro h
    have hv := (networkValid_iff n).2 h
    refine ⟨withChecksum env ((1 + n) :: pk), 1 + n, ?_, ?_, ?_, rfl⟩
    · simp [addressFromCompressed, hv, List.take_of_length_le (Nat.le_of_eq hpk)]
    · simp [withChecksum, hpk, hwf.blake_len]
    · rw [UInt8.toNat_add]; show (1 + _) % 256 = _; omega
  · intro h
    have hv : ¬ networkValid n = true := by rw [networkValid_iff]; omega
    simp [addressFromCompressed, hv]

/-- C38: a P2S/P2SH address is the type/network byte, 24 content bytes and the checksum. -/
theorem C38_p2sh (env : Env) (hwf : env.WF) (n : UInt8) (hash : Bytes) (hh : 24 ≤ hash.length) :
    (n.toNat ≤ 252 → ∃ a t, addressFromScriptHash env n hash = some a ∧ a.length = 29 ∧
      t.toNat = 2 + n.toNat ∧
      a = (t :: hash.take 24) ++ (env.blake (t :: hash.take 24)).take 4) ∧
    (252 < n.toNat → addressFromScriptHash env n hash = none) := by
  constructor
  · intro h
    have hv := (networkValid_iff n).2 h
    refine ⟨withChecksum env ((2 + n) :: hash.take 24), 2 + n, ?_, ?_, ?_, rfl⟩
    · simp [addressFromScriptHash, hv]
    · simp [withChecksum, hwf.blake_len, hh]
    · rw [UInt8.toNat_add]; show (2 + _) % 256 = _; omega
  · intro h
    have hv : ¬ networkValid n = true := by rw [networkValid_iff]; omega
    simp [addressFromScriptHash, hv]

/-- C38: the uncompressed and the compressed form of a key give the same address. -/
theorem C38_same (env : Env) (n : UInt8) (pk : Bytes) (hpk : pk.length = 65) :
    addressFromPubkey env n pk = addressFromCompressed env n (compress pk) := by
  have h : (compress pk).length = 33 := by simp [compress, hpk]
  simp only [addressFromPubkey, addressFromCompressed, List.take_of_length_le (Nat.le_of_eq h)]

/-- The compressed form: parity byte of the second coordinate and the first coordinate. -/
theorem C38_compressed (x y : Bytes) (t : UInt8) (hx : x.length = 32) :
    compress (t :: (x ++ y)) = (if (y.getD 31 0).toNat % 2 = 1 then 3 else 2) :: x := by
  have h1 : (t :: (x ++ y)).getD 64 0 = y.getD 31 0 := by
    have : (x ++ y)[63]? = y[31]? := by rw [List.getElem?_append_right (by omega), hx]
    simp [this]
  have h2 : ∀ b : UInt8, (b &&& 1 = 1) ↔ b.toNat % 2 = 1 := by
    intro b
    rw [← UInt8.toNat_inj, UInt8.toNat_and]
    show b.toNat &&& 1 = 1 ↔ _
    rw [Nat.and_one_is_mod]
  unfold compress
  rw [h1]
  congr 1
  · by_cases h : (y.getD 31 0).toNat % 2 = 1
    · rw [if_pos h, if_pos ((h2 _).2 h)]
    · rw [if_neg h, if_neg (fun h' => h ((h2 _).1 h'))]
  · simp [hx]

/-- C38: distinct (network, key) pairs have distinct addresses, whatever the hash function. -/
theorem C38_injective (env : Env) (n m : UInt8) (p q a : Bytes) (hp : p.length = 33)
    (hq : q.length = 33) (h1 : addressFromCompressed env n p = some a)
    (h2 : addressFromCompressed env m q = some a) : n = m ∧ p = q := by
  unfold addressFromCompressed at h1 h2
  split at h1
  · split at h2
    · simp only [Option.some.injEq, withChecksum, List.take_of_length_le (Nat.le_of_eq hp)] at h1
      simp only [Option.some.injEq, withChecksum, List.take_of_length_le (Nat.le_of_eq hq)] at h2
      have := List.append_inj_left (h1.trans h2.symm) (by simp [hp, hq])
      simp only [List.cons.injEq] at this
      exact ⟨by simpa using this.1, this.2⟩
    · simp at h2
  · simp at h1

/-- C38: a P2PK address never equals a script address (their lengths differ). -/
theorem C38_kinds (env : Env) (hwf : env.WF) (n m : UInt8) (p h a b : Bytes)
    (hp : p.length = 33) (hh : 24 ≤ h.length) (h1 : addressFromCompressed env n p = some a)
    (h2 : addressFromScriptHash env m h = some b) : a ≠ b := by
  unfold addressFromCompressed at h1
  unfold addressFromScriptHash at h2
  split at h1
  · split at h2
    · intro e
      have l1 : a.length = 38 := by
        rw [← Option.some.inj h1]; simp [withChecksum, hp, hwf.blake_len]
      have l2 : b.length = 29 := by
        rw [← Option.some.inj h2]; simp [withChecksum, hwf.blake_len, hh]
      rw [e, l2] at l1
      omega
    · simp at h2
  · simp at h1

example : addressFromCompressed toyEnv 0 (List.replicate 33 3) =
      some (1 :: List.replicate 33 3 ++ [7, 7, 7, 7]) ∧
    addressFromCompressed toyEnv 253 (List.replicate 33 3) = none ∧
    addressFromScriptHash toyEnv 16 (List.replicate 32 3) =
      some (18 :: List.replicate 24 3 ++ [7, 7, 7, 7]) ∧
    addressFromPubkey toyEnv 0 (4 :: List.replicate 32 3 ++ List.replicate 32 2) =
      some (1 :: 2 :: List.replicate 32 3 ++ [7, 7, 7, 7]) := by decide +kernel

end Ergo
