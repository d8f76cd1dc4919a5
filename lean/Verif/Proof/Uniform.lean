import Verif.Spec.Uniform
import Verif.Proof.Secp256k1
import Verif.Proof.Schnorr
import Mathlib.Algebra.BigOperators.Fin
import Mathlib.Logic.Equiv.Basic
/-!
# Counting the random draws
-/
namespace Ergo
open Spec

/-- Exchange of two numbers in every draw. -/
def swapTape (a b : Fin (2 ^ 256)) : RandTape ≃ RandTape := Equiv.piCongrRight fun _ => Equiv.swap a b

theorem first_swap {a b : Fin (2 ^ 256)} (ha : KeyNumber a) (hb : KeyNumber b) (t : RandTape) :
    (swapTape a b t).first = t.first.map (Equiv.swap a b) := by
  have e : (List.finRange 100).map (swapTape a b t) = ((List.finRange 100).map t).map (Equiv.swap a b) := by
    rw [List.map_map]; rfl
  unfold RandTape.first
  rw [e, List.find?_map]
  congr 2
  funext v
  simp only [Function.comp_apply]
  by_cases h1 : v = a
  · subst h1; rw [Equiv.swap_apply_left]; simp [ha, hb]
  by_cases h2 : v = b
  · subst h2; rw [Equiv.swap_apply_right]; simp [ha, hb]
  rw [Equiv.swap_apply_of_ne_of_ne h1 h2]

/-- Every ephemeral key comes from the same number of tapes. -/
def firstEquiv {a b : Fin (2 ^ 256)} (ha : KeyNumber a) (hb : KeyNumber b) :
    {t : RandTape // t.first = some a} ≃ {t : RandTape // t.first = some b} := by
  refine Equiv.subtypeEquiv (swapTape a b) fun t => ?_
  rw [first_swap ha hb]
  constructor
  · intro h; rw [h]; simp
  · intro h
    cases hf : t.first with
    | none => rw [hf] at h; simp at h
    | some v =>
      rw [hf] at h
      simp only [Option.map_some, Option.some.injEq] at h
      rw [show v = a from (Equiv.swap a b).injective (by rw [h, Equiv.swap_apply_left])]

theorem card_first_eq {a b : Fin (2 ^ 256)} (ha : KeyNumber a) (hb : KeyNumber b) :
    Nat.card {t : RandTape // t.first = some a} = Nat.card {t : RandTape // t.first = some b} :=
  Nat.card_congr (firstEquiv ha hb)

theorem first_some {t : RandTape} {v : Fin (2 ^ 256)} (h : t.first = some v) : KeyNumber v := by
  simpa using List.find?_some h

theorem first_none {t : RandTape} : t.first = none ↔ ∀ i, ¬ KeyNumber (t i) := by
  unfold RandTape.first
  rw [List.find?_eq_none]
  simp

theorem usable_iff {t : RandTape} : t.Usable ↔ ∃ v, t.first = some v := by
  constructor
  · rintro ⟨i, hi⟩
    cases h : t.first with
    | none => exact absurd hi (first_none.1 h i)
    | some v => exact ⟨v, rfl⟩
  · rintro ⟨v, hv⟩
    by_contra hc
    have := first_none.2 (fun i hi => hc ⟨i, hi⟩)
    rw [this] at hv; cases hv

theorem card_keyNumber : Nat.card {v : Fin (2 ^ 256) // KeyNumber v} = groupOrder - 1 := by
  have hgo : groupOrder < 2 ^ 256 := by decide +kernel
  have e : {v : Fin (2 ^ 256) // KeyNumber v} ≃ Fin (groupOrder - 1) :=
    { toFun := fun v => ⟨v.1.1 - 1, by have h := v.2; unfold KeyNumber at h; omega⟩
      invFun := fun i => ⟨⟨i.1 + 1, by have := i.2; omega⟩, by
        have := i.2; show 0 < i.1 + 1 ∧ i.1 + 1 < groupOrder; omega⟩
      left_inv := by
        rintro ⟨⟨v, h⟩, h2⟩
        have h3 : 0 < v := h2.1
        simp only [Subtype.mk.injEq, Fin.mk.injEq]
        omega
      right_inv := by
        rintro ⟨i, h⟩
        simp }
  rw [Nat.card_congr e, Nat.card_fin]

theorem card_not_keyNumber : Nat.card {v : Fin (2 ^ 256) // ¬ KeyNumber v} = 2 ^ 256 - (groupOrder - 1) := by
  have h := Nat.card_congr (Equiv.sumCompl fun v : Fin (2 ^ 256) => KeyNumber v)
  rw [Nat.card_sum, card_keyNumber, Nat.card_fin] at h
  omega

theorem card_first_none : Nat.card {t : RandTape // t.first = none} = (2 ^ 256 - (groupOrder - 1)) ^ 100 := by
  have e : {t : RandTape // t.first = none} ≃ (Fin 100 → {v : Fin (2 ^ 256) // ¬ KeyNumber v}) :=
    (Equiv.subtypeEquivRight fun t => first_none).trans
      (Equiv.subtypePiEquivPi (p := fun _ (v : Fin (2 ^ 256)) => ¬ KeyNumber v))
  rw [Nat.card_congr e, Nat.card_fun, card_not_keyNumber, Nat.card_fin]

/-- The number of tapes for one key, times the number of keys, and the tapes without key. -/
theorem card_share {a : Fin (2 ^ 256)} (ha : KeyNumber a) :
    FairShare (Nat.card {t : RandTape // t.first = some a}) := by
  unfold FairShare
  have e : RandTape ≃ ({t : RandTape // ∃ v : {v : Fin (2 ^ 256) // KeyNumber v}, t.first = some v.1} ⊕
      {t : RandTape // t.first = none}) := by
    refine ((Equiv.sumCompl fun t : RandTape =>
      ∃ v : {v : Fin (2 ^ 256) // KeyNumber v}, t.first = some v.1).symm).trans
      (Equiv.sumCongr (Equiv.refl _) (Equiv.subtypeEquivRight fun t => ?_))
    constructor
    · intro h
      cases hf : t.first with
      | none => rfl
      | some v => exact absurd ⟨⟨v, first_some hf⟩, hf⟩ h
    · rintro h ⟨v, hv⟩
      rw [h] at hv; cases hv
  have e2 : {t : RandTape // ∃ v : {v : Fin (2 ^ 256) // KeyNumber v}, t.first = some v.1} ≃
      {v : Fin (2 ^ 256) // KeyNumber v} × {t : RandTape // t.first = some a} := by
    refine Equiv.trans (?_ : (v : {v : Fin (2 ^ 256) // KeyNumber v}) × {t : RandTape // t.first = some v.1} ≃ _).symm ?_
    · refine Equiv.ofBijective (fun p => ⟨p.2.1, p.1, p.2.2⟩) ⟨?_, ?_⟩
      · rintro ⟨⟨v, hv⟩, ⟨t, ht⟩⟩ ⟨⟨v', hv'⟩, ⟨t', ht'⟩⟩ h
        simp only [Subtype.mk.injEq] at h
        subst h
        have : v = v' := by simpa [ht] using ht'
        subst this
        rfl
      · rintro ⟨t, v, h⟩
        exact ⟨⟨v, t, h⟩, rfl⟩
    · exact (Equiv.sigmaCongrRight fun v => firstEquiv v.2 ha).trans (Equiv.sigmaEquivProd _ _)
  have h := Nat.card_congr e
  rw [Nat.card_sum, Nat.card_congr e2, Nat.card_prod, card_keyNumber, card_first_none, Nat.card_fun,
    Nat.card_fin, Nat.card_fin] at h
  exact h.symm

/-! ### The draws as used by the model -/

theorem secpMul_key {v : Nat} {k : Bytes} (hk : be k = v) (h : KeyNumber v) :
    ∃ p, secpMul k = some p ∧ compress p = serPoint (v • secpBase) := by
  rcases secpMul_cases k with ⟨_, h0⟩ | ⟨x, y, hn, e, h1⟩
  · exfalso
    rw [hk, ← addOrderOf_dvd_iff_nsmul_eq_zero, addOrderOf_base] at h0
    exact absurd (Nat.le_of_dvd h.1 h0) (by have := h.2; omega)
  · exact ⟨_, h1, hk ▸ secpMul_ser h1⟩

/-- A scalar passes the checks of the code exactly if it is a nonzero residue. -/
theorem scalar_key (k : Bytes) : (scalarOk k = true ∧ ∃ p, secpMul k = some p) ↔ KeyNumber (be k) := by
  unfold scalarOk
  rw [beNat_eq, secpN_eq]
  constructor
  · rintro ⟨h, p, hp⟩
    simp only [ne_eq, decide_not, Bool.and_eq_true, Bool.not_eq_eq_eq_not, Bool.not_true,
      decide_eq_false_iff_not, gt_iff_lt, not_lt] at h
    refine ⟨by omega, lt_of_le_of_ne h.2 fun e => ?_⟩
    rcases secpMul_cases k with ⟨h1, _⟩ | ⟨x, y, hn, h2, _⟩
    · rw [h1] at hp; cases hp
    · rw [e, base_order] at h2; cases h2
  · intro h
    obtain ⟨p, hp, _⟩ := secpMul_key rfl h
    refine ⟨?_, p, hp⟩
    have := h.1; have := h.2
    simp only [ne_eq, decide_not, Bool.and_eq_true, Bool.not_eq_eq_eq_not, Bool.not_true,
      decide_eq_false_iff_not, gt_iff_lt, not_lt]
    omega

/-- What is hashed at first. -/
def tapeCommit (secret : Bytes) (v : Nat) : Bytes :=
  schnorrPrefix ++ serPoint (be secret • secpBase) ++ schnorrSuffix ++ serPoint (v • secpBase)

theorem schnorrTry_key {env : Env} (hmul : env.mulG = secpMul) {secret k : Bytes} (hs : KeyNumber (be secret)) :
    schnorrTry env secret k = if KeyNumber (be k) then some (tapeCommit secret (be k), k) else none := by
  obtain ⟨s1, p, s2⟩ := (scalar_key secret).2 hs
  have s3 := secpMul_ser s2
  unfold schnorrTry
  rw [hmul, s1, s2]
  by_cases hk : KeyNumber (be k)
  · obtain ⟨k1, w, k2⟩ := (scalar_key k).2 hk
    have k3 := secpMul_ser k2
    rw [if_pos hk, k1, k2]
    simp [tapeCommit, s3, k3]
  · rw [if_neg hk]
    simp only [not_true_eq_false, if_false]
    split
    · rfl
    · rename_i h
      cases hw : secpMul k with
      | none => rfl
      | some w => exact absurd ((scalar_key k).1 ⟨by simpa using h, w, hw⟩) hk

theorem schnorrTry_bad {env : Env} (hmul : env.mulG = secpMul) {secret k : Bytes} (hs : ¬ KeyNumber (be secret)) :
    schnorrTry env secret k = none := by
  unfold schnorrTry
  split
  · rfl
  · rename_i h
    rw [hmul]
    cases hw : secpMul secret with
    | none => rfl
    | some w => exact absurd ((scalar_key secret).1 ⟨by simpa using h, w, hw⟩) hs

theorem schnorrInitLoop_findSome (env : Env) (secret : Bytes) (draws : Nat → Bytes) : ∀ fuel i : Nat,
    schnorrInitLoop env secret draws fuel i =
      (List.range' i fuel).findSome? fun j => schnorrTry env secret (draws j)
  | 0, _ => rfl
  | fuel + 1, i => by
    rw [schnorrInitLoop, List.range'_succ, List.findSome?_cons, schnorrInitLoop_findSome env secret draws fuel (i + 1)]
    cases schnorrTry env secret (draws i) <;> rfl

theorem findSome_key (f : Fin (2 ^ 256) → Bytes × Bytes) : ∀ l : List (Fin (2 ^ 256)),
    l.findSome? (fun v : Fin (2 ^ 256) => if KeyNumber v.val then some (f v) else none) =
      (l.find? fun v : Fin (2 ^ 256) => KeyNumber v.val).map f
  | [] => rfl
  | v :: l => by
    rw [List.findSome?_cons, List.find?_cons]
    by_cases h : KeyNumber v
    · simp [h]
    · simp only [h, if_false, decide_false]
      exact findSome_key f l

/-- The start of a signature takes the first usable draw. -/
theorem schnorrInit_tape {env : Env} (hmul : env.mulG = secpMul) {secret : Bytes} (hs : KeyNumber (be secret))
    (t : RandTape) : schnorrInit env secret t.keys = t.first.map fun v : Fin (2 ^ 256) => (tapeCommit secret v.val, bytes32 v.val) := by
  unfold schnorrInit
  rw [schnorrInitLoop_findSome]
  have e : List.range' 0 100 = (List.finRange 100).map Fin.val := by
    rw [List.map_coe_finRange_eq_range, List.range_eq_range']
  rw [e, List.findSome?_map, RandTape.first, ← findSome_key fun v => (tapeCommit secret v.val, bytes32 v.val), List.findSome?_map]
  congr 1
  funext i
  simp only [Function.comp_apply]
  have hk : t.keys i.val = bytes32 (t i) := by simp [RandTape.keys]
  rw [hk, schnorrTry_key hmul hs, be_bytes32 (t i).2]

theorem schnorrInit_bad {env : Env} (hmul : env.mulG = secpMul) {secret : Bytes} (hs : ¬ KeyNumber (be secret))
    (draws : Nat → Bytes) : schnorrInit env secret draws = none := by
  unfold schnorrInit
  rw [schnorrInitLoop_findSome, List.findSome?_eq_none_iff]
  exact fun j _ => schnorrTry_bad hmul hs

/-! ### Which signatures result -/

/-- The signature with a given ephemeral key. -/
def tapeSig (env : Env) (secret msg : Bytes) (v : Nat) : Option Bytes :=
  schnorrFinish env (tapeCommit secret v ++ msg) secret (bytes32 v)

theorem tapeSig_some {env : Env} (hb : ∀ b, (env.blake b).length = 32) {secret msg sig : Bytes} {v : Nat}
    (hv : KeyNumber v) (h : tapeSig env secret msg v = some sig) :
    Producible secpBase serPoint env.blake (be secret • secpBase) msg sig ∧
      be (sig.drop 24) = (v + be (sig.take 24) * be secret) % groupOrder := by
  have hlt : v < 2 ^ 256 := lt_trans hv.2 (by decide +kernel)
  have hr := finish_response hb h
  rw [be_bytes32 hlt] at hr
  obtain ⟨h1, h2⟩ := hr
  have hcom : be (sig.drop 24) • secpBase - be (sig.take 24) • (be secret • secpBase) = v • secpBase := by
    rw [h2, Nat.add_mod, ← schnorr_algebra secpBase groupOrder (be (sig.take 24)) (be secret) v base_order]
    rw [Nat.add_mod v]
    simp
  have hform : sig = (env.blake (tapeCommit secret v ++ msg)).take 24 ++ sig.drop 24 ∧
      be ((env.blake (tapeCommit secret v ++ msg)).take 24) ≠ 0 ∧ (sig.drop 24).length = 32 := by
    have h' := h
    unfold tapeSig schnorrFinish at h'
    simp only at h'
    split at h'
    · cases h'
    · rename_i hne
      rw [beNat_eq] at hne
      refine ⟨?_, hne, ?_⟩
      · conv_lhs => rw [← List.take_append_drop 24 sig, h1]
      · simp only [Option.some.injEq] at h'
        rw [← h', List.length_drop, List.length_append, beBytes_length]
        simp [hb]
  obtain ⟨hf, hne, hl⟩ := hform
  have hgo : 0 < groupOrder := by decide +kernel
  refine ⟨⟨⟨sig.take 24, sig.drop 24, ?_, hl, (List.take_append_drop 24 sig).symm, ?_, ?_⟩, ?_, ?_⟩, h2⟩
  · rw [h1]; simp [hb]
  · rw [h2]; exact Nat.mod_lt _ hgo
  · rw [hcom, h1]
    simp only [tapeCommit, schnorrPrefix, schnorrSuffix, List.append_assoc]
  · rw [h1]; exact hne
  · intro hc
    rw [hc, sub_self] at hcom
    have h0 : addOrderOf secpBase ∣ v := addOrderOf_dvd_iff_nsmul_eq_zero.2 hcom.symm
    rw [addOrderOf_base] at h0
    exact absurd (Nat.le_of_dvd hv.1 h0) (by have := hv.2; omega)

/-- Every signature that an honest signer can give comes from one ephemeral key. -/
theorem tapeSig_of {env : Env} {secret msg sig : Bytes}
    (h : Producible secpBase serPoint env.blake (be secret • secpBase) msg sig) :
    ∃ v, KeyNumber v ∧ tapeSig env secret msg v = some sig := by
  obtain ⟨⟨c, z, hc, hz, rfl, hzl, hh⟩, h1, h2⟩ := h
  have e1 : (c ++ z).take 24 = c := by rw [← hc, List.take_left]
  have e2 : (c ++ z).drop 24 = z := by rw [← hc, List.drop_left]
  rw [e1] at h1 h2
  rw [e2] at h2
  have hgo : 0 < groupOrder := by decide +kernel
  set m := be c * be secret % groupOrder with hm
  have hml : m < groupOrder := Nat.mod_lt _ hgo
  set v := (be z + (groupOrder - m)) % groupOrder with hv
  have hvl : v < groupOrder := Nat.mod_lt _ hgo
  have hvz : (v + m) % groupOrder = be z := by
    rw [hv, Nat.mod_add_mod, show be z + (groupOrder - m) + m = be z + groupOrder from by omega,
      Nat.add_mod_right, Nat.mod_eq_of_lt hzl]
  have hcom : be z • secpBase - be c • (be secret • secpBase) = v • secpBase := by
    rw [← hvz]; exact schnorr_algebra secpBase groupOrder (be c) (be secret) v base_order
  have hv0 : v ≠ 0 := by
    intro h0
    rw [h0, zero_nsmul, sub_eq_zero] at hcom
    exact h2 hcom
  refine ⟨v, ⟨by omega, hvl⟩, ?_⟩
  have hh' : (env.blake (tapeCommit secret v ++ msg)).take 24 = c := by
    rw [hcom] at hh
    rw [← hh]
    simp only [tapeCommit, schnorrPrefix, schnorrSuffix, List.append_assoc]
  unfold tapeSig schnorrFinish
  simp only [hh', beNat_eq, secpN_eq]
  rw [if_neg h1, be_bytes32 (lt_trans hvl (by decide +kernel)), ← hm, hvz]
  congr 2
  have := be_inj (a := beBytes 32 (be z)) (b := z) (by rw [beBytes_length, hz])
    (by rw [be_beBytes, Nat.mod_eq_of_lt (lt_trans hzl (by decide +kernel))])
  exact this

theorem tapeSig_unique {env : Env} (hb : ∀ b, (env.blake b).length = 32) {secret msg sig : Bytes} {v v' : Nat}
    (hv : KeyNumber v) (hv' : KeyNumber v') (h : tapeSig env secret msg v = some sig)
    (h' : tapeSig env secret msg v' = some sig) : v = v' := by
  have a := (tapeSig_some hb hv h).2
  have b := (tapeSig_some hb hv' h').2
  rw [a] at b
  have c : v ≡ v' [MOD groupOrder] := Nat.ModEq.add_right_cancel' _ b
  have := Nat.ModEq.eq_of_lt_of_lt c hv.2 hv'.2
  exact this

end Ergo
