import Verif.Spec.Secp256k1
import Verif.Proof.Prime
import Verif.Proof.Schnorr
import Verif.Proof.Bytes
import Mathlib.Tactic.LinearCombination
import Mathlib.Tactic.FieldSimp
/-!
# The formulas on numbers are the group law
-/
namespace Ergo
open Spec WeierstrassCurve.Affine

theorem secpP_eq : secpP = fieldPrime := rfl

instance : Fact fieldPrime.Prime := ⟨prime_secpP⟩

theorem fieldPrime_pos : 0 < fieldPrime := by decide +kernel

/-- Cast of a subtraction from the prime. -/
theorem cast_minus {y : Nat} (h : y ≤ secpP) : ((secpP - y : Nat) : ZMod fieldPrime) = -(y : ZMod fieldPrime) := by
  rw [Nat.cast_sub h, secpP_eq, ZMod.natCast_self, zero_sub]

theorem cast_mod (v : Nat) : ((v % secpP : Nat) : ZMod fieldPrime) = (v : ZMod fieldPrime) := by
  rw [secpP_eq]; exact ZMod.natCast_mod v _

theorem cast_inv (x : Nat) : ((secpInv x : Nat) : ZMod fieldPrime) = (x : ZMod fieldPrime)⁻¹ := by
  unfold secpInv
  rw [powMod_eq _ _ _ _ (by decide +kernel), cast_mod, Nat.cast_pow]
  by_cases h0 : (x : ZMod fieldPrime) = 0
  · rw [h0, inv_zero, zero_pow (by decide +kernel)]
  · apply eq_inv_of_mul_eq_one_left
    rw [← pow_succ, show secpP - 2 + 1 = fieldPrime - 1 by decide +kernel]
    exact ZMod.pow_card_sub_one_eq_one h0

theorem natCast_inj {x y : Nat} (hx : x < secpP) (hy : y < secpP) :
    (x : ZMod fieldPrime) = (y : ZMod fieldPrime) ↔ x = y := by
  rw [ZMod.natCast_eq_natCast_iff, secpP_eq] at *
  constructor
  · intro h
    have := h
    unfold Nat.ModEq at this
    rwa [Nat.mod_eq_of_lt hx, Nat.mod_eq_of_lt hy] at this
  · rintro rfl; rfl

/-- A pair of numbers stands for a point. -/
inductive Stands : Option (Nat × Nat) → SecpPoint → Prop
  | zero : Stands none 0
  | some {x y : Nat} (hx : x < secpP) (hy : y < secpP)
      (h : secpCurve.toAffine.Nonsingular (x : ZMod fieldPrime) (y : ZMod fieldPrime)) :
      Stands (some (x, y)) (.some _ _ h)

theorem Stands.of_eq {x y : Nat} (hx : x < secpP) (hy : y < secpP) {X Y : ZMod fieldPrime}
    (eX : (x : ZMod fieldPrime) = X) (eY : (y : ZMod fieldPrime) = Y)
    (h : secpCurve.toAffine.Nonsingular X Y) : Stands (Option.some (x, y)) (.some X Y h) := by
  subst eX eY
  exact .some hx hy h

/-- The sum. -/
theorem Stands.add {a b : Option (Nat × Nat)} {P Q : SecpPoint} (ha : Stands a P) (hb : Stands b Q) :
    Stands (curveAdd a b) (P + Q) := by
  cases ha with
  | zero => rw [zero_add]; cases b <;> exact hb
  | @some x₁ y₁ hx₁ hy₁ h₁ =>
    cases hb with
    | zero => rw [add_zero]; exact .some hx₁ hy₁ h₁
    | @some x₂ y₂ hx₂ hy₂ h₂ =>
      have hpos : 0 < secpP := by decide +kernel
      have hneg : (y₁ + y₂) % secpP = 0 ↔ (y₁ : ZMod fieldPrime) = secpCurve.toAffine.negY x₂ y₂ := by
        simp only [negY, zero_mul, sub_zero]
        rw [← Nat.dvd_iff_mod_eq_zero, secpP_eq, ← ZMod.natCast_eq_zero_iff, Nat.cast_add,
          eq_neg_iff_add_eq_zero]
      simp only [curveAdd]
      by_cases hc : x₁ = x₂ ∧ (y₁ + y₂) % secpP = 0
      · rw [if_pos hc]
        rw [Point.add_of_Y_eq (congrArg _ hc.1) (hneg.1 hc.2)]
        exact .zero
      · rw [if_neg hc]
        have hxy : ¬ ((x₁ : ZMod fieldPrime) = x₂ ∧ (y₁ : ZMod fieldPrime) = secpCurve.toAffine.negY x₂ y₂) := by
          rintro ⟨e1, e2⟩
          exact hc ⟨(natCast_inj hx₁ hx₂).1 e1, hneg.2 e2⟩
        rw [Point.add_some hxy]
        generalize hl : (if x₁ = x₂ then 3 * x₁ * x₁ * secpInv (2 * y₁ % secpP) % secpP
          else (y₁ + (secpP - y₂)) * secpInv ((x₁ + (secpP - x₂)) % secpP) % secpP) = l
        have el : (l : ZMod fieldPrime) = secpCurve.toAffine.slope x₁ x₂ y₁ y₂ := by
          rw [← hl]
          by_cases hx : x₁ = x₂
          · have hy : (y₁ : ZMod fieldPrime) ≠ secpCurve.toAffine.negY x₂ y₂ :=
              fun e => hxy ⟨congrArg _ hx, e⟩
            rw [if_pos hx, slope_of_Y_ne (congrArg _ hx) hy, cast_mod, Nat.cast_mul, cast_inv, cast_mod]
            have hyy : (y₁ : ZMod fieldPrime) = y₂ :=
              Y_eq_of_Y_ne h₁.1 h₂.1 (congrArg _ hx) hy
            push_cast
            rw [div_eq_mul_inv]
            congr 1
            · ring
            · congr 1
              simp only [negY]
              ring
          · have hx' : (x₁ : ZMod fieldPrime) ≠ x₂ := fun e => hx ((natCast_inj hx₁ hx₂).1 e)
            rw [if_neg hx, slope_of_X_ne hx', cast_mod, Nat.cast_mul, cast_inv, cast_mod, Nat.cast_add,
              Nat.cast_add, cast_minus hy₂.le, cast_minus hx₂.le, div_eq_mul_inv, sub_eq_add_neg,
              sub_eq_add_neg]
        have ex : ((l * l + (secpP - x₁) + (secpP - x₂)) % secpP : Nat) =
            secpCurve.toAffine.addX (x₁ : ZMod fieldPrime) x₂ (secpCurve.toAffine.slope x₁ x₂ y₁ y₂) := by
          rw [cast_mod, Nat.cast_add, Nat.cast_add, cast_minus hx₁.le, cast_minus hx₂.le, ← el, addX]
          push_cast
          ring
        have hxl : (l * l + (secpP - x₁) + (secpP - x₂)) % secpP < secpP := Nat.mod_lt _ hpos
        refine Stands.of_eq hxl (Nat.mod_lt _ hpos) ex ?_ _
        generalize (l * l + (secpP - x₁) + (secpP - x₂)) % secpP = x at *
        rw [cast_mod, Nat.cast_add, cast_minus hy₁.le, Nat.cast_mul, Nat.cast_add, cast_minus hxl.le, addY,
          negAddY, negY, ← ex, ← el]
        simp only [zero_mul, sub_zero]
        ring

/-- Multiples. -/
theorem Stands.mul {a : Option (Nat × Nat)} {P : SecpPoint} (ha : Stands a P) : ∀ fuel k : Nat,
    k < 2 ^ fuel → Stands (curveMul a fuel k) (k • P)
  | 0, k, h => by
    have : k = 0 := by simpa using h
    subst this
    rw [zero_nsmul]
    exact .zero
  | fuel + 1, k, h => by
    have h2 : k / 2 < 2 ^ fuel := by rw [pow_succ] at h; omega
    have ih := Stands.mul ha fuel (k / 2) h2
    have hd := ih.add ih
    rw [← add_nsmul, ← two_mul] at hd
    simp only [curveMul]
    split
    · rename_i ho
      have := hd.add ha
      rw [← succ_nsmul, show 2 * (k / 2) + 1 = k by omega] at this
      exact this
    · rename_i ho
      rwa [show 2 * (k / 2) = k by omega] at hd

theorem stands_zero {P : SecpPoint} (h : Stands none P) : P = 0 := by
  cases h; rfl

theorem small_ne_zero {n : Nat} (h0 : n ≠ 0) (h : n < fieldPrime) : (n : ZMod fieldPrime) ≠ 0 := by
  rw [Ne, ZMod.natCast_eq_zero_iff]
  exact fun hd => absurd (Nat.le_of_dvd (by omega) hd) (by omega)

/-- Every solution of the equation is a nonsingular point. -/
theorem secp_nonsingular {x y : ZMod fieldPrime} (h : y ^ 2 = x ^ 3 + 7) :
    secpCurve.toAffine.Nonsingular x y := by
  have h2 : (2 : ZMod fieldPrime) ≠ 0 := by exact_mod_cast small_ne_zero (n := 2) (by decide) (by decide +kernel)
  have h3 : (3 : ZMod fieldPrime) ≠ 0 := by exact_mod_cast small_ne_zero (n := 3) (by decide) (by decide +kernel)
  have h7 : (7 : ZMod fieldPrime) ≠ 0 := by exact_mod_cast small_ne_zero (n := 7) (by decide) (by decide +kernel)
  rw [nonsingular_iff]
  refine ⟨(equation_iff x y).2 (by simp only [zero_mul, add_zero]; exact h), ?_⟩
  by_contra hc
  push Not at hc
  obtain ⟨hx, hy⟩ := hc
  simp only [zero_mul, sub_zero, mul_zero, add_zero] at hx hy
  have hx0 : x = 0 := by
    have : 3 * x ^ 2 = 0 := hx.symm
    rcases mul_eq_zero.1 this with h | h
    · exact absurd h h3
    · exact pow_eq_zero_iff (by decide) |>.1 h
  have hy0 : y = 0 := by
    have : 2 * y = 0 := by linear_combination hy
    rcases mul_eq_zero.1 this with h | h
    · exact absurd h h2
    · exact h
  rw [hx0, hy0] at h
  apply h7
  linear_combination -h

/-! ### The base point -/

theorem secpGxy_on : ((0x483ada7726a3c4655da4fbfc0e1108a8fd17b448a68554199c47d08ffb10d4b8 : Nat) : ZMod fieldPrime) ^ 2 =
    ((0x79be667ef9dcbbac55a06295ce870b07029bfcdb2dce28d959f2815b16f81798 : Nat) : ZMod fieldPrime) ^ 3 + 7 := by
  rw [← Nat.cast_pow, ← Nat.cast_pow, show (7 : ZMod fieldPrime) = ((7 : Nat) : ZMod fieldPrime) from rfl,
    ← Nat.cast_add, ZMod.natCast_eq_natCast_iff]
  decide +kernel

/-- The base point. -/
def secpBase : SecpPoint :=
  .some ((secpGxy.1 : Nat) : ZMod fieldPrime) ((secpGxy.2 : Nat) : ZMod fieldPrime) (secp_nonsingular secpGxy_on)

theorem secpBase_isBase : IsBase secpBase :=
  ⟨secp_nonsingular secpGxy_on, rfl⟩

theorem isBase_eq {g : SecpPoint} (h : IsBase g) : g = secpBase := by
  obtain ⟨_, rfl⟩ := h
  rfl

theorem stands_base : Stands (some secpGxy) secpBase :=
  Stands.of_eq (by decide +kernel) (by decide +kernel) rfl rfl _

set_option maxRecDepth 100000 in
theorem curveMul_order : curveMul (some secpGxy) 256 groupOrder = none := by decide +kernel

theorem base_order : groupOrder • secpBase = 0 := by
  have := Stands.mul stands_base 256 groupOrder (by decide +kernel)
  rw [curveMul_order] at this
  exact stands_zero this

theorem prime_groupOrder : groupOrder.Prime := secpN_eq ▸ prime_secpN

theorem addOrderOf_base : addOrderOf secpBase = groupOrder := by
  have : Fact groupOrder.Prime := ⟨prime_groupOrder⟩
  exact addOrderOf_eq_prime base_order (by simp [secpBase])

theorem base_smul_eq {a b : Nat} : a • secpBase = b • secpBase ↔ a ≡ b [MOD groupOrder] := by
  rw [← addOrderOf_base]
  exact nsmul_eq_nsmul_iff_modEq

/-! ### Bytes -/

theorem bytes32_eq (v : Nat) : bytes32 v = beBytes 32 v := rfl

theorem bytes32_length (v : Nat) : (bytes32 v).length = 32 := by rw [bytes32_eq, beBytes_length]

theorem be_bytes32 {v : Nat} (h : v < 2 ^ 256) : be (bytes32 v) = v := by
  rw [bytes32_eq, be_beBytes]
  exact Nat.mod_eq_of_lt (by simpa using h)

theorem be_lt_pow (b : Bytes) : be b < 2 ^ (8 * b.length) := by
  rw [Nat.pow_mul]
  exact be_lt b

theorem val_lt (x : ZMod fieldPrime) : x.val < 2 ^ 256 :=
  lt_trans (ZMod.val_lt x) (by decide +kernel)

/-- The multiplication gives the uncompressed form of the multiple. -/
theorem secpMul_cases (k : Bytes) :
    (secpMul k = none ∧ be k • secpBase = 0) ∨
    ∃ x y h, be k • secpBase = .some x y h ∧ secpMul k = some (uncompressed x y) := by
  have hs := Stands.mul stands_base (8 * k.length) (be k) (be_lt_pow k)
  unfold secpMul
  rw [beNat_eq]
  generalize curveMul (some secpGxy) (8 * k.length) (be k) = c at hs
  generalize be k • secpBase = P at hs
  cases hs with
  | zero => exact .inl ⟨rfl, rfl⟩
  | @some x y hx hy h =>
    refine .inr ⟨_, _, h, rfl, ?_⟩
    have e : ∀ v : Nat, v < secpP → ((v : ZMod fieldPrime)).val = v := by
      intro v hv
      rw [ZMod.val_natCast]
      exact Nat.mod_eq_of_lt hv
    simp only [Option.map_some, pointBytes, uncompressed, e x hx, e y hy]
    rfl

theorem compress_append (u v : Bytes) (hu : u.length = 32) (hv : v.length = 32) :
    compress (4 :: (u ++ v)) = (if be v % 2 = 1 then 3 else 2) :: u := by
  have h31 : 31 < v.length := by omega
  have e : v = v.take 31 ++ [v[31]] := by
    conv_lhs => rw [← List.take_append_drop 31 v]
    rw [List.drop_eq_getElem_cons h31, List.drop_of_length_le (by omega)]
  have hb : be v % 2 = v[31].toNat % 2 := by
    have key : ∀ (l : Bytes) (x : UInt8), be (l ++ [x]) % 2 = x.toNat % 2 := by
      intro l x
      induction l with
      | nil => simp [be]
      | cons a l ih =>
        have : (256 : Nat) ^ (l ++ [x]).length = 2 * (128 * 256 ^ l.length) := by
          rw [List.length_append, List.length_singleton, pow_succ]; ring
        simp only [List.cons_append, be]
        rw [this, ← mul_assoc, mul_comm a.toNat 2, mul_assoc]
        omega
    rw [show be v = be (v.take 31 ++ [v[31]]) from congrArg be e, key]
  have hg : (4 :: (u ++ v)).getD 64 0 = v[31] := by
    simp [List.getD, List.getElem?_append, hu, h31]
  have ht : ((4 :: (u ++ v)).drop 1).take 32 = u := by
    simp [hu]
  have hp : (v[31] &&& 1 = 1) ↔ be v % 2 = 1 := by
    rw [hb, ← UInt8.toNat_inj, UInt8.toNat_and]
    simp
  unfold compress
  rw [hg, ht]
  congr 1
  by_cases h : be v % 2 = 1
  · rw [if_pos h, if_pos (hp.2 h)]
  · rw [if_neg h, if_neg (fun h' => h (hp.1 h'))]

theorem compress_uncompressed (x y : ZMod fieldPrime) (h : secpCurve.toAffine.Nonsingular x y) :
    compress (uncompressed x y) = serPoint (.some x y h) := by
  rw [uncompressed, compress_append _ _ (bytes32_length _) (bytes32_length _), be_bytes32 (val_lt y)]
  rfl

/-- The 33 bytes written by the application are those of the multiple. -/
theorem secpMul_ser {k p : Bytes} (h : secpMul k = some p) : compress p = serPoint (be k • secpBase) := by
  rcases secpMul_cases k with ⟨h0, _⟩ | ⟨x, y, hn, e, h1⟩
  · rw [h0] at h; cases h
  · rw [h1] at h
    cases h
    rw [e, compress_uncompressed]

/-- The 33 bytes determine the point. -/
theorem serPoint_inj : Function.Injective serPoint := by
  intro P Q hPQ
  match P, Q, hPQ with
  | .zero, .zero, _ => rfl
  | .zero, .some x y h, e =>
    exfalso
    have := congrArg List.head? e
    simp only [serPoint, List.head?_cons] at this
    split at this <;> exact absurd this (by decide)
  | .some x y h, .zero, e =>
    exfalso
    have := congrArg List.head? e
    simp only [serPoint, List.head?_cons] at this
    split at this <;> exact absurd this (by decide)
  | .some x y h, .some x' y' h', e =>
    simp only [serPoint, List.cons.injEq] at e
    obtain ⟨e1, e2⟩ := e
    have hx : x = x' := by
      apply ZMod.val_injective
      rw [← be_bytes32 (val_lt x), ← be_bytes32 (val_lt x'), e2]
    subst hx
    have hpar : y.val % 2 = y'.val % 2 := by
      by_cases a : y.val % 2 = 1 <;> by_cases b : y'.val % 2 = 1
      · omega
      · rw [if_pos a, if_neg b] at e1; exact absurd e1 (by decide)
      · rw [if_neg a, if_pos b] at e1; exact absurd e1 (by decide)
      · omega
    have hy : y = y' := by
      rcases Y_eq_of_X_eq h.1 h'.1 rfl with hy | hy
      · exact hy
      · simp only [negY, zero_mul, sub_zero] at hy
        by_cases h0 : y' = 0
        · rw [hy, h0, neg_zero]
        · exfalso
          have : NeZero y' := ⟨h0⟩
          rw [hy, ZMod.val_neg_of_ne_zero] at hpar
          have hlt := ZMod.val_lt y'
          have hodd : fieldPrime % 2 = 1 := by decide +kernel
          omega
    subst hy
    rfl

/-! ### Two responses with one nonce -/

instance : Fact groupOrder.Prime := ⟨prime_groupOrder⟩

theorem extract_scalar {c₁ c₂ : Bytes} {z₁ z₂ s : Nat} (h₁ : c₁.length = 24) (h₂ : c₂.length = 24)
    (hc : c₁ ≠ c₂) (h : ((z₁ + be c₂ * s : Nat) : ZMod groupOrder) = ((z₂ + be c₁ * s : Nat) : ZMod groupOrder)) :
    ((be c₁ : ZMod groupOrder) - be c₂) ≠ 0 ∧
    (s : ZMod groupOrder) = ((z₁ : ZMod groupOrder) - z₂) / ((be c₁ : ZMod groupOrder) - be c₂) := by
  have hne : ((be c₁ : ZMod groupOrder) - be c₂) ≠ 0 := by
    rw [sub_ne_zero, Ne, ZMod.natCast_eq_natCast_iff]
    intro hm
    have b1 := be_lt_pow c₁
    have b2 := be_lt_pow c₂
    rw [h₁] at b1
    rw [h₂] at b2
    have hn : 2 ^ (8 * 24) < groupOrder := by decide +kernel
    exact hc (be_inj (h₁.trans h₂.symm) (Nat.ModEq.eq_of_lt_of_lt hm (b1.trans hn) (b2.trans hn)))
  refine ⟨hne, ?_⟩
  rw [eq_div_iff hne]
  push_cast at h
  linear_combination -h

/-- The response of a released signature. -/
theorem finish_response {env : Env} (hb : ∀ b, (env.blake b).length = 32) {t secret k out : Bytes}
    (h : schnorrFinish env t secret k = some out) : out.take 24 = (env.blake t).take 24 ∧
      be (out.drop 24) = (be k + be (out.take 24) * be secret) % groupOrder := by
  unfold schnorrFinish at h
  simp only at h
  split at h
  · cases h
  · simp only [Option.some.injEq] at h
    have hl : ((env.blake t).take 24).length = 24 := by simp [hb]
    have ht : out.take 24 = (env.blake t).take 24 := by
      rw [← h, List.take_left' hl]
    refine ⟨ht, ?_⟩
    rw [ht]
    conv_lhs => rw [← h, List.drop_left' hl]
    rw [be_beBytes, beNat_eq, beNat_eq, beNat_eq, secpN_eq, Nat.add_mod_mod]
    refine Nat.mod_eq_of_lt (lt_of_lt_of_le (Nat.mod_lt _ (by decide +kernel)) (by decide +kernel))

end Ergo
