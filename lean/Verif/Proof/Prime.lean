import Verif.Model.Secp256k1
import Mathlib.NumberTheory.LucasPrimality
import Mathlib.FieldTheory.Finite.Basic
import Mathlib.Tactic.NormNum.Prime
/-!
# Primality certificates

The test of Pocklington, and the two primes of secp256k1.
-/
namespace Ergo

theorem powMod_eq (m a : Nat) : ∀ fuel e : Nat, e < 2 ^ fuel → powMod m a fuel e = a ^ e % m
  | 0, e, h => by
    have : e = 0 := by simpa using h
    subst this; rfl
  | fuel + 1, e, h => by
    have h2 : e / 2 < 2 ^ fuel := by
      rw [pow_succ] at h; omega
    have ih := powMod_eq m a fuel (e / 2) h2
    simp only [powMod, ih]
    have key : a ^ (e / 2) % m * (a ^ (e / 2) % m) % m = a ^ (2 * (e / 2)) % m := by
      rw [← Nat.mul_mod, two_mul, pow_add]
    split
    · rename_i ho
      rw [key, Nat.mod_mul_mod, ← pow_succ]
      congr 2; omega
    · rename_i ho
      rw [key]
      congr 2; omega

/-- The check of one prime factor of `N - 1`. -/
def pockCheck (N a q : Nat) : Bool :=
  powMod N a 256 (N - 1) = 1 && (N - 1) % q = 0 &&
    Nat.gcd (powMod N a 256 ((N - 1) / q) + (N - 1)) N = 1

/-- Every prime divisor of `N` is 1 modulo a checked prime factor of `N - 1`. -/
theorem pock_dvd {N a q r : Nat} (h0 : 0 < N) (hN : N < 2 ^ 256) (hc : pockCheck N a q = true)
    (hq : q.Prime) (hr : r.Prime) (hrN : r ∣ N) : q ∣ r - 1 := by
  simp only [pockCheck, Bool.and_eq_true, decide_eq_true_eq] at hc
  obtain ⟨⟨h1, h2⟩, h3⟩ := hc
  rw [powMod_eq _ _ _ _ (by omega)] at h1
  rw [powMod_eq _ _ _ _ (lt_of_le_of_lt (Nat.div_le_self _ _) (by omega))] at h3
  haveI : Fact r.Prime := ⟨hr⟩
  have hqd : q ∣ N - 1 := Nat.dvd_of_mod_eq_zero h2
  -- reduction modulo r
  have red : ∀ e, ((a ^ e % N : Nat) : ZMod r) = (a : ZMod r) ^ e := by
    intro e
    rw [← Nat.cast_pow, ZMod.natCast_eq_natCast_iff]
    exact (Nat.mod_modEq _ _).of_dvd hrN
  have p1 : (a : ZMod r) ^ (N - 1) = 1 := by rw [← red, h1, Nat.cast_one]
  have p2 : (a : ZMod r) ^ ((N - 1) / q) ≠ 1 := by
    intro he
    have : r ∣ a ^ ((N - 1) / q) % N + (N - 1) := by
      rw [← ZMod.natCast_eq_zero_iff, Nat.cast_add, red, he]
      have hz : ((N : Nat) : ZMod r) = 0 := (ZMod.natCast_eq_zero_iff _ _).2 hrN
      have e2 : (1 : ZMod r) + ((N - 1 : Nat) : ZMod r) = ((1 + (N - 1) : Nat) : ZMod r) := by
        push_cast; rfl
      rw [e2, show 1 + (N - 1) = N by omega, hz]
    have := Nat.dvd_gcd this hrN
    rw [h3] at this
    exact hr.one_lt.ne' (Nat.dvd_one.1 this)
  have o1 : orderOf (a : ZMod r) ∣ N - 1 := orderOf_dvd_of_pow_eq_one p1
  have o2 : ¬ orderOf (a : ZMod r) ∣ (N - 1) / q := fun h => p2 (orderOf_dvd_iff_pow_eq_one.1 h)
  have hqo : q ∣ orderOf (a : ZMod r) := by
    by_contra hn
    apply o2
    have hco : (orderOf (a : ZMod r)).Coprime q := ((Nat.Prime.coprime_iff_not_dvd hq).2 hn).symm
    have : orderOf (a : ZMod r) ∣ (N - 1) / q * q := by rwa [Nat.div_mul_cancel hqd]
    exact hco.dvd_of_dvd_mul_right this
  have ha0 : (a : ZMod r) ≠ 0 := by
    intro h0
    rw [h0] at p1
    rcases Nat.eq_zero_or_pos (N - 1) with hz | hp
    · rw [hz, Nat.zero_div] at o2
      exact o2 (dvd_zero _)
    · rw [zero_pow (by omega)] at p1
      exact zero_ne_one p1
  exact hqo.trans (ZMod.orderOf_dvd_card_sub_one ha0)

/-- A number with square root at most `F` all of whose prime divisors exceed `F` is prime. -/
theorem prime_of_large {N F : Nat} (h1 : 1 < N) (hF : N < (F + 1) * (F + 1))
    (h : ∀ r, r.Prime → r ∣ N → F < r) : N.Prime := by
  rw [Nat.prime_def_le_sqrt]
  refine ⟨h1, fun m hm hs hd => ?_⟩
  have hmp := Nat.minFac_prime (n := m) (by omega)
  have hlt := h m.minFac hmp ((Nat.minFac_dvd m).trans hd)
  have hle := Nat.minFac_le (n := m) (by omega)
  have : N.sqrt < F + 1 := Nat.sqrt_lt.2 hF
  omega

/-- One prime factor suffices if it is large. -/
theorem pocklington {N a q : Nat} (h1 : 1 < N) (hN : N < 2 ^ 256) (hq : q.Prime)
    (hc : pockCheck N a q = true) (hF : N < (q + 1) * (q + 1)) : N.Prime := by
  refine prime_of_large h1 hF fun r hr hd => ?_
  have hq1 := pock_dvd (by omega) hN hc hq hr hd
  have := Nat.le_of_dvd (by have := hr.two_le; omega) hq1
  have := hr.two_le
  omega

/-- Two prime factors. -/
theorem pocklington₂ {N a b q s : Nat} (h1 : 1 < N) (hN : N < 2 ^ 256) (hq : q.Prime) (hs : s.Prime)
    (hqs : q ≠ s) (hc : pockCheck N a q = true) (hd : pockCheck N b s = true)
    (hF : N < (q * s + 1) * (q * s + 1)) : N.Prime := by
  refine prime_of_large h1 hF fun r hr hdv => ?_
  have hq1 := pock_dvd (by omega) hN hc hq hr hdv
  have hs1 := pock_dvd (by omega) hN hd hs hr hdv
  have := Nat.Coprime.mul_dvd_of_dvd_of_dvd ((Nat.coprime_primes hq hs).2 hqs) hq1 hs1
  have := Nat.le_of_dvd (by have := hr.two_le; omega) this
  have := hr.two_le
  omega

/-- Three prime factors. -/
theorem pocklington₃ {N a b c q s t : Nat} (h1 : 1 < N) (hN : N < 2 ^ 256) (hq : q.Prime) (hs : s.Prime)
    (ht : t.Prime) (hqs : q ≠ s) (hqt : q ≠ t) (hst : s ≠ t) (hc : pockCheck N a q = true)
    (hd : pockCheck N b s = true) (he : pockCheck N c t = true)
    (hF : N < (q * s * t + 1) * (q * s * t + 1)) : N.Prime := by
  refine prime_of_large h1 hF fun r hr hdv => ?_
  have hq1 := pock_dvd (by omega) hN hc hq hr hdv
  have hs1 := pock_dvd (by omega) hN hd hs hr hdv
  have ht1 := pock_dvd (by omega) hN he ht hr hdv
  have := Nat.Coprime.mul_dvd_of_dvd_of_dvd ((Nat.coprime_primes hq hs).2 hqs) hq1 hs1
  have := Nat.Coprime.mul_dvd_of_dvd_of_dvd (Nat.Coprime.mul_left ((Nat.coprime_primes hq ht).2 hqt)
    ((Nat.coprime_primes hs ht).2 hst)) this ht1
  have := Nat.le_of_dvd (by have := hr.two_le; omega) this
  have := hr.two_le
  omega

/-! ### The group order -/

theorem prime_n1 : Nat.Prime 297159362677 :=
  pocklington (a := 2) (q := 1627771) (by norm_num) (by norm_num) (by norm_num) (by decide +kernel)
    (by norm_num)

theorem prime_n2 : Nat.Prime 545358713 :=
  pocklington (a := 2) (q := 28181) (by norm_num) (by norm_num) (by norm_num) (by decide +kernel)
    (by norm_num)

theorem prime_n3 : Nat.Prime 29047611873442575647497758179 :=
  pocklington₂ (a := 2) (b := 2) (q := 297159362677) (s := 545358713) (by norm_num) (by norm_num)
    prime_n1 prime_n2 (by norm_num) (by decide +kernel) (by decide +kernel) (by norm_num)

theorem prime_n4 : Nat.Prime 341948486974166000522343609283189 :=
  pocklington (a := 2) (q := 29047611873442575647497758179) (by norm_num) (by norm_num) prime_n3
    (by decide +kernel) (by norm_num)

theorem prime_n5 : Nat.Prime 44706919 :=
  pocklington (a := 2) (q := 9349) (by norm_num) (by norm_num) (by norm_num) (by decide +kernel)
    (by norm_num)

theorem prime_n6 : Nat.Prime 174723607534414371449 :=
  pocklington₂ (a := 2) (b := 2) (q := 44706919) (s := 120233) (by norm_num) (by norm_num) prime_n5
    (by norm_num) (by norm_num) (by decide +kernel) (by decide +kernel) (by norm_num)

/-- The group order is prime. -/
theorem prime_secpN : Nat.Prime secpN :=
  pocklington₂ (a := 7) (b := 7) (q := 341948486974166000522343609283189) (s := 174723607534414371449)
    (by decide +kernel) (by decide +kernel) prime_n4 prime_n6 (by norm_num) (by decide +kernel)
    (by decide +kernel) (by decide +kernel)

/-! ### The prime of the coordinates -/

theorem prime_p1 : Nat.Prime 255515944373312847190720520512484175977 :=
  pocklington₃ (a := 3) (b := 3) (c := 3) (q := 107590001) (s := 7240687) (t := 96557) (by norm_num)
    (by norm_num) (by norm_num) (by norm_num) (by norm_num) (by norm_num) (by norm_num) (by norm_num)
    (by decide +kernel) (by decide +kernel) (by decide +kernel) (by norm_num)

theorem prime_p2 :
    Nat.Prime 205115282021455665897114700593932402728804164701536103180137503955397371 :=
  pocklington (a := 2) (q := 255515944373312847190720520512484175977) (by norm_num) (by norm_num)
    prime_p1 (by decide +kernel) (by norm_num)

/-- The prime of the coordinates is prime. -/
theorem prime_secpP : Nat.Prime secpP :=
  pocklington (a := 2)
    (q := 205115282021455665897114700593932402728804164701536103180137503955397371)
    (by decide +kernel) (by decide +kernel) prime_p2 (by decide +kernel) (by decide +kernel)

end Ergo
