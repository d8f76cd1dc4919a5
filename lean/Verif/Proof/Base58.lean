import Verif.Model.Base58
import Verif.Spec.Base58
import Mathlib.Data.Nat.Digits.Lemmas
import Mathlib.Tactic.Ring
import Mathlib.Tactic.NormNum
/-!
Helper lemmas about the base58 encoder.
-/
namespace Ergo
open Spec

/-- Invariant of the inner loop. `k` digits remain, `s` is `stop_at`. -/
theorem b58Inner_spec (s : Nat) : ∀ (ds : List Nat) (j carry : Nat), 1 ≤ s →
    j + 1 = ds.length ∨ ds = [] →
    (∀ x ∈ ds.drop (ds.length - s), x = 0) → (∀ x ∈ ds, x < 58) →
    carry + 256 * Nat.ofDigits 58 ds < 58 ^ ds.length → (ds.length < s → carry ≠ 0) →
    ∃ ds' s', b58Inner s j ds carry = (ds', ((s' : Nat) : Int)) ∧ ds'.length = ds.length ∧
      Nat.ofDigits 58 ds' = carry + 256 * Nat.ofDigits 58 ds ∧ (∀ x ∈ ds', x < 58) ∧
      s' < s ∧ (∀ x ∈ ds'.drop (ds.length - s'), x = 0) ∧ s' < ds.length ∧
      (s' + 1 = s ∨ 58 ^ (ds.length - 1 - s') ≤ Nat.ofDigits 58 ds')
  | [], j, carry, hs, _, _, _, hv, hc => by
    simp at hv hc
    exact absurd hv (hc (by omega))
  | d :: ds, j, carry, hs, hj, hz, hd, hv, hc => by
    have hj' : j = ds.length := by
      rcases hj with h | h
      · simpa using h
      · simp at h
    subst hj'
    simp only [b58Inner]
    have hod : Nat.ofDigits 58 (d :: ds) = d + 58 * Nat.ofDigits 58 ds := by
      rw [Nat.ofDigits_cons]
    have htest : b58StopTest ds.length (s : Int) = decide (ds.length + 1 ≤ s) := by
      unfold b58StopTest
      rw [Bool.eq_iff_iff]
      simp
      omega
    rw [htest]
    by_cases hbr : ds.length + 1 ≤ s ∧ (carry + 256 * d) / 58 = 0
    · have hcond : (decide (ds.length + 1 ≤ s) && (carry + 256 * d) / 58 == 0) = true := by
        simp [hbr.1, hbr.2]
      rw [if_pos hcond]
      have hall : ∀ x ∈ d :: ds, x = 0 := by
        have e : (d :: ds).length - s = 0 := by simp only [List.length_cons]; omega
        rw [e] at hz; simpa using hz
      have hd0 : d = 0 := hall d (by simp)
      have hds0 : Nat.ofDigits 58 ds = 0 := by
        have : ds = List.replicate ds.length 0 := List.eq_replicate_iff.2
          ⟨rfl, fun x hx => hall x (List.mem_cons_of_mem _ hx)⟩
        rw [this, Nat.ofDigits_replicate_zero]
      have hlt : carry + 256 * d < 58 := by
        have := hbr.2
        omega
      refine ⟨_, ds.length, rfl, by simp, ?_, ?_, by omega, ?_, by simp, ?_⟩
      · rw [Nat.ofDigits_cons, hod, hds0, Nat.mod_eq_of_lt hlt]; push_cast; ring
      · intro x hx
        rcases List.mem_cons.1 hx with rfl | hx
        · exact Nat.mod_lt _ (by omega)
        · exact hd x (List.mem_cons_of_mem _ hx)
      · intro x hx
        have e : (d :: ds).length - ds.length = 1 := by simp
        rw [e, List.drop_succ_cons, List.drop_zero] at hx
        exact hall x (List.mem_cons_of_mem _ hx)
      · by_cases he : ds.length + 1 = s
        · left; exact he
        · right
          have hc' := hc (by simp only [List.length_cons]; omega)
          have e : (d :: ds).length - 1 - ds.length = 0 := by simp
          rw [e, Nat.ofDigits_cons, hds0, Nat.mod_eq_of_lt hlt, hd0]
          simp; omega
    · have hcond : ¬ (decide (ds.length + 1 ≤ s) && (carry + 256 * d) / 58 == 0) = true := by
        simpa using fun h1 h2 => hbr ⟨h1, h2⟩
      rw [if_neg hcond]
      rw [hod] at hv
      simp only [List.length_cons] at hv hc
      have hv' : (carry + 256 * d) / 58 + 256 * Nat.ofDigits 58 ds < 58 ^ ds.length := by
        rw [pow_succ] at hv
        have : (carry + 256 * d) / 58 + 256 * Nat.ofDigits 58 ds =
            (carry + 256 * d + 58 * (256 * Nat.ofDigits 58 ds)) / 58 := by
          rw [Nat.add_mul_div_left _ _ (by omega)]
        rw [this, Nat.div_lt_iff_lt_mul (by omega)]
        calc _ = carry + 256 * (d + 58 * Nat.ofDigits 58 ds) := by ring
          _ < _ := hv
      have hz' : ∀ x ∈ ds.drop (ds.length - s), x = 0 := by
        intro x hx
        by_cases hle : ds.length + 1 ≤ s
        · have e : (d :: ds).length - s = 0 := by simp only [List.length_cons]; omega
          rw [e] at hz
          exact hz x (by simpa using Or.inr (List.mem_of_mem_drop hx))
        · have e : (d :: ds).length - s = (ds.length - s) + 1 := by
            simp only [List.length_cons]; omega
          rw [e, List.drop_succ_cons] at hz
          exact hz x hx
      have hc' : ds.length < s → (carry + 256 * d) / 58 ≠ 0 := by
        intro h1 h2; exact hbr ⟨h1, h2⟩
      have hj2 : ds.length - 1 + 1 = ds.length ∨ ds = [] := by
        cases ds <;> simp
      obtain ⟨ds', s', e1, e2, e3, e4, e5, e6, e7, e8⟩ := b58Inner_spec s ds (ds.length - 1) _ hs hj2
        hz' (fun x hx => hd x (List.mem_cons_of_mem _ hx)) hv' hc'
      rw [e1]
      have hmul : Nat.ofDigits 58 ((carry + 256 * d) % 58 :: ds') =
          carry + 256 * Nat.ofDigits 58 (d :: ds) := by
        rw [Nat.ofDigits_cons, hod, e3]
        have := Nat.div_add_mod (carry + 256 * d) 58
        omega
      refine ⟨_, s', rfl, by simp [e2], hmul, ?_, e5, ?_, by simp only [List.length_cons]; omega, ?_⟩
      · intro x hx
        rcases List.mem_cons.1 hx with rfl | hx
        · exact Nat.mod_lt _ (by omega)
        · exact e4 x hx
      · intro x hx
        have e : (d :: ds).length - s' = (ds.length - s') + 1 := by
          simp only [List.length_cons]; omega
        rw [e, List.drop_succ_cons] at hx
        exact e6 x hx
      · rcases e8 with h | h
        · left; exact h
        · right
          have e : (d :: ds).length - 1 - s' = (ds.length - 1 - s') + 1 := by
            simp only [List.length_cons]; omega
          rw [e, pow_succ, Nat.ofDigits_cons]
          push_cast
          have := Nat.mul_le_mul_right 58 h
          omega

/-- `256^100 ≤ 58^138`. -/
theorem pow_256_58 : (256 : Nat) ^ 100 ≤ 58 ^ 138 := by norm_num

theorem pow58_of_lt {p k : Nat} (h : 58 ^ p < 256 ^ k) : p ≤ 138 * k / 100 := by
  have h1 : (58 : Nat) ^ (100 * p) < 58 ^ (138 * k) := by
    calc (58 : Nat) ^ (100 * p) = (58 ^ p) ^ 100 := by rw [← pow_mul, Nat.mul_comm]
      _ < (256 ^ k) ^ 100 := Nat.pow_lt_pow_left h (by omega)
      _ = (256 ^ 100) ^ k := by rw [← pow_mul, ← pow_mul, Nat.mul_comm]
      _ ≤ (58 ^ 138) ^ k := Nat.pow_le_pow_left pow_256_58 k
      _ = 58 ^ (138 * k) := by rw [← pow_mul]
  have h2 := (Nat.pow_lt_pow_iff_right (by omega : 1 < 58)).1 h1
  omega

theorem pow256_lt (k : Nat) : 256 ^ k ≤ 58 ^ (138 * k / 100 + 1) := by
  by_contra h
  have := pow58_of_lt (Nat.lt_of_not_le h)
  omega

/-- Invariant of the outer loop. -/
theorem b58Outer_spec (n : Nat) : ∀ (bs : Bytes) (k : Nat) (buf : List Nat) (s v : Nat),
    k + bs.length = n → buf.length = 138 * n / 100 + 1 → (∀ x ∈ buf, x < 58) →
    Nat.ofDigits 58 buf = v → v < 256 ^ k →
    (∀ x ∈ buf.drop (buf.length - s), x = 0) → s ≤ 138 * n / 100 →
    138 * n / 100 ≤ s + 138 * k / 100 →
    ∃ buf', b58Outer (138 * n / 100 + 1) bs buf s = buf' ∧ (∀ x ∈ buf', x < 58) ∧
      Nat.ofDigits 58 buf' = v * 256 ^ bs.length + value256 bs
  | [], k, buf, s, v, _, _, hd, hv, _, _, _, _ => by
    exact ⟨buf, rfl, hd, by simp [hv, value256]⟩
  | b :: bs, k, buf, s, v, hn, hl, hd, hv, hk, hz, hs, hsk => by
    simp only [List.length_cons] at hn
    simp only [b58Outer]
    have hb := b.toNat_lt
    have hb256 : b.toNat < 256 := by simpa using hb
    have hpos : 1 ≤ s := by omega
    have hv1 : b.toNat + 256 * v < 256 ^ (k + 1) := by
      rw [pow_succ]
      have : v + 1 ≤ 256 ^ k := hk
      have := Nat.mul_le_mul_right 256 this
      omega
    have hle : 256 ^ (k + 1) ≤ 58 ^ buf.length := by
      rw [hl]
      calc 256 ^ (k + 1) ≤ 58 ^ (138 * (k + 1) / 100 + 1) := pow256_lt (k + 1)
        _ ≤ _ := Nat.pow_le_pow_right (by omega) (by
          have : 138 * (k + 1) / 100 ≤ 138 * n / 100 := Nat.div_le_div_right (by omega)
          omega)
    obtain ⟨ds', s', e1, e2, e3, e4, e5, e6, e7, e8⟩ := b58Inner_spec s buf
      (138 * n / 100 + 1 - 1) b.toNat hpos (Or.inl (by omega)) hz hd (by rw [hv]; omega)
      (by intro h; omega)
    rw [e1]
    simp only
    rw [hv] at e3
    have hs' : 138 * n / 100 ≤ s' + 138 * (k + 1) / 100 := by
      rcases e8 with h | h
      · omega
      · have := pow58_of_lt (lt_of_le_of_lt h (e3 ▸ hv1))
        omega
    obtain ⟨buf', f1, f2, f3⟩ := b58Outer_spec n bs (k + 1) ds' s' (b.toNat + 256 * v) (by omega)
      (by rw [e2, hl]) e4 e3 hv1 (by rw [e2]; exact e6) (by omega) hs'
    refine ⟨buf', f1, f2, ?_⟩
    rw [f3]
    simp only [value256, List.length_cons, pow_succ]
    ring

theorem dropWhile_digits (buf : List Nat) (hd : ∀ x ∈ buf, x < 58) :
    buf.reverse.dropWhile (· == 0) = (Nat.digits 58 (Nat.ofDigits 58 buf)).reverse := by
  induction buf using List.reverseRecOn with
  | nil => simp
  | append_singleton l d ih =>
    by_cases h0 : d = 0
    · subst h0
      rw [List.reverse_append]
      simp only [List.reverse_singleton, List.singleton_append, List.dropWhile_cons, beq_self_eq_true,
        if_true]
      rw [ih (fun x hx => hd x (by simp [hx])), Nat.ofDigits_append]
      simp
    · rw [List.reverse_append]
      have hne : (d == 0) = false := by simpa using h0
      simp only [List.reverse_singleton, List.singleton_append, List.dropWhile_cons, hne,
        Bool.false_eq_true, if_false]
      rw [Nat.digits_ofDigits 58 (by omega) (l ++ [d]) hd (by intro h; simpa using h0)]
      simp

theorem takeWhile_zeros : ∀ b : Bytes, (b.takeWhile (· == 0)).length = leadingZeros b
  | [] => rfl
  | b :: bs => by
    by_cases h : b = 0
    · simp [leadingZeros, h, takeWhile_zeros bs]
    · simp [leadingZeros, h]

theorem leadingZeros_le : ∀ b : Bytes, leadingZeros b ≤ b.length
  | [] => Nat.le_refl _
  | b :: bs => by
    have := leadingZeros_le bs
    simp only [leadingZeros, List.length_cons]
    split <;> omega

theorem value_drop : ∀ b : Bytes, value256 (b.drop (leadingZeros b)) = value256 b
  | [] => rfl
  | b :: bs => by
    by_cases h : b = 0
    · simp only [leadingZeros, h, if_true, List.drop_succ_cons, value_drop bs]
      simp [value256]
    · simp [leadingZeros, h]

theorem alphabet_eq : base58Alphabet = alphabet58.toList := by decide +kernel

/-- The encoder computes the specified text, unless it is too long. -/
theorem base58Encode_eq (b : Bytes) (n : Nat) :
    base58Encode b n =
      if b.length ≤ 120 ∧ (base58 b).length ≤ n then some (base58 b) else none := by
  unfold base58Encode
  rw [takeWhile_zeros]
  by_cases hlen : b.length > maxEncInput
  · rw [if_pos hlen, if_neg (by unfold maxEncInput at hlen; omega)]
  · rw [if_neg hlen]
    simp only
    have hl : (b.length - leadingZeros b) * 138 / 100 = 138 * (b.drop (leadingZeros b)).length / 100 := by
      rw [List.length_drop, Nat.mul_comm]
    rw [hl]
    obtain ⟨buf, h1, h2, h3⟩ := b58Outer_spec (b.drop (leadingZeros b)).length
      (b.drop (leadingZeros b)) 0
      (List.replicate (138 * (b.drop (leadingZeros b)).length / 100 + 1) 0)
      (138 * (b.drop (leadingZeros b)).length / 100) 0 (by simp) (by simp)
      (by intro x hx; rw [(List.mem_replicate.1 hx).2]; omega) (by rw [Nat.ofDigits_replicate_zero])
      (by simp) (by intro x hx; exact (List.mem_replicate.1 (List.mem_of_mem_drop hx)).2)
      (Nat.le_refl _) (by omega)
    have e : (((138 * (b.drop (leadingZeros b)).length / 100 + 1 : Nat) : Int) - 1) =
        ((138 * (b.drop (leadingZeros b)).length / 100 : Nat) : Int) := by omega
    rw [e, h1, dropWhile_digits buf h2, h3, Nat.zero_mul, Nat.zero_add, value_drop, alphabet_eq]
    have hlen2 : (base58 b).length = leadingZeros b + (Nat.digits 58 (value256 b)).reverse.length := by
      simp [base58]
    rw [← hlen2]
    unfold maxEncInput at hlen
    by_cases h : (base58 b).length ≤ n
    · rw [if_neg (by omega), if_pos ⟨by omega, h⟩]; rfl
    · rw [if_pos (by omega), if_neg (by tauto)]

/-! ## Injectivity -/

theorem value256_lt : ∀ b : Bytes, value256 b < 256 ^ b.length
  | [] => by simp [value256]
  | b :: bs => by
    have h1 := value256_lt bs
    have h2 := b.toNat_lt
    have h3 : b.toNat + 1 ≤ 256 := by simpa using h2
    have := Nat.mul_le_mul_right (256 ^ bs.length) h3
    simp only [value256, List.length_cons, pow_succ]
    rw [Nat.add_mul] at this
    omega

theorem value256_inj_len : ∀ {a b : Bytes}, a.length = b.length → value256 a = value256 b → a = b
  | [], [], _, _ => rfl
  | [], _ :: _, h, _ => by simp at h
  | _ :: _, [], h, _ => by simp at h
  | x :: a, y :: b, hl, hv => by
    simp only [List.length_cons, Nat.add_right_cancel_iff] at hl
    simp only [value256, hl] at hv
    have h1 := value256_lt a
    have h2 := value256_lt b
    rw [hl] at h1
    have hp : 0 < 256 ^ b.length := by positivity
    have e1 : (x.toNat * 256 ^ b.length + value256 a) / 256 ^ b.length = x.toNat := by
      rw [Nat.add_comm, Nat.add_mul_div_right _ _ hp, Nat.div_eq_of_lt h1, Nat.zero_add]
    have e2 : (y.toNat * 256 ^ b.length + value256 b) / 256 ^ b.length = y.toNat := by
      rw [Nat.add_comm, Nat.add_mul_div_right _ _ hp, Nat.div_eq_of_lt h2, Nat.zero_add]
    rw [hv, e2] at e1
    have hxy : x = y := UInt8.toNat_inj.1 e1.symm
    subst hxy
    rw [value256_inj_len hl (by omega)]

theorem value256_ge (b : UInt8) (bs : Bytes) (h : b ≠ 0) : 256 ^ bs.length ≤ value256 (b :: bs) := by
  have : 1 ≤ b.toNat := by
    rcases Nat.eq_zero_or_pos b.toNat with h0 | h0
    · exact absurd (UInt8.toNat_inj.1 (by simpa using h0)) h
    · exact h0
  simp only [value256]
  have := Nat.mul_le_mul_right (256 ^ bs.length) this
  omega

/-- Byte strings without leading zeros are determined by their value. -/
theorem value256_inj_nz : ∀ {a b : Bytes}, leadingZeros a = 0 → leadingZeros b = 0 →
    value256 a = value256 b → a = b := by
  intro a b ha hb hv
  apply value256_inj_len _ hv
  by_contra hne
  have key : ∀ {a b : Bytes}, leadingZeros b = 0 → value256 a = value256 b →
      ¬ a.length < b.length := by
    intro a b hb hv hlt
    cases b with
    | nil => simp at hlt
    | cons y b =>
      have hy : y ≠ 0 := by intro h; simp [leadingZeros, h] at hb
      have h1 := value256_ge y b hy
      have h2 := value256_lt a
      have : (256 : Nat) ^ a.length ≤ 256 ^ b.length :=
        Nat.pow_le_pow_right (by omega) (by simp only [List.length_cons] at hlt; omega)
      omega
  rcases Nat.lt_or_gt_of_ne hne with h | h
  · exact key hb hv h
  · exact key ha hv.symm h

theorem leadingZeros_drop : ∀ b : Bytes, leadingZeros (b.drop (leadingZeros b)) = 0
  | [] => rfl
  | b :: bs => by
    by_cases h : b = 0
    · simp only [leadingZeros, h, if_true, List.drop_succ_cons]; exact leadingZeros_drop bs
    · simp [leadingZeros, h]

theorem zeros_split : ∀ b : Bytes,
    b = List.replicate (leadingZeros b) 0 ++ b.drop (leadingZeros b)
  | [] => rfl
  | b :: bs => by
    by_cases h : b = 0
    · simp only [leadingZeros, h, if_true, List.drop_succ_cons, List.replicate_succ,
        List.cons_append]
      rw [← zeros_split bs]
    · simp [leadingZeros, h]

theorem alphabet_inj : ∀ i < 58, ∀ j < 58,
    alphabet58.toList.getD i '?' = alphabet58.toList.getD j '?' → i = j := by decide +kernel

theorem alphabet_one : ∀ i < 58, alphabet58.toList.getD i '?' = '1' → i = 0 := by decide +kernel

theorem ones_split : ∀ {m n : Nat} {x y : List Char}, (∀ r, x ≠ '1' :: r) → (∀ r, y ≠ '1' :: r) →
    List.replicate m '1' ++ x = List.replicate n '1' ++ y → m = n ∧ x = y
  | 0, 0, x, y, _, _, h => ⟨rfl, by simpa using h⟩
  | 0, n + 1, x, y, hx, _, h => by
    simp only [List.replicate_zero, List.nil_append, List.replicate_succ, List.cons_append] at h
    exact absurd h (hx _)
  | m + 1, 0, x, y, _, hy, h => by
    simp only [List.replicate_zero, List.nil_append, List.replicate_succ, List.cons_append] at h
    exact absurd h.symm (hy _)
  | m + 1, n + 1, x, y, hx, hy, h => by
    simp only [List.replicate_succ, List.cons_append, List.cons.injEq, true_and] at h
    have := ones_split hx hy h
    exact ⟨by omega, this.2⟩

theorem digits_text_head (v : Nat) : ∀ r, (Nat.digits 58 v).reverse.map
    (fun d => alphabet58.toList.getD d '?') ≠ '1' :: r := by
  intro r h
  cases hd : (Nat.digits 58 v).reverse with
  | nil => rw [hd] at h; simp at h
  | cons d ds =>
    rw [hd] at h
    simp only [List.map_cons, List.cons.injEq] at h
    have hlast : (Nat.digits 58 v).getLast? = some d := by
      rw [← List.head?_reverse, hd]; rfl
    have hmem : d ∈ Nat.digits 58 v := List.mem_of_getLast? hlast
    have hlt := Nat.digits_lt_base (by omega) hmem
    have h0 := alphabet_one d hlt h.1
    have hv : v ≠ 0 := by rintro rfl; simp at hmem
    have := Nat.getLast_digit_ne_zero 58 hv
    rw [List.getLast?_eq_getLast_of_ne_nil (Nat.digits_ne_nil_iff_ne_zero.2 hv)] at hlast
    rw [Option.some.inj hlast] at this
    exact this h0

theorem map_inj_on {f : Nat → Char} : ∀ {a b : List Nat}, (∀ x ∈ a, x < 58) → (∀ x ∈ b, x < 58) →
    (∀ i < 58, ∀ j < 58, f i = f j → i = j) → a.map f = b.map f → a = b
  | [], [], _, _, _, _ => rfl
  | [], _ :: _, _, _, _, h => by simp at h
  | _ :: _, [], _, _, _, h => by simp at h
  | x :: a, y :: b, ha, hb, hf, h => by
    simp only [List.map_cons, List.cons.injEq] at h
    rw [hf x (ha x (by simp)) y (hb y (by simp)) h.1,
      map_inj_on (fun z hz => ha z (List.mem_cons_of_mem _ hz))
        (fun z hz => hb z (List.mem_cons_of_mem _ hz)) hf h.2]

theorem base58_inj {a b : Bytes} (h : base58 a = base58 b) : a = b := by
  unfold base58 at h
  obtain ⟨h1, h2⟩ := ones_split (digits_text_head _) (digits_text_head _) h
  have h3 := map_inj_on (fun x hx => Nat.digits_lt_base (by omega) (List.mem_reverse.1 hx))
    (fun x hx => Nat.digits_lt_base (by omega) (List.mem_reverse.1 hx)) alphabet_inj h2
  have h4 : value256 a = value256 b := Nat.digits_inj_iff.1 (List.reverse_injective h3)
  have h5 : a.drop (leadingZeros a) = b.drop (leadingZeros b) :=
    value256_inj_nz (leadingZeros_drop a) (leadingZeros_drop b)
      (by rw [value_drop, value_drop, h4])
  rw [zeros_split a, zeros_split b, h5, h1]

theorem base58_length_le (b : Bytes) : (base58 b).length ≤ 138 * b.length / 100 + 1 := by
  have h1 : (base58 b).length = leadingZeros b + (Nat.digits 58 (value256 b)).length := by
    simp [base58]
  have h2 : (Nat.digits 58 (value256 b)).length ≤ 138 * (b.length - leadingZeros b) / 100 + 1 := by
    rw [Nat.digits_length_le_iff (by omega)]
    have := value256_lt (b.drop (leadingZeros b))
    rw [value_drop, List.length_drop] at this
    exact lt_of_lt_of_le this (pow256_lt _)
  have := leadingZeros_le b
  omega

end Ergo
