import Verif.Spec.Blake2b
import Verif.Model.Blake2b
import Mathlib.Tactic.Ring
import Mathlib.Tactic.NormNum
import Mathlib.Algebra.BigOperators.Ring.List
/-!
# Incremental hashing
-/
namespace Ergo
open Spec Blake2b

/-- A longer bound on the number of turns changes nothing. -/
theorem blocks_fuel : ∀ (n m : Nat) (s : St) (d : Bytes), d.length ≤ 128 * (n + 1) →
    d.length ≤ 128 * (m + 1) → St.blocks n s d = St.blocks m s d
  | 0, 0, _, _, _, _ => rfl
  | 0, m + 1, s, d, h, _ => by
    have : ¬ 128 < d.length := by omega
    simp [St.blocks, this]
  | n + 1, 0, s, d, _, h => by
    have : ¬ 128 < d.length := by omega
    simp [St.blocks, this]
  | n + 1, m + 1, s, d, h, h' => by
    unfold St.blocks
    split
    · exact blocks_fuel n m _ _ (by simp; omega) (by simp; omega)
    · rfl

/-- The rest is at most a block, and not empty unless there was nothing. -/
theorem blocks_rest : ∀ (n : Nat) (s : St) (d : Bytes), d.length ≤ 128 * (n + 1) →
    (St.blocks n s d).2.length ≤ 128 ∧ ((St.blocks n s d).2 = [] → d = []) ∧
      (St.blocks n s d).2.length ≤ d.length
  | 0, s, d, h => ⟨by simpa [St.blocks] using h, fun h => h, Nat.le_refl _⟩
  | n + 1, s, d, h => by
    unfold St.blocks
    split
    · rename_i hl
      obtain ⟨h1, h2, h3⟩ := blocks_rest n ((s.count 128).compress (d.take 128)) (d.drop 128) (by simp; omega)
      refine ⟨h1, fun he => ?_, by simp at h3; omega⟩
      have := congrArg List.length (h2 he)
      simp at this; omega
    · exact ⟨by simp; omega, fun h => h, Nat.le_refl _⟩

/-- The loop leaves the buffer and the length of the result alone. -/
theorem blocks_keeps : ∀ (n : Nat) (s : St) (d : Bytes),
    (St.blocks n s d).1.buf = s.buf ∧ (St.blocks n s d).1.outlen = s.outlen ∧
    (St.blocks n s d).1.f0 = s.f0 ∧ (St.blocks n s d).1.f1 = s.f1
  | 0, s, d => ⟨rfl, rfl, rfl, rfl⟩
  | n + 1, s, d => by
    unfold St.blocks
    split
    · obtain ⟨h1, h2, h3, h4⟩ := blocks_keeps n ((s.count 128).compress (d.take 128)) (d.drop 128)
      exact ⟨h1, h2, h3, h4⟩
    · exact ⟨rfl, rfl, rfl, rfl⟩

/-- First a part of the data, then its rest with more. -/
theorem blocks_append : ∀ (n : Nat) (s : St) (a b : Bytes), (a ++ b).length ≤ 128 * (n + 1) →
    St.blocks n s (a ++ b) = St.blocks n (St.blocks n s a).1 ((St.blocks n s a).2 ++ b)
  | 0, s, a, b, h => rfl
  | n + 1, s, a, b, h => by
    by_cases ha : 128 < a.length
    · have hab : 128 < (a ++ b).length := by simp; omega
      have e1 : (a ++ b).take 128 = a.take 128 := by
        rw [List.take_append_of_le_length (by omega)]
      have e2 : (a ++ b).drop 128 = a.drop 128 ++ b := by
        rw [List.drop_append_of_le_length (by omega)]
      have hn : (a.drop 128 ++ b).length ≤ 128 * (n + 1) := by simp at h ⊢; omega
      have ih := blocks_append n ((s.count 128).compress (a.take 128)) (a.drop 128) b hn
      rw [show St.blocks (n + 1) s (a ++ b) =
          St.blocks n ((s.count 128).compress (a.take 128)) (a.drop 128 ++ b) by
        rw [St.blocks, if_pos hab, e1, e2]]
      rw [show St.blocks (n + 1) s a = St.blocks n ((s.count 128).compress (a.take 128)) (a.drop 128) by
        rw [St.blocks, if_pos ha]]
      rw [ih]
      have hr := (blocks_rest n ((s.count 128).compress (a.take 128)) (a.drop 128) (by simp at hn ⊢; omega)).2.2
      apply blocks_fuel <;> simp at hr hn ⊢ <;> omega
    · rw [show St.blocks (n + 1) s a = (s, a) by rw [St.blocks, if_neg ha]]

/-- What `update` does, as one loop over the buffered and the new bytes. -/
def absorb (s : St) (d : Bytes) : St :=
  let r := St.blocks (s.buf ++ d).length { s with buf := [] } (s.buf ++ d)
  { r.1 with buf := r.2 }

theorem update_absorb (s : St) (d : Bytes) (hb : s.buf.length ≤ 128) : s.update d = absorb s d := by
  have small : ∀ x : Bytes, x.length ≤ 128 → ∀ (n : Nat) (s : St), St.blocks n s x = (s, x) := by
    intro x hx n s
    cases n with
    | zero => rfl
    | succ n => rw [St.blocks, if_neg (by omega)]
  unfold St.update absorb
  split
  · subst d
    rw [List.append_nil, small _ hb]
  · by_cases hl : 128 - s.buf.length < d.length
    · simp only [hl, if_true]
      obtain ⟨n, hn⟩ : ∃ n, (s.buf ++ d).length = n + 1 := ⟨(s.buf ++ d).length - 1, by simp; omega⟩
      have hlen : 128 < (s.buf ++ d).length := by simp; omega
      have e1 : (s.buf ++ d).take 128 = s.buf ++ d.take (128 - s.buf.length) := by
        rw [List.take_append, List.take_of_length_le hb]
      have e2 : (s.buf ++ d).drop 128 = d.drop (128 - s.buf.length) := by
        rw [List.drop_append, List.drop_of_length_le hb, List.nil_append]
      rw [show St.blocks (s.buf ++ d).length { s with buf := [] } (s.buf ++ d) =
          St.blocks d.length (({ s with buf := [] }.count 128).compress (s.buf ++ d.take (128 - s.buf.length)))
            (d.drop (128 - s.buf.length)) by
        rw [hn, St.blocks, if_pos hlen, e1, e2]
        apply blocks_fuel <;> simp at hn ⊢ <;> omega]
      have hk := (blocks_keeps d.length (({ s with buf := [] }.count 128).compress
        (s.buf ++ d.take (128 - s.buf.length))) (d.drop (128 - s.buf.length))).1
      simp only [hk]
      simp [St.compress, St.count]
    · simp only [hl, if_false]
      rw [small _ (by simp; omega)]

theorem absorb_buf (s : St) (d : Bytes) : (absorb s d).buf.length ≤ 128 :=
  (blocks_rest _ _ _ (by omega)).1

theorem absorb_append (s : St) (a b : Bytes) : absorb (absorb s a) b = absorb s (a ++ b) := by
  have hk := blocks_keeps (s.buf ++ a).length { s with buf := [] } (s.buf ++ a)
  have hr := (blocks_rest (s.buf ++ a).length { s with buf := [] } (s.buf ++ a) (by omega)).2.2
  have ha := blocks_append (s.buf ++ a ++ b).length { s with buf := [] } (s.buf ++ a) b (by omega)
  have hf := blocks_fuel (s.buf ++ a ++ b).length (s.buf ++ a).length { s with buf := [] } (s.buf ++ a)
    (by simp; omega) (by omega)
  rw [hf] at ha
  unfold absorb
  simp only [← List.append_assoc]
  rw [ha]
  generalize St.blocks (s.buf ++ a).length { s with buf := [] } (s.buf ++ a) = r at *
  obtain ⟨r1, r2⟩ := r
  simp only at hk hr ⊢
  rw [show ({ r1 with buf := [] } : St) = r1 by rw [← hk.1]]
  rw [blocks_fuel (r2 ++ b).length (s.buf ++ a ++ b).length r1 (r2 ++ b) (by omega)
    (by simp at hr ⊢; omega)]

/-- In pieces or at once. -/
theorem update_append (s : St) (a b : Bytes) (hb : s.buf.length ≤ 128) :
    (s.update a).update b = s.update (a ++ b) := by
  rw [update_absorb s a hb, update_absorb _ b (absorb_buf s a), update_absorb s _ hb, absorb_append]

theorem update_buf (s : St) (d : Bytes) (hb : s.buf.length ≤ 128) : (s.update d).buf.length ≤ 128 := by
  rw [update_absorb s d hb]; exact absorb_buf s d

theorem update_pieces : ∀ (ds : List Bytes) (s : St), s.buf.length ≤ 128 →
    ds.foldl St.update s = s.update ds.flatten ∧ (ds.foldl St.update s).buf.length ≤ 128
  | [], s, hb => ⟨by simp [St.update], hb⟩
  | d :: ds, s, hb => by
    obtain ⟨h1, h2⟩ := update_pieces ds (s.update d) (update_buf s d hb)
    exact ⟨by rw [List.foldl_cons, h1, update_append s _ _ hb, List.flatten_cons], h2⟩

/-! ### The iteration of RFC 7693 -/

/-- The counter holds the number of bytes. -/
def Counts (s : St) (t : Nat) : Prop := s.t0 = UInt64.ofNat t ∧ s.t1 = UInt64.ofNat (t / 2 ^ 64)

theorem count_counts (s : St) (t inc : Nat) (h : Counts s t) (hi : inc < 2 ^ 64) :
    Counts (s.count (UInt64.ofNat inc)) (t + inc) := by
  obtain ⟨h0, h1⟩ := h
  unfold St.count Counts
  simp only [h0, h1]
  refine ⟨by rw [UInt64.ofNat_add], ?_⟩
  rw [← UInt64.toNat_inj]
  split <;> rename_i hc <;> rw [UInt64.lt_iff_toNat_lt] at hc <;>
    simp only [UInt64.toNat_add, UInt64.toNat_ofNat', UInt64.reduceToNat] at hc ⊢ <;> omega

theorem load64_toNat : ∀ (b : Bytes), b.length ≤ 8 →
    (load64 b).toNat = ((List.range b.length).map fun j => (b.getD j 0).toNat * 256 ^ j).sum ∧
    (load64 b).toNat < 256 ^ b.length
  | [], _ => by simp [load64]
  | x :: b, h => by
    obtain ⟨h1, h2⟩ := load64_toNat b (by simp at h; omega)
    have hb : b.length ≤ 7 := by simpa using h
    have hlt : (load64 b).toNat < 2 ^ 56 := by
      refine Nat.lt_of_lt_of_le h2 ?_
      calc 256 ^ b.length ≤ 256 ^ 7 := Nat.pow_le_pow_right (by omega) hb
        _ = 2 ^ 56 := by norm_num
    have hx := x.toNat_lt
    have e : (load64 (x :: b)).toNat = x.toNat + 256 * (load64 b).toNat := by
      rw [load64, UInt64.toNat_or, UInt64.toNat_shiftLeft]
      have : (load64 b).toNat <<< (8 % 64) % 2 ^ 64 = (load64 b).toNat <<< 8 := by
        rw [Nat.shiftLeft_eq]
        norm_num
        omega
      simp only [UInt64.reduceToNat, UInt8.toNat_toUInt64]
      rw [this, Nat.or_comm, ← Nat.shiftLeft_add_eq_or_of_lt (by omega), Nat.shiftLeft_eq]
      omega
    rw [e]
    refine ⟨?_, ?_⟩
    · rw [h1, List.length_cons, List.range_succ_eq_map, List.map_cons, List.sum_cons, List.map_map,
        ← List.sum_map_mul_left]
      simp only [List.getD_cons_zero, pow_zero, mul_one]
      congr 2
      apply List.map_congr_left
      intro j _
      simp [pow_succ]; ring
    · rw [List.length_cons, pow_succ]
      omega

/-- The words of a full block. -/
theorem words_full (b : Bytes) (h : b.length = 128) :
    ((List.range 16).map fun i => load64 ((b.drop (8 * i)).take 8)) = blakeWords b := by
  unfold blakeWords
  apply List.map_congr_left
  intro i hi
  have hi : i < 16 := by simpa using hi
  have hl : ((b.drop (8 * i)).take 8).length = 8 := by simp; omega
  obtain ⟨h1, h2⟩ := load64_toNat ((b.drop (8 * i)).take 8) (by omega)
  rw [hl] at h1 h2
  rw [← UInt64.toNat_inj, UInt64.toNat_ofNat', h1]
  have e : ((List.range 8).map fun j => (((b.drop (8 * i)).take 8).getD j 0).toNat * 256 ^ j) =
      (List.range 8).map fun j => (b.getD (8 * i + j) 0).toNat * 256 ^ j := by
    apply List.map_congr_left
    intro j hj
    have hj : j < 8 := by simpa using hj
    rw [List.getD_eq_getElem?_getD, List.getD_eq_getElem?_getD, List.getElem?_take_of_lt hj,
      List.getElem?_drop]
  rw [e] at h1 ⊢
  rw [Nat.mod_eq_of_lt]
  rw [← h1]
  exact Nat.lt_of_lt_of_eq h2 (by norm_num)

/-- Padding with zeros. -/
theorem words_pad (b : Bytes) (k : Nat) : blakeWords (b ++ List.replicate k 0) = blakeWords b := by
  unfold blakeWords
  have : ∀ i, (b ++ List.replicate k (0 : UInt8)).getD i 0 = b.getD i 0 := by
    intro i
    rw [List.getD_eq_getElem?_getD, List.getD_eq_getElem?_getD]
    by_cases hi : i < b.length
    · rw [List.getElem?_append_left hi]
    · rw [List.getElem?_append_right (by omega), List.getElem?_replicate,
        List.getElem?_eq_none (by omega)]
      split <;> rfl
  simp only [this]

/-! ### The compression function -/

theorem blakeIV_eq : blakeIV = iv := by
  have h : ∀ {n a : Nat}, a * a ≤ n → n < (a + 1) * (a + 1) → Nat.sqrt n = a :=
    fun h1 h2 => (Nat.eq_sqrt.2 ⟨h1, h2⟩).symm
  unfold blakeIV
  simp only [List.map_cons, List.map_nil]
  rw [h (n := 2 * 2 ^ 128) (a := 26087635650665564424) (by norm_num) (by norm_num),
    h (n := 3 * 2 ^ 128) (a := 31950697969885030203) (by norm_num) (by norm_num),
    h (n := 5 * 2 ^ 128) (a := 41248173712355948587) (by norm_num) (by norm_num),
    h (n := 7 * 2 ^ 128) (a := 48805497317890012913) (by norm_num) (by norm_num),
    h (n := 11 * 2 ^ 128) (a := 61180928696206656209) (by norm_num) (by norm_num),
    h (n := 13 * 2 ^ 128) (a := 66510681623121259551) (by norm_num) (by norm_num),
    h (n := 17 * 2 ^ 128) (a := 76057874264641092971) (by norm_num) (by norm_num),
    h (n := 19 * 2 ^ 128) (a := 80407493254657745273) (by norm_num) (by norm_num)]
  decide +kernel

theorem rotr_eq (w : UInt64) : rotr w 32 = blakeRor w 32 ∧ rotr w 24 = blakeRor w 24 ∧
    rotr w 16 = blakeRor w 16 ∧ rotr w 63 = blakeRor w 63 := by
  refine ⟨?_, ?_, ?_, ?_⟩ <;>
  · apply UInt64.toBitVec_inj.1
    unfold rotr blakeRor
    rw [BitVec.rotateRight_def]
    simp

theorem mix_G (m : List UInt64) (r i a b c d : Nat) (v : List UInt64)
    (hab : a ≠ b) (hac : a ≠ c) (had : a ≠ d) (hbc : b ≠ c) (hbd : b ≠ d) (hcd : c ≠ d)
    (ha : a < v.length) (hb : b < v.length) (hc : c < v.length) (hd : d < v.length) :
    mix m r i a b c d v = blakeG v a b c d (m.getD ((sigma.getD r []).getD (2 * i) 0) 0)
      (m.getD ((sigma.getD r []).getD (2 * i + 1) 0) 0) := by
  have hs : ∀ (u : List UInt64) (i j : Nat) (x : UInt64), j < u.length → i < u.length →
      (u.set i x).getD j 0 = if i = j then x else u.getD j 0 := by
    intro u i j x hj hi
    simp only [List.getD, List.getElem?_set]
    split
    · simp [*]
    · rfl
  unfold mix blakeG
  simp only [hs, List.length_set, ha, hb, hc, hd, hab, hac, had, hbc, hbd, hcd, hab.symm, hac.symm, had.symm,
    hbc.symm, hbd.symm, hcd.symm, if_true, if_false, ← rotr_eq]
  apply List.ext_getElem?
  intro j
  simp only [List.getElem?_set, List.length_set]
  by_cases ja : a = j
  · subst ja; simp [hab.symm, hac.symm, had.symm, ha]
  · by_cases jb : b = j
    · subst jb; simp [hbc.symm, hbd.symm, hb]
    · by_cases jc : c = j
      · subst jc; simp [hcd.symm, hc, jb]
      · by_cases jd : d = j
        · subst jd; simp [hd, ja, jb, jc]
        · simp [ja, jb, jc, jd]

theorem mix_length (m : List UInt64) (r i a b c d : Nat) (v : List UInt64) :
    (mix m r i a b c d v).length = v.length := by simp [mix]

theorem round_length (m : List UInt64) (r : Nat) (v : List UInt64) : (round m r v).length = v.length := by
  simp [round, mix_length]

theorem G_length (v : List UInt64) (a b c d : Nat) (x y : UInt64) : (blakeG v a b c d x y).length = v.length := by
  simp [blakeG]

theorem sigma_eq (r : Nat) (hr : r < 12) : sigma.getD r [] = blakeSigma.getD (r % 10) [] := by
  have : ∀ r < 12, sigma.getD r [] = blakeSigma.getD (r % 10) [] := by decide +kernel
  exact this r hr

theorem round_eq (m : List UInt64) (r : Nat) (v : List UInt64) (hr : r < 12) (hv : v.length = 16) :
    round m r v = blakeRound m (blakeSigma.getD (r % 10) []) v := by
  have e : blakeLines.zipIdx = [((0, 4, 8, 12), 0), ((1, 5, 9, 13), 1), ((2, 6, 10, 14), 2),
      ((3, 7, 11, 15), 3), ((0, 5, 10, 15), 4), ((1, 6, 11, 12), 5), ((2, 7, 8, 13), 6),
      ((3, 4, 9, 14), 7)] := by decide +kernel
  unfold round blakeRound
  rw [e, ← sigma_eq r hr]
  simp only [List.foldl_cons, List.foldl_nil]
  rw [← mix_G, ← mix_G, ← mix_G, ← mix_G, ← mix_G, ← mix_G, ← mix_G, ← mix_G] <;>
    first | decide | simp [G_length, hv]

theorem foldl_same {α β : Type} (f g : α → β → α) (P : α → Prop) (Q : β → Prop)
    (hfg : ∀ v r, P v → Q r → f v r = g v r ∧ P (f v r)) :
    ∀ (l : List β) (v : α), (∀ r ∈ l, Q r) → P v → l.foldl f v = l.foldl g v
  | [], _, _, _ => rfl
  | r :: l, v, hl, hv => by
    obtain ⟨h1, h2⟩ := hfg v r hv (hl r (by simp))
    rw [List.foldl_cons, List.foldl_cons, ← h1]
    exact foldl_same f g P Q hfg l _ (fun x hx => hl x (by simp [hx])) h2

theorem rounds_eq (m : List UInt64) (v : List UInt64) (hv : v.length = 16) :
    (List.range 12).foldl (fun v r => round m r v) v =
      (List.range 12).foldl (fun v i => blakeRound m (blakeSigma.getD (i % 10) []) v) v :=
  foldl_same _ _ (fun v => v.length = 16) (fun r => r < 12)
    (fun v r hv hr => ⟨round_eq m r v hr hv, (round_length m r v).trans hv⟩) _ v (by simp) hv

/-- One compression. -/
theorem compress_F (s : St) (b : Bytes) (t : Nat) (last : Bool) (hh : s.h.length = 8) (hb : b.length = 128)
    (ht : Counts s t) (h0 : s.f0 = if last then 0xFFFFFFFFFFFFFFFF else 0) (h1 : s.f1 = 0) :
    (s.compress b).h = blakeF s.h (blakeWords b) t last := by
  unfold St.compress blakeF
  simp only [words_full b hb, ht.1, ht.2, h0, h1, blakeIV_eq]
  rw [← rounds_eq _ _ (by split <;> simp [hh, iv])]
  obtain ⟨a0, a1, a2, a3, a4, a5, a6, a7, e⟩ : ∃ a0 a1 a2 a3 a4 a5 a6 a7, s.h = [a0, a1, a2, a3, a4, a5, a6, a7] := by
    match h : s.h, hh with
    | [a0, a1, a2, a3, a4, a5, a6, a7], _ => exact ⟨_, _, _, _, _, _, _, _, rfl⟩
  rw [e]
  cases last <;> simp [iv]

theorem blakeBlocks_step (d : Bytes) (h : 128 < d.length) :
    blakeBlocks d = d.take 128 :: blakeBlocks (d.drop 128) := by
  unfold blakeBlocks
  have e : max 1 ((d.length + 127) / 128) = max 1 (((d.drop 128).length + 127) / 128) + 1 := by
    simp; omega
  rw [e, List.range_succ_eq_map, List.map_cons, List.map_map]
  congr 1
  apply List.map_congr_left
  intro i _
  simp only [Function.comp, List.drop_drop]
  congr 2
  omega

theorem blakeBlocks_small (d : Bytes) (h : d.length ≤ 128) : blakeBlocks d = [d] := by
  unfold blakeBlocks
  have e : max 1 ((d.length + 127) / 128) = 1 := by omega
  rw [e]
  simp [List.take_of_length_le h]

theorem blakeIter_step (len i : Nat) (b : Bytes) (bs : List Bytes) (h : List UInt64) (hb : bs ≠ []) :
    blakeIter len i (b :: bs) h =
      blakeIter len (i + 1) bs (blakeF h (blakeWords b) (128 * (i + 1)) false) := by
  cases bs with
  | nil => exact absurd rfl hb
  | cons => rfl

/-- The last block. -/
theorem last_F (s : St) (d : Bytes) (t : Nat) (h8 : s.h.length = 8) (hd : d.length ≤ 128)
    (ht : Counts s t) (h1 : s.f1 = 0) :
    (({ s.count (UInt64.ofNat d.length) with f0 := 0xFFFFFFFFFFFFFFFF, buf := [] } : St).compress
        (d ++ List.replicate (128 - d.length) 0)).h = blakeF s.h (blakeWords d) (t + d.length) true := by
  have hc := count_counts s t d.length ht (by omega)
  have hh : (s.count (UInt64.ofNat d.length)).h = s.h := rfl
  have hf : (s.count (UInt64.ofNat d.length)).f1 = 0 := h1
  generalize s.count (UInt64.ofNat d.length) = c at *
  have hc' : Counts { c with f0 := 0xFFFFFFFFFFFFFFFF, buf := [] } (t + d.length) := hc
  rw [compress_F _ _ (t + d.length) true (hh ▸ h8) (by simp; omega) hc' (by simp) hf, words_pad, ← hh]

/-- The loop over the blocks, then the last block. -/
theorem blocks_iter : ∀ (n : Nat) (s : St) (d : Bytes) (i : Nat), s.h.length = 8 → d.length ≤ 128 * (n + 1) →
    Counts s (128 * i) → s.f0 = 0 → s.f1 = 0 →
    (let r := St.blocks n s d
     let s' := r.1.count (UInt64.ofNat r.2.length)
     (({ s' with f0 := 0xFFFFFFFFFFFFFFFF, buf := [] } : St).compress
        (r.2 ++ List.replicate (128 - r.2.length) 0)).h) =
      blakeIter (128 * i + d.length) i (blakeBlocks d) s.h := by
  intro n
  induction n with
  | zero =>
    intro s d i h8 h ht h0 h1
    rw [blakeBlocks_small d (by omega)]
    simp only [St.blocks, blakeIter]
    exact last_F s d _ h8 (by omega) ht h1
  | succ n ih =>
    intro s d i h8 h ht h0 h1
    by_cases hl : 128 < d.length
    · rw [St.blocks, if_pos hl, blakeBlocks_step d hl, blakeIter_step _ _ _ _ _ (by
        unfold blakeBlocks; intro hc; have := congrArg List.length hc; simp at this)]
      have hc : Counts (s.count 128) (128 * (i + 1)) := count_counts s _ 128 ht (by omega)
      have := ih ((s.count 128).compress (d.take 128)) (d.drop 128) (i + 1)
        (by simp [St.compress]) (by simp; omega) hc h0 h1
      rw [this]
      rw [compress_F (s.count 128) (d.take 128) (128 * (i + 1)) false h8 (by simp; omega) hc h0 h1]
      congr 1
      simp; omega
    · rw [St.blocks, if_neg hl, blakeBlocks_small d (by omega)]
      simp only [blakeIter]
      exact last_F s d _ h8 (by omega) ht h1

theorem store64_eq (w : UInt64) :
    store64 w = (List.range 8).map fun j => UInt8.ofNat (w.toNat / 256 ^ j) := by
  unfold store64
  apply List.map_congr_left
  intro j hj
  have hj : j < 8 := by simpa using hj
  rw [← UInt8.toNat_inj]
  have e : (8 * UInt64.ofNat j).toNat % 64 = 8 * j := by
    rw [UInt64.toNat_mul, UInt64.toNat_ofNat']
    simp only [UInt64.reduceToNat]; omega
  rw [UInt64.toNat_toUInt8, UInt64.toNat_shiftRight, e, UInt8.toNat_ofNat', Nat.shiftRight_eq_div_pow,
    Nat.pow_mul]

theorem blakeIter_length : ∀ (bs : List Bytes) (len i : Nat) (h : List UInt64), h.length = 8 →
    (blakeIter len i bs h).length = 8
  | [], _, _, h, hh => hh
  | [b], _, _, h, hh => by simp [blakeIter, blakeF]
  | b :: c :: bs, len, i, h, hh => by
    rw [blakeIter_step _ _ _ _ _ (by simp)]
    exact blakeIter_length (c :: bs) len (i + 1) _ (by simp [blakeF])

theorem blake2b_length (n : Nat) (d : Bytes) (hn : n ≤ 64) : (blake2b n d).length = n := by
  unfold blake2b
  have h := blakeIter_length (blakeBlocks d) d.length 0
    ((blakeIV.headD 0 ^^^ UInt64.ofNat (0x01010000 + n)) :: blakeIV.tail) (by rfl)
  simp only
  generalize blakeIter _ _ _ _ = x at h ⊢
  simp [h]
  omega

/-- The parameter block. -/
theorem init_h (n : Nat) (hn : n ≤ 64) :
    load64 [UInt8.ofNat n, 0, 1, 1, 0, 0, 0, 0] = UInt64.ofNat (0x01010000 + n) := by
  rw [← UInt64.toNat_inj, (load64_toNat _ (by simp)).1]
  simp [List.range_succ, UInt64.toNat_ofNat', UInt8.toNat_ofNat']
  omega

theorem hash_rfc (n : Nat) (d : Bytes) (h0 : n ≠ 0) (hn : n ≤ 64) :
    Blake2b.hash n d = some (blake2b n d) := by
  unfold Blake2b.hash St.init
  rw [if_neg (by omega), init_h n hn]
  simp only
  rw [update_absorb _ _ (by simp)]
  unfold absorb St.final St.close
  have hk := blocks_keeps d.length ⟨(iv.headD 0 ^^^ UInt64.ofNat (0x01010000 + n)) :: iv.tail, 0, 0, 0, 0, [], n⟩ d
  have hi := blocks_iter d.length
    ⟨(iv.headD 0 ^^^ UInt64.ofNat (0x01010000 + n)) :: iv.tail, 0, 0, 0, 0, [], n⟩ d 0 rfl (by omega)
    ⟨rfl, rfl⟩ rfl rfl
  simp only [List.nil_append]
  generalize St.blocks d.length _ d = r at *
  obtain ⟨r1, r2⟩ := r
  obtain ⟨_, k2, k3, _⟩ := hk
  simp only at hi k2 k3 ⊢
  rw [if_neg (by omega), if_neg (by simp [k3])]
  unfold blake2b
  rw [blakeIV_eq]
  simp only [Nat.mul_zero, Nat.zero_add] at hi
  simp only [← hi]
  simp only [funext store64_eq]
  simp [St.compress, St.count, k2]

theorem foldl_final (n : Nat) (ds : List Bytes) (h0 : n ≠ 0) (hn : n ≤ 64) :
    ∃ s, St.init n = some s ∧ (ds.foldl St.update s).final n = some (blake2b n ds.flatten) := by
  have h := hash_rfc n ds.flatten h0 hn
  unfold Blake2b.hash at h
  cases hs : St.init n with
  | none => rw [hs] at h; cases h
  | some s =>
    rw [hs] at h
    refine ⟨s, rfl, ?_⟩
    have hb : s.buf.length ≤ 128 := by
      unfold St.init at hs
      split at hs
      · cases hs
      · cases hs; simp
    rw [(update_pieces ds s hb).1]
    exact h

end Ergo
