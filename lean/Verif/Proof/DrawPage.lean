import Verif.Proof.Draw
/-!
# Pages in their arrays
-/
namespace Ergo
open Spec

/-! ## Ids and addresses -/

theorem hexText_no_nul (id : Bytes) : nul ∉ hexText id := by
  intro h
  obtain ⟨x, _, hx⟩ := List.mem_flatMap.1 h
  have h16 : ∀ d < 16, hexDigits.getD d '?' ≠ nul := by decide
  have := x.toNat_lt
  simp only [List.mem_cons, List.not_mem_nil, or_false] at hx
  rcases hx with e | e
  · exact h16 _ (by omega) e.symm
  · exact h16 _ (by omega) e.symm

theorem hexText_len (id : Bytes) : (hexText id).length = 2 * id.length := by
  rw [hexText_eq, fullHex_length]

theorem cutMiddle_eq {half : Nat} {t z : List Char} {len : Nat} (hl : t.length = len)
    (h : 2 * half + 3 < len) :
    ∃ z', cutMiddle half (t ++ nul :: z) len =
      some (t.take half ++ ['.', '.', '.'] ++ t.drop (len - half) ++ nul :: z') ∧
      (t.take half ++ ['.', '.', '.'] ++ t.drop (len - half) ++ nul :: z').length =
        (t ++ nul :: z).length := by
  obtain ⟨a, r, ha, hr⟩ : ∃ a r, t = a ++ r ∧ a.length = half :=
    ⟨t.take half, t.drop half, (List.take_append_drop _ _).symm, by rw [List.length_take]; omega⟩
  obtain ⟨m, c, hm, hc⟩ : ∃ m c, r = m ++ c ∧ c.length = half := by
    refine ⟨r.take (r.length - half), r.drop (r.length - half), (List.take_append_drop _ _).symm, ?_⟩
    have : t.length = a.length + r.length := by rw [ha, List.length_append]
    rw [List.length_drop]; omega
  have e1 : t.take half = a := by rw [ha, ← hr, List.take_left]
  have hlen : len = a.length + m.length + c.length := by
    rw [← hl, ha, hm]; simp only [List.length_append]; omega
  have e2 : t.drop (len - half) = c := by
    rw [ha, hm, ← List.append_assoc, List.drop_left' (by rw [List.length_append]; omega)]
  obtain ⟨m1, m2, hmm, hm1⟩ : ∃ m1 m2, m = m1 ++ m2 ∧ m1.length = 3 :=
    ⟨m.take 3, m.drop 3, (List.take_append_drop _ _).symm, by rw [List.length_take]; omega⟩
  have hm2 : m.length = 3 + m2.length := by rw [hmm, List.length_append, hm1]
  -- what is moved overlaps nothing that was overwritten
  obtain ⟨w, hw⟩ : ∃ w, w = m2 ++ c ++ nul :: z := ⟨_, rfl⟩
  have hwl : w.length = m2.length + half + 1 + z.length := by
    rw [hw]; simp only [List.length_append, List.length_cons, hc]; omega
  unfold cutMiddle
  rw [if_neg (by omega), putAt_eq (b := t ++ nul :: z) (i := half) (p := a) (m := m1) (q := w)
    (by rw [ha, hm, hmm, hw]; simp) hr (by simp [hm1])]
  simp only
  have hbl : (a ++ ['.', '.', '.'] ++ w).length = len + 1 + z.length := by
    simp only [List.length_append, List.length_cons, List.length_nil]; omega
  rw [if_neg (by omega)]
  have hmv : ((a ++ ['.', '.', '.'] ++ w).drop (len - half)).take half = c := by
    rw [hw, show a ++ ['.', '.', '.'] ++ (m2 ++ c ++ nul :: z) =
      (a ++ ['.', '.', '.'] ++ m2) ++ (c ++ nul :: z) by simp,
      List.drop_left' (by simp only [List.length_append, List.length_cons, List.length_nil]; omega),
      List.take_left' hc]
  rw [hmv]
  obtain ⟨w1, w2, hww, hw1⟩ : ∃ w1 w2, w = w1 ++ w2 ∧ w1.length = half :=
    ⟨w.take half, w.drop half, (List.take_append_drop _ _).symm, by rw [List.length_take]; omega⟩
  have hw2 : w.length = half + w2.length := by rw [hww, List.length_append, hw1]
  rw [putAt_eq (p := a ++ ['.', '.', '.']) (m := w1) (q := w2) (by rw [hww]; simp) (by simp [hr])
    (by omega)]
  simp only
  obtain ⟨x, w3, hx⟩ : ∃ x w3, w2 = x :: w3 := by
    cases w2 with
    | nil => simp only [List.length_nil] at hw2; omega
    | cons x w3 => exact ⟨x, w3, rfl⟩
  rw [putAt_eq (p := a ++ ['.', '.', '.'] ++ c) (m := [x]) (q := w3) (by rw [hx]; simp)
    (by simp only [List.length_append, List.length_cons, List.length_nil]; omega) (by simp)]
  refine ⟨w3, by rw [e1, e2]; simp, ?_⟩
  rw [e1, e2]
  rw [hx] at hw2
  simp only [List.length_append, List.length_cons, List.length_nil] at hw2 ⊢
  omega

theorem formatHexId_eq (nanoS : Bool) {id : Bytes} (h : id.length = 32) :
    ∃ b, formatHexId nanoS id (List.replicate 70 nul) 70 = some (b, true) ∧
      Holds 70 b (hexIdText nanoS id) := by
  have hl : (hexText id).length = 64 := by rw [hexText_len, h]
  have hh : 2 * idHalf nanoS + 3 < 64 := by cases nanoS <;> decide
  unfold formatHexId formatHex
  rw [if_neg (by omega), putAt_eq (b := List.replicate 70 nul) (i := 0) (s := hexText id ++ [nul])
    (p := []) (m := List.replicate 65 nul) (q := List.replicate 5 nul) (by rfl) rfl (by simp [hl])]
  simp only [h]
  rw [if_neg (by decide)]
  obtain ⟨z, e1, e2⟩ := cutMiddle_eq (t := hexText id) (z := List.replicate 5 nul) hl hh
  rw [show ((2 * (32 : Nat) + 1 : Int) - 1).toNat = 64 from rfl, List.nil_append, List.append_assoc,
    List.singleton_append]
  rw [e1]
  have e3 : hexIdText nanoS id = (hexText id).take (idHalf nanoS) ++ ['.', '.', '.'] ++
      (hexText id).drop (64 - idHalf nanoS) := by
    unfold hexIdText removeMiddle
    rw [hl, if_neg (by omega)]
  refine ⟨_, rfl, ?_, ⟨z, by rw [e3]⟩, ?_⟩
  · rw [e2]; simp [hl]
  · rw [e3]
    simp only [List.mem_append, not_or]
    exact ⟨⟨fun g => hexText_no_nul id (List.mem_of_mem_take g), by decide⟩,
      fun g => hexText_no_nul id (List.mem_of_mem_drop g)⟩

theorem base58_no_nul (b : Bytes) : nul ∉ base58 b := by
  unfold base58
  rw [List.mem_append, not_or]
  constructor
  · intro h
    exact absurd (List.eq_of_mem_replicate h) (by decide)
  · intro h
    obtain ⟨d, hd, e⟩ := List.mem_map.1 h
    have h58 : ∀ d < 58, alphabet58.toList.getD d '?' ≠ nul := by decide +kernel
    exact h58 d (Nat.digits_lt_base (by decide) (List.mem_reverse.1 hd)) e

theorem formatB58Id_eq {raw : Bytes} (h1 : 0 < raw.length) (h2 : raw.length ≤ 38) :
    ∃ b, formatB58Id raw (List.replicate 70 nul) 70 = some (b, true) ∧
      base58Encode raw 70 = some (base58 raw) ∧ Holds 70 b (base58 raw) := by
  obtain ⟨t, e1, rfl, e3⟩ := C37_address_fits raw 70 h2 (by decide)
  have hne : (base58 raw).length ≠ 0 := by
    intro h
    have : base58 raw = base58 [] := by rw [List.length_eq_zero_iff.1 h]; rfl
    rw [base58_inj this] at h1
    exact absurd h1 (by decide)
  obtain ⟨b, g1, g2⟩ := holds_put (n := 70) (by omega) (base58_no_nul raw)
  refine ⟨b, ?_, e1, g2⟩
  unfold formatB58Id
  rw [e1]
  simp only
  rw [g1]
  simp only
  rw [if_neg hne]

/-! ## Paths -/

theorem cstr_append {t z : List Char} (h : nul ∉ t) : cstr (t ++ nul :: z) = t :=
  Holds.cstr ⟨rfl, ⟨z, rfl⟩, h⟩

/-- The array as the list says: the text and a terminator, or refused. -/
def PathSim (outLen : Nat) : Option (List Char) → Option (List Char × Option Nat) → Prop
  | some r, x => nul ∉ r ∧ ∃ z, x = some (r ++ nul :: z, some r.length) ∧ (r ++ nul :: z).length = outLen
  | none, x => ∃ b, x = some (b, none) ∧ b.length = outLen

/-- One piece of a path: in the array as in the list. -/
theorem bufPut_sim {outLen : Nat} {acc z txt : List Char} (hb : (acc ++ z).length = outLen)
    (ha : acc.length < outLen) (hn : nul ∉ acc) (ht : nul ∉ txt) :
    PathSim outLen (snput outLen acc txt) (bufPut outLen (acc ++ z) acc.length txt) := by
  obtain ⟨w, hw⟩ : ∃ w, w = txt.take (outLen - acc.length - 1) := ⟨_, rfl⟩
  have hwn : nul ∉ w := by rw [hw]; exact fun g => ht (List.mem_of_mem_take g)
  have hwl : w.length ≤ outLen - acc.length - 1 := by rw [hw, List.length_take]; omega
  rw [List.length_append] at hb
  obtain ⟨z1, z2, hz, hz1⟩ : ∃ z1 z2, z = z1 ++ z2 ∧ z1.length = w.length + 1 :=
    ⟨z.take (w.length + 1), z.drop (w.length + 1), (List.take_append_drop _ _).symm,
      by rw [List.length_take]; omega⟩
  have hz2 : z.length = w.length + 1 + z2.length := by rw [hz, List.length_append, hz1]
  have e : bufPut outLen (acc ++ z) acc.length txt =
      if w.length = 0 ∨ w.length ≥ outLen - acc.length then some (acc ++ w ++ nul :: z2, none)
      else some (acc ++ w ++ nul :: z2, some (acc.length + w.length)) := by
    unfold bufPut snprintf
    rw [if_neg (by omega), ← hw, putAt_eq (b := acc ++ z) (p := acc) (m := z1) (q := z2) (by rw [hz]; simp)
      rfl (by rw [hz1]; simp)]
    have hs : strlen (acc ++ (w ++ [nul]) ++ z2) acc.length = some w.length := by
      unfold strlen
      rw [List.append_assoc, List.drop_left, if_pos (by simp), List.append_assoc, List.singleton_append,
        cstr_append hwn]
    simp only [hs]
    simp
  rw [e]
  unfold snput
  rw [← hw]
  simp only
  by_cases hc : w.length = 0 ∨ w.length ≥ outLen - acc.length
  · rw [if_pos hc, if_pos hc]
    refine ⟨_, rfl, ?_⟩
    simp only [List.length_append, List.length_cons]; omega
  · rw [if_neg hc, if_neg hc]
    refine ⟨by rw [List.mem_append, not_or]; exact ⟨hn, hwn⟩, z2, by simp, ?_⟩
    simp only [List.length_append, List.length_cons]; omega

theorem PathSim.lt {outLen : Nat} {r z : List Char} (h : (r ++ nul :: z).length = outLen) :
    r.length < outLen := by
  rw [← h]; simp only [List.length_append, List.length_cons]; omega

theorem component_sim {outLen : Nat} {acc z : List Char} (c : UInt32) (last : Bool)
    (hb : (acc ++ z).length = outLen) (ha : acc.length < outLen) (hn : nul ∉ acc) :
    PathSim outLen (pathFormatOne outLen acc c last) (bufComponent outLen (acc ++ z) acc.length c last) := by
  have h1 := bufPut_sim (txt := decimal (c &&& 0x7FFFFFFF).toNat) hb ha hn (toDigits_no_nul _)
  unfold pathFormatOne bufComponent
  cases e1 : snput outLen acc (decimal (c &&& 0x7FFFFFFF).toNat) with
  | none =>
    rw [e1] at h1
    obtain ⟨b, h1, h2⟩ := h1
    rw [h1]
    exact ⟨b, rfl, h2⟩
  | some r =>
    rw [e1] at h1
    obtain ⟨k1, z1, k2, k3⟩ := h1
    rw [k2]
    simp only
    have h2 : PathSim outLen (if c &&& 0x80000000 ≠ 0 then snput outLen r ['\''] else some r)
        (if c &&& 0x80000000 ≠ 0 then bufPut outLen (r ++ nul :: z1) r.length ['\'']
          else some (r ++ nul :: z1, some r.length)) := by
      split
      · exact bufPut_sim k3 (PathSim.lt k3) k1 (by decide)
      · exact ⟨k1, z1, rfl, k3⟩
    cases e2 : (if c &&& 0x80000000 ≠ 0 then snput outLen r ['\''] else some r) with
    | none =>
      rw [e2] at h2
      obtain ⟨b, h1, h2⟩ := h2
      rw [h1]
      exact ⟨b, rfl, h2⟩
    | some r2 =>
      rw [e2] at h2
      obtain ⟨k1, z1, k2, k3⟩ := h2
      rw [k2]
      simp only
      cases last with
      | true => exact ⟨k1, z1, rfl, k3⟩
      | false => exact bufPut_sim k3 (PathSim.lt k3) k1 (by decide)

theorem pathLoop_sim {outLen : Nat} : ∀ (cs : List UInt32) {acc z : List Char},
    (acc ++ nul :: z).length = outLen → nul ∉ acc →
    PathSim outLen (pathFormatLoop outLen acc cs) (bufPathLoop outLen (acc ++ nul :: z) acc.length cs)
  | [], acc, z, hb, hn => ⟨hn, z, rfl, hb⟩
  | c :: cs, acc, z, hb, hn => by
    have h1 := component_sim c cs.isEmpty hb (PathSim.lt hb) hn
    unfold pathFormatLoop bufPathLoop
    cases e1 : pathFormatOne outLen acc c cs.isEmpty with
    | none =>
      rw [e1] at h1
      obtain ⟨b, h1, h2⟩ := h1
      rw [h1]
      exact ⟨b, rfl, h2⟩
    | some r =>
      rw [e1] at h1
      obtain ⟨k1, z1, k2, k3⟩ := h1
      rw [k2]
      exact pathLoop_sim cs k3 k1

/-- `bip32_path_format` in the array is `pathFormat`. -/
theorem formatPath_eq (p : List UInt32) {n : Nat} (hn : 0 < n) :
    (∀ t, pathFormat p n = some t → ∃ b, formatPath p (List.replicate n nul) n = some (b, true) ∧ Holds n b t) ∧
    (pathFormat p n = none → formatPath p (List.replicate n nul) n = some (List.replicate n nul, false)) := by
  unfold pathFormat formatPath
  by_cases hl : p.length = 0 ∨ p.length > 10
  · rw [if_pos hl, if_pos hl]
    exact ⟨by simp, fun _ => rfl⟩
  · rw [if_neg hl, if_neg hl]
    have h := pathLoop_sim p (acc := []) (z := List.replicate (n - 1) nul) (outLen := n)
      (by simp; omega) (by simp)
    rw [List.nil_append, ← List.replicate_succ, show n - 1 + 1 = n by omega, List.length_nil] at h
    cases e : pathFormatLoop n [] p with
    | none =>
      rw [e] at h
      obtain ⟨b, h1, h2⟩ := h
      refine ⟨by simp, fun _ => ?_⟩
      rw [h1]
      simp only
      rw [putAt_eq (b := b) (i := 0) (p := []) (m := b) (q := []) (by simp) rfl (by simp [h2])]
      simp
    | some r =>
      rw [e] at h
      obtain ⟨k1, z1, k2, k3⟩ := h
      refine ⟨fun t ht => ?_, by simp⟩
      rw [Option.some.injEq] at ht
      subst ht
      rw [k2]
      exact ⟨_, rfl, k3, ⟨z1, rfl⟩, k1⟩

/-! ## Pages -/

theorem renders_with {t : Title} {s : Shown} {err : UInt16}
    {fmt : List Char → Nat → Option (List Char × Bool)}
    (h1 : (titleText t).length < 20) (h2 : nul ∉ titleText t)
    (h3 : ∃ b, fmt (List.replicate 70 nul) 70 = some (b, true) ∧ Holds 70 b (shownText s)) :
    Renders (.page ⟨t, s⟩) (drawWith (titleText t) err fmt) := by
  obtain ⟨b, e1, e2⟩ := h3
  obtain ⟨a, g1, g2⟩ := holds_strncpy h1 h2
  unfold drawWith titleLen textLen
  rw [e1, g1]
  exact ⟨rfl, g2, e2⟩

theorem renders_err {t : List Char} {err : UInt16} (he : err ≠ 0x9000) (h1 : t.length < 20) (h2 : nul ∉ t)
    {fmt : List Char → Nat → Option (List Char × Bool)} {b : List Char}
    (h3 : fmt (List.replicate 70 nul) 70 = some (b, false)) :
    Renders (.err err) (drawWith t err fmt) := by
  obtain ⟨a, g1, g2⟩ := holds_strncpy h1 h2
  unfold drawWith titleLen textLen
  rw [h3, g1]
  exact ⟨rfl, he⟩

theorem renders_token {n : Nat} {more : List Char} {t : Title} {s : Shown} {err : UInt16}
    {fmt : List Char → Nat → Option (List Char × Bool)}
    (ht : titleText t = "Token [".toList ++ decimal n ++ more) (hn : n < 10 ^ 5) (hm : more.length ≤ 7)
    (h2 : nul ∉ more)
    (h3 : ∃ b, fmt (List.replicate 70 nul) 70 = some (b, true) ∧ Holds 70 b (shownText s)) :
    Renders (.page ⟨t, s⟩) (drawToken n more err fmt) := by
  obtain ⟨b, e1, e2⟩ := h3
  have hd : (decimal n).length ≤ 5 := by
    unfold decimal
    rw [Nat.length_toDigits_le_iff (by decide) (by decide)]
    exact hn
  obtain ⟨a, g1, g2⟩ := holds_snprintf (n := 20) (s := titleText t) (by
      rw [ht]
      simp only [List.length_append]
      rw [show "Token [".toList.length = 7 from rfl]
      omega) (by
      rw [ht]
      simp only [List.mem_append, not_or]
      exact ⟨⟨by decide, toDigits_no_nul n⟩, h2⟩)
  unfold drawToken titleLen textLen
  rw [e1, ← ht, g1]
  exact ⟨rfl, g2, e2⟩

theorem number_eq {pre : List Char} (v : UInt64) (hp : pre.length ≤ 9) (hn : nul ∉ pre) :
    ∃ b, drawNumber pre v (List.replicate 70 nul) 70 = some (b, true) ∧
      Holds 70 b (pre ++ Nat.toDigits 10 v.toNat) := by
  have hd := digits_u64 v
  unfold drawNumber
  rw [strncpy_eq (b := List.replicate 70 nul) (i := 0) (p := []) (m := List.replicate 70 nul) (q := [])
    (by simp) rfl (by simp) (by omega)]
  simp only [List.nil_append, List.append_nil]
  rw [formatU64_eq _ _ _ _ (by omega) (by simp only [List.length_append, List.length_replicate]; omega),
    List.take_left]
  refine ⟨_, rfl, ?_, ⟨_, rfl⟩, ?_⟩
  · simp only [List.length_append, List.length_cons, List.length_drop, List.length_replicate]; omega
  · rw [List.mem_append, not_or]
    exact ⟨hn, toDigits_no_nul _⟩

theorem plain_eq (v : UInt64) :
    ∃ b, formatU64 (List.replicate 70 nul) 0 70 v = some (b, true) ∧
      Holds 70 b (Nat.toDigits 10 v.toNat) := by
  have hd := digits_u64 v
  rw [formatU64_eq _ _ _ _ (by omega) (by simp only [List.length_replicate]; omega)]
  refine ⟨_, rfl, ?_, ⟨_, rfl⟩, toDigits_no_nul _⟩
  simp only [List.take_zero, List.nil_append, List.length_append, List.length_cons, List.length_drop,
    List.length_replicate]
  omega

/-- The pages of the confirmation of a transaction. -/
theorem drawTx_renders (nanoS : Bool) (path : List UInt32) (a : Amounts) {k : Nat} (hk : k < 256)
    (ht : ∀ i, a.nonZeroIndex ((k - 3) / 2) = some i → (tableEntry a.table i).length = 32) :
    Renders (showTx nanoS path a k) (drawTx nanoS path a k) := by
  match k with
  | 0 =>
    obtain ⟨h1, h2⟩ := formatPath_eq path (n := 70) (by decide)
    unfold showTx drawTx
    simp only [textLen]
    cases e : pathFormat path 70 with
    | none => exact renders_err (by decide) (by decide) (by decide) (h2 e)
    | some t => exact renders_with (t := .p2pkPath) (s := .text t) (by decide) (by decide) (h1 t e)
  | 1 => exact renders_with (t := .txAmount) (s := .erg a.value) (by decide) (by decide) (formatErg_eq _)
  | 2 => exact renders_with (t := .txFee) (s := .erg a.fee) (by decide) (by decide) (formatErg_eq _)
  | k + 3 =>
    unfold showTx drawTx
    simp only
    cases e : a.nonZeroIndex (k / 2) with
    | none => exact ⟨rfl, by decide⟩
    | some i =>
      simp only
      by_cases h2 : k % 2 = 0
      · rw [if_pos h2, if_pos h2]
        exact renders_token (t := .token (k / 2 + 1)) rfl (by omega) (by decide) (by decide)
          (formatHexId_eq nanoS (ht i (by simpa using e)))
      · rw [if_neg h2, if_neg h2]
        by_cases h0 : a.tokens.getD i 0 < 0
        · rw [if_pos h0, if_pos h0]
          split
          · trivial
          · exact renders_token (t := .tokenValue (k / 2 + 1)) (s := .minting _) rfl (by omega) (by decide)
              (by decide) (number_eq _ (by decide) (by decide))
        · rw [if_neg h0, if_neg h0]
          exact renders_token (t := .tokenValue (k / 2 + 1)) (s := .burning _) rfl (by omega) (by decide)
            (by decide) (number_eq _ (by decide) (by decide))

theorem renders_b58 {t : Title} {err : UInt16} {raw : Bytes} (h1 : 0 < raw.length) (h2 : raw.length ≤ 38)
    (h3 : (titleText t).length < 20) (h4 : nul ∉ titleText t) :
    Renders (match base58Encode raw 70 with
      | none => .err Sw.addressFormattingFailed
      | some x => .page ⟨t, .text x⟩) (drawWith (titleText t) err (formatB58Id raw)) := by
  obtain ⟨b, e1, e2, e3⟩ := formatB58Id_eq h1 h2
  rw [e2]
  exact renders_with (t := t) (s := .text (base58 raw)) h3 h4 ⟨b, e1, e3⟩

theorem checksum_length {env : Env} {x : UInt8} {b : Bytes} (h : b.length ≤ 33) :
    0 < (withChecksum env (x :: b)).length ∧ (withChecksum env (x :: b)).length ≤ 38 := by
  unfold withChecksum
  simp only [List.length_append, List.length_cons, List.length_take]
  omega

/-- The first page of an output. -/
theorem drawAddress_renders (env : Env) (o : OutInfo) (network : UInt8) :
    Renders (printAddress env o network) (drawAddress env o network) := by
  have hs : Renders (match o.data with
      | .treeHash h =>
        match addressFromScriptHash env network h with
        | none => .err Sw.addressGenerationFailed
        | some raw =>
          match base58Encode raw 70 with
          | none => .err Sw.addressFormattingFailed
          | some t => .page ⟨.scriptHash, .text t⟩
      | _ => .ub) (match o.data with
      | .treeHash h =>
        match addressFromScriptHash env network h with
        | none => drawWith "Script Hash".toList Sw.addressGenerationFailed (fun b _ => some (b, false))
        | some raw => drawWith "Script Hash".toList Sw.addressFormattingFailed (formatB58Id raw)
      | _ => none) := by
    cases o.data with
    | treeHash h =>
      simp only
      unfold addressFromScriptHash
      by_cases hn : networkValid network = true
      · rw [if_pos hn]
        obtain ⟨g1, g2⟩ := checksum_length (env := env) (x := 2 + network) (b := h.take 24)
          (by rw [List.length_take]; omega)
        exact renders_b58 (t := .scriptHash) g1 g2 (by decide) (by decide)
      · rw [if_neg hn]
        exact renders_err (by decide) (by decide) (by decide) rfl
    | _ => trivial
  unfold printAddress drawAddress
  simp only [textLen]
  split
  · exact ⟨rfl, by decide⟩
  · cases o.type with
    | bip32 =>
      simp only
      cases o.data with
      | path p =>
        simp only
        obtain ⟨h1, h2⟩ := formatPath_eq p (n := 70) (by decide)
        cases e : pathFormat p 70 with
        | none => exact renders_err (by decide) (by decide) (by decide) (h2 e)
        | some t => exact renders_with (t := .change) (s := .text t) (by decide) (by decide) (h1 t e)
      | _ => trivial
    | address =>
      simp only
      cases o.data with
      | publicKey k =>
        simp only
        unfold addressFromCompressed
        by_cases hn : networkValid network = true
        · rw [if_pos hn]
          obtain ⟨g1, g2⟩ := checksum_length (env := env) (x := 1 + network) (b := k.take 33)
            (by rw [List.length_take]; omega)
          exact renders_b58 (t := .address) g1 g2 (by decide) (by decide)
        · rw [if_neg hn]
          exact renders_err (by decide) (by decide) (by decide) rfl
      | _ => trivial
    | script => exact hs
    | scriptHash => exact hs
    | minersFee =>
      obtain ⟨b, e1, e2⟩ := holds_strncpy (n := 70) (s := "Miners Fee".toList) (by decide) (by decide)
      refine renders_with (t := .fee) (s := .text "Miners Fee".toList) (by decide) (by decide) ⟨b, ?_, e2⟩
      rw [e1]
      rfl
    | unknown => exact ⟨rfl, by decide⟩

/-- The pages of an output. -/
theorem drawOutput_renders (env : Env) (nanoS : Bool) (o : OutInfo) (table : List Bytes) (network : UInt8)
    {k : Nat} (hk : k < 256)
    (ht : ∀ i, o.usedIndex ((k - 2) / 2) = some i → (tableEntry table i).length = 32) :
    Renders (showOutput env nanoS o table network k) (drawOutput env nanoS o table network k) := by
  match k with
  | 0 => exact drawAddress_renders env o network
  | 1 => exact renders_with (t := .outputValue) (s := .erg o.value) (by decide) (by decide) (formatErg_eq _)
  | k + 2 =>
    unfold showOutput drawOutput
    simp only
    cases e : o.usedIndex (k / 2) with
    | none => exact ⟨rfl, by decide⟩
    | some i =>
      simp only
      by_cases h2 : k % 2 = 0
      · rw [if_pos h2, if_pos h2]
        exact renders_token (t := .token (k / 2 + 1)) rfl (by omega) (by decide) (by decide)
          (formatHexId_eq nanoS (ht i (by simpa using e)))
      · rw [if_neg h2, if_neg h2]
        exact renders_token (t := .tokenValue (k / 2 + 1)) (s := .amount _) rfl (by omega) (by decide)
          (by decide) (plain_eq _)

end Ergo
