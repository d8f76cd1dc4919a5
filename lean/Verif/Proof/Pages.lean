import Verif.Spec.Pages
import Verif.Proof.Screens
import Verif.Proof.Final
import Verif.Props.TokenId
import Verif.Props.Address
import Verif.Props.Base58
/-!
# Contents of the confirmation screens
-/
namespace Ergo
open Spec

/-! ## Positions of the entries that are shown -/

/-- Positions (from `i`) of the entries with `p`. -/
def idxs {α : Type} (p : α → Bool) : List α → Nat → List Nat
  | [], _ => []
  | x :: xs, i => if p x then i :: idxs p xs (i + 1) else idxs p xs (i + 1)

theorem nthIdx_eq {α : Type} (p : α → Bool) : ∀ (l : List α) (k i : Nat),
    nthIdx p l k i = (idxs p l i)[k]?
  | [], k, i => by simp [nthIdx, idxs]
  | x :: xs, k, i => by
    simp only [nthIdx, idxs]
    cases p x with
    | false => simpa using nthIdx_eq p xs k (i + 1)
    | true =>
      cases k with
      | zero => simp
      | succ k => simpa using nthIdx_eq p xs k (i + 1)

theorem idxs_length {α : Type} (p : α → Bool) : ∀ (l : List α) (i : Nat),
    (idxs p l i).length = l.countP p
  | [], i => rfl
  | x :: xs, i => by
    simp only [idxs, List.countP_cons]
    split <;> simp [idxs_length p xs (i + 1)]

theorem mem_idxs {α : Type} (p : α → Bool) : ∀ (l : List α) (i j : Nat),
    j ∈ idxs p l i ↔ ∃ m v, j = i + m ∧ l[m]? = some v ∧ p v = true
  | [], i, j => by simp [idxs]
  | x :: xs, i, j => by
    have ih := mem_idxs p xs (i + 1) j
    have key : j ∈ idxs p (x :: xs) i ↔ (p x = true ∧ j = i) ∨ j ∈ idxs p xs (i + 1) := by
      simp only [idxs]
      split <;> simp_all
    rw [key, ih]
    constructor
    · rintro (⟨h1, rfl⟩ | ⟨m, v, rfl, h2, h3⟩)
      · exact ⟨0, x, by simp, by simp, h1⟩
      · exact ⟨m + 1, v, by omega, by simpa using h2, h3⟩
    · rintro ⟨m, v, rfl, h2, h3⟩
      cases m with
      | zero => simp at h2; subst h2; exact .inl ⟨h3, by omega⟩
      | succ m => exact .inr ⟨m, v, by omega, by simpa using h2, h3⟩

theorem idxs_nodup {α : Type} (p : α → Bool) : ∀ (l : List α) (i : Nat), (idxs p l i).Nodup
  | [], i => by simp [idxs]
  | x :: xs, i => by
    simp only [idxs]
    have ih := idxs_nodup p xs (i + 1)
    split
    · refine List.nodup_cons.2 ⟨?_, ih⟩
      intro h
      obtain ⟨m, v, e, _⟩ := (mem_idxs p xs (i + 1) i).1 h
      omega
    · exact ih

theorem idxs_sorted {α : Type} (p : α → Bool) : ∀ (l : List α) (i : Nat),
    (idxs p l i).Pairwise (· < ·)
  | [], i => by simp [idxs]
  | x :: xs, i => by
    simp only [idxs]
    have ih := idxs_sorted p xs (i + 1)
    split
    · refine List.pairwise_cons.2 ⟨?_, ih⟩
      intro j h
      obtain ⟨m, v, e, _⟩ := (mem_idxs p xs (i + 1) j).1 h
      omega
    · exact ih

/-- The first is before the second in the table. -/
def Before (table : List Bytes) (a b : Bytes) : Prop :=
  ∃ i j, tableFind table a = some i ∧ tableFind table b = some j ∧ i < j

/-- The result for an entry that exists. -/
def atIdx {α : Type} (o : Option α) (e : ShowRes) (f : α → ShowRes) : ShowRes :=
  match o with
  | none => e
  | some i => f i

/-- Two pages per position. -/
theorem two_pages {α : Type} (f g : Nat → α → ShowRes) (e : ShowRes) : ∀ (js : List α) (m : Nat),
    (List.range (2 * js.length)).map (fun k => atIdx js[k / 2]? e (fun i =>
      if k % 2 = 0 then f (k / 2 + m) i else g (k / 2 + m) i)) =
    (js.zipIdx m).flatMap (fun t => [f t.2 t.1, g t.2 t.1])
  | [], m => rfl
  | j :: js, m => by
    have e2 : 2 * (j :: js).length = (2 * js.length) + 1 + 1 := by simp; omega
    rw [e2, List.range_succ_eq_map, List.range_succ_eq_map]
    simp only [List.map_cons, List.map_map, List.zipIdx_cons, List.flatMap_cons]
    rw [← two_pages f g e js (m + 1)]
    simp only [List.cons_append, List.nil_append]
    refine congrArg₂ _ (by simp [atIdx]) (congrArg₂ _ (by simp [atIdx]) ?_)
    apply List.map_congr_left
    intro k _
    simp only [Function.comp, Nat.succ_eq_add_one]
    have h1 : (k + 1 + 1) / 2 = k / 2 + 1 := by omega
    have h2 : (k + 1 + 1) % 2 = k % 2 := by omega
    have h3 : k / 2 + 1 + m = k / 2 + (m + 1) := by omega
    rw [h1, h2, List.getElem?_cons_succ, h3]

theorem hexChars_eq : ∀ b : Bytes, fullHex b = hexChars b
  | [] => rfl
  | b :: bs => by
    simp only [fullHex, hexChars, List.flatMap_cons]
    rw [hexChars_eq bs]
    rfl

theorem hexIdText_eq {nanoS : Bool} {id : Bytes} (h : id.length = 32) :
    hexIdText nanoS id = idText nanoS id := by
  rw [C41_partial nanoS id h, hexChars_eq]
  rfl

/-! ## The positions of tokens -/

theorem tableEntry_find {table : List Bytes} {id : Bytes} {i : Nat}
    (h : tableFind table id = some i) : tableEntry table i = id := by
  have := (tableFind_some h).1
  simp [tableEntry, List.getD_eq_getElem?_getD, this]

theorem getElem?_getD {α : Type} {l : List α} {i : Nat} {v : α} (z : α) (h : l[i]? = some v) :
    l.getD i z = v := by
  simp [List.getD_eq_getElem?_getD, h]

/-- The tokens with an amount, in table order: ids without repetition, each with its amount. -/
theorem shown_tokens {β γ : Type} [DecidableEq β] {table : List Bytes} {tokens : List β} (z : β)
    (q : β → γ) (amt : Bytes → γ) (z' : γ) (hz : ∀ v, q v = z' ↔ v = z)
    (hbal : ∀ id i, tableFind table id = some i → q (tokens.getD i z) = amt id)
    (hzero : ∀ i, (∀ id, tableFind table id ≠ some i) → tokens.getD i z = z)
    (hout : ∀ id, id ∉ table → amt id = z') :
    let l := (idxs (fun v => v != z) tokens 0).map (fun i => (tableEntry table i, q (tokens.getD i z)))
    (l.map (·.1)).Nodup ∧ (∀ id a, (id, a) ∈ l ↔ a = amt id ∧ a ≠ z') ∧ (∀ t ∈ l, t.1 ∈ table) ∧
      (l.map (·.1)).Pairwise (Before table) := by
  intro l
  have key : ∀ i ∈ idxs (fun v => v != z) tokens 0,
      tokens.getD i z ≠ z ∧ tableFind table (tableEntry table i) = some i := by
    intro i hi
    obtain ⟨m, v, rfl, h2, h3⟩ := (mem_idxs _ _ _ _).1 hi
    simp only [Nat.zero_add] at *
    have hv : tokens.getD m z ≠ z := by rw [getElem?_getD z h2]; simpa using h3
    refine ⟨hv, ?_⟩
    by_contra hc
    apply hv
    apply hzero
    intro id hid
    rw [tableEntry_find hid] at hc
    exact hc hid
  refine ⟨?_, ?_, ?_, ?_⟩
  · simp only [l, List.map_map]
    refine List.Nodup.map_on ?_ (idxs_nodup _ _ _)
    intro i hi j hj he
    simp only [Function.comp] at he
    have h1 := (key i hi).2
    have h2 := (key j hj).2
    rw [he, h2] at h1
    simpa using h1.symm
  · intro id a
    simp only [l, List.mem_map, Prod.mk.injEq]
    constructor
    · rintro ⟨i, hi, rfl, rfl⟩
      obtain ⟨h1, h2⟩ := key i hi
      exact ⟨hbal _ _ h2, fun h => h1 ((hz _).1 h)⟩
    · rintro ⟨rfl, hne⟩
      have hm : id ∈ table := by
        by_contra hc; exact hne (hout id hc)
      obtain ⟨i, hi⟩ := tableFind_mem hm
      have hb := hbal _ _ hi
      refine ⟨i, ?_, tableEntry_find hi, hb⟩
      rw [mem_idxs]
      have hv : tokens.getD i z ≠ z := by
        intro hc; apply hne; rw [← hb]; exact (hz _).2 hc
      cases hg : tokens[i]? with
      | none => simp [List.getD_eq_getElem?_getD, hg] at hv
      | some v =>
        refine ⟨i, v, by simp, hg, ?_⟩
        rw [getElem?_getD z hg] at hv
        simpa using hv
  · intro t ht
    simp only [l, List.mem_map] at ht
    obtain ⟨i, hi, rfl⟩ := ht
    have h2 := (tableFind_some (key i hi).2).1
    exact List.mem_of_getElem? h2
  · simp only [l, List.map_map]
    rw [List.pairwise_map]
    refine (idxs_sorted _ tokens 0).imp_of_mem ?_
    intro i j hi hj hlt
    exact ⟨i, j, (key i hi).2, (key j hj).2, hlt⟩

theorem tokList_pages {γ : Type} {nanoS : Bool} {table : List Bytes} {js : List Nat}
    {val : Nat → Nat → ShowRes} {value : Nat → γ → ShowRes} {q : Nat → γ} {e : ShowRes}
    (h : ∀ j ∈ js, (tableEntry table j).length = 32)
    (hv : ∀ n, ∀ j ∈ js, val n j = value n (q j)) :
    (List.range (2 * js.length)).map (fun k => atIdx js[k / 2]? e (fun i =>
        if k % 2 = 0 then .page ⟨.token (k / 2 + 1), .text (hexIdText nanoS (tableEntry table i))⟩
        else val (k / 2 + 1) i)) =
    tokenListPages nanoS value (js.map (fun i => (tableEntry table i, q i))) := by
  rw [two_pages (fun n i => .page ⟨.token n, .text (hexIdText nanoS (tableEntry table i))⟩) val e js 1]
  simp only [tokenListPages, List.zipIdx_map, List.flatMap_map]
  rw [List.flatMap_def, List.flatMap_def]
  congr 1
  apply List.map_congr_left
  intro t ht
  have hm : t.1 ∈ js := by
    obtain ⟨x, i⟩ := t
    exact (List.mem_zipIdx ht).2.2 ▸ List.getElem_mem _
  simp only [Prod.map, id]
  rw [hexIdText_eq (h _ hm), hv _ _ hm]

/-- Every entry of a token list has its two pages, one after the other. -/
theorem tokList_at {γ : Type} {nanoS : Bool} {value : Nat → γ → ShowRes} {L : List (Bytes × γ)}
    {id : Bytes} {b : γ} (pre : List ShowRes) (hm : (id, b) ∈ L) :
    ∃ k n, (pre ++ tokenListPages nanoS value L)[k]? =
        some (.page ⟨.token n, .text (idText nanoS id)⟩) ∧
      (pre ++ tokenListPages nanoS value L)[k + 1]? = some (value n b) := by
  obtain ⟨l, r, hL⟩ := List.append_of_mem hm
  have hp : pre ++ tokenListPages nanoS value L = (pre ++ tokenListPages nanoS value l) ++
      .page ⟨.token (1 + l.length), .text (idText nanoS id)⟩ :: value (1 + l.length) b ::
      (r.zipIdx (1 + l.length + 1)).flatMap (fun t =>
        [.page ⟨.token t.2, .text (idText nanoS t.1.1)⟩, value t.2 t.1.2]) := by
    rw [hL]
    simp [tokenListPages, List.zipIdx_append, List.zipIdx_cons]
  rw [hp]
  generalize pre ++ tokenListPages nanoS value l = A
  refine ⟨A.length, 1 + l.length, ?_, ?_⟩
  · rw [List.getElem?_append_right (by omega)]; simp
  · rw [List.getElem?_append_right (by omega)]; simp

/-! ## The pages of the transaction -/

theorem balance_shown (v : Int64) (n : Nat) :
    (if v < 0 then
      if v = Int64.minValue then ShowRes.ub
      else .page ⟨.tokenValue n, .minting (-v).toUInt64.toNat⟩
    else .page ⟨.tokenValue n, .burning v.toUInt64.toNat⟩) = balancePage n v.toInt := by
  have hmin : v = Int64.minValue ↔ v.toInt = -2 ^ 63 := by
    rw [← Int64.toInt_inj]; rfl
  have hlt : v < 0 ↔ v.toInt < 0 := by rw [Int64.lt_iff_toInt_lt]; rfl
  unfold balancePage
  by_cases hm : v = Int64.minValue
  · subst hm; rfl
  · have hm' : ¬ v.toInt = -2 ^ 63 := fun h => hm (hmin.2 h)
    rw [if_neg hm']
    by_cases hn : v < 0
    · have hn' := hlt.1 hn
      rw [if_pos hn, if_neg hm, if_pos hn']
      have : (-v).toUInt64.toNat = v.toInt.natAbs := by
        have h2 := i64_neg_toU v hn
        omega
      rw [this]
    · have hn' : ¬ v.toInt < 0 := fun h => hn (hlt.2 h)
      rw [if_neg hn, if_neg hn']
      have : v.toUInt64.toNat = v.toInt.natAbs := by
        have h2 := i64_toU v
        omega
      rw [this]

theorem txPages {nanoS : Bool} {path : List UInt32} {a : Amounts} {base : List Bytes}
    {vin vch vfee : Nat} {tin tout : Bytes → Nat} (hA : AmtRel a base vin vch vfee tin tout)
    (hp : pathFormat path 70 = some (pathText path)) :
    ∃ L : List (Bytes × Int), (List.range (txScreenCount a)).map (showTx nanoS path a) =
      .page ⟨.p2pkPath, .text (pathText path)⟩ :: .page ⟨.txAmount, .erg a.value⟩ ::
        .page ⟨.txFee, .erg a.fee⟩ :: tokenListPages nanoS balancePage L ∧
      (L.map (·.1)).Nodup ∧ (∀ id b, (id, b) ∈ L ↔ b = (tin id : Int) - tout id ∧ b ≠ 0) ∧
      (L.map (·.1)).Pairwise (Before a.table) := by
  obtain ⟨h1, h2, h3, h4⟩ := shown_tokens (table := a.table) (tokens := a.tokens) 0 Int64.toInt
    (fun id => (tin id : Int) - tout id) 0 (by
      intro v
      rw [← Int64.toInt_inj]; rfl) hA.bal hA.zero (by
      intro id hid
      simp only [hA.tin0 id hid, hA.tout0 id hid]; rfl)
  refine ⟨_, ?_, h1, h2, h4⟩
  have e : txScreenCount a = 2 * (idxs (fun v => v != 0) a.tokens 0).length + 1 + 1 + 1 := by
    rw [idxs_length]
    unfold txScreenCount Amounts.nonZeroCount
    omega
  rw [e, List.range_succ_eq_map, List.range_succ_eq_map, List.range_succ_eq_map]
  simp only [List.map_cons, List.map_map]
  refine congrArg₂ _ (by simp [showTx, textLen, hp]) (congrArg₂ _ rfl (congrArg₂ _ rfl ?_))
  rw [← tokList_pages (nanoS := nanoS) (table := a.table) (e := .err Sw.badTokenIndex)
    (val := fun n i => if a.tokens.getD i 0 < 0 then
      if a.tokens.getD i 0 = Int64.minValue then .ub
      else .page ⟨.tokenValue n, .minting (-(a.tokens.getD i 0)).toUInt64.toNat⟩
      else .page ⟨.tokenValue n, .burning (a.tokens.getD i 0).toUInt64.toNat⟩)
    (q := fun i => (a.tokens.getD i 0).toInt)
    (fun j hj => hA.ids _ (h3 _ (List.mem_map_of_mem hj)))
    (fun n j _ => balance_shown _ _)]
  apply List.map_congr_left
  intro k hk
  simp only [Function.comp, showTx, Amounts.nonZeroIndex, nthIdx_eq, atIdx]
  cases (idxs (fun x => x != 0) a.tokens 0)[k / 2]? <;> rfl

/-! ## The pages of an output -/

theorem outPages {env : Env} {nanoS : Bool} {table base : List Bytes} {oi : OutInfo}
    {o : BoxDesc Nat} {network : UInt8} (hO : OutRel env table base oi o)
    (hids : ∀ id ∈ table, id.length = 32) (hty : oi.type ≠ .bip32) :
    ∃ L : List (Bytes × Nat),
      (List.range (outputScreenCount oi)).map (showOutput env nanoS oi table network) =
      printAddress env oi network :: .page ⟨.outputValue, .erg (UInt64.ofNat o.value)⟩ ::
        tokenListPages nanoS amountPage L ∧
      (L.map (·.1)).Nodup ∧ (∀ id a, (id, a) ∈ L ↔ a = tokRefs base o.tokens id ∧ a ≠ 0) ∧
      (L.map (·.1)).Pairwise (Before table) := by
  obtain ⟨h1, h2, h3, h4⟩ := shown_tokens (table := table) (tokens := oi.tokens) 0 UInt64.toNat
    (tokRefs base o.tokens) 0 (by
      intro v
      rw [← UInt64.toNat_inj]; rfl) hO.toks.amt hO.toks.zero hO.toks.out0
  refine ⟨_, ?_, h1, h2, h4⟩
  have e : outputScreenCount oi = 2 * (idxs (fun v => v != 0) oi.tokens 0).length + 1 + 1 := by
    rw [idxs_length]
    unfold outputScreenCount OutInfo.usedCount
    rw [if_pos hty]
    omega
  rw [e, List.range_succ_eq_map, List.range_succ_eq_map]
  simp only [List.map_cons, List.map_map]
  have hval : oi.value = UInt64.ofNat o.value := by rw [← hO.value]; simp
  refine congrArg₂ _ rfl (congrArg₂ _ (by simp [showOutput, hval]) ?_)
  rw [← tokList_pages (nanoS := nanoS) (table := table) (e := .err Sw.badTokenIndex)
    (val := fun n i => .page ⟨.tokenValue n, .amount (oi.tokens.getD i 0)⟩)
    (q := fun i => (oi.tokens.getD i 0).toNat)
    (fun j hj => hids _ (h3 _ (List.mem_map_of_mem hj)))
    (fun n j _ => by simp [amountPage])]
  apply List.map_congr_left
  intro k hk
  simp only [Function.comp, showOutput, OutInfo.usedIndex, nthIdx_eq, atIdx]
  cases (idxs (fun x => x != 0) oi.tokens 0)[k / 2]? <;> rfl

/-! ## The tokens of an output -/

theorem freshToks_after {base : List Bytes} {id : Bytes} : ∀ {l : List (Nat × Nat)} {f : Bytes → Nat},
    FreshToks base f l → f id ≠ 0 → ∀ t ∈ l, base[t.1]? ≠ some id
  | [], f, _, _ => by simp
  | t :: l, f, h, hf => by
    intro u hu
    rcases List.mem_cons.1 hu with rfl | hu
    · intro he; exact hf (h.1 id he)
    · exact freshToks_after h.2 (by omega) u hu

theorem tokRefs_other {base : List Bytes} {id : Bytes} {l : List (Nat × Nat)}
    (h : ∀ t ∈ l, base[t.1]? ≠ some id) : tokRefs base l id = 0 := by
  unfold tokRefs
  rw [List.filter_eq_nil_iff.2 (by intro t ht; simpa using h t ht)]
  rfl

/-- A token with an amount is the only one of the output with its id and an amount. -/
theorem freshToks_amount {base : List Bytes} {id : Bytes} : ∀ {l : List (Nat × Nat)} {f : Bytes → Nat},
    FreshToks base f l → ∀ t ∈ l, base[t.1]? = some id → t.2 ≠ 0 →
      tokRefs base l id = t.2
  | [], f, _ => by simp
  | u :: l, f, h => by
    intro t ht he hne
    rw [tokRefs_cons]
    rcases List.mem_cons.1 ht with rfl | ht
    · have := tokRefs_other (freshToks_after h.2 (id := id) (by
        rw [tokRefs_cons, if_pos he]; simp [hne]))
      rw [if_pos he, this]; rfl
    · have ih := freshToks_amount h.2 t ht he hne
      rw [ih]
      split
      · rename_i hu
        by_cases hz : u.2 = 0
        · omega
        · exact absurd he (freshToks_after h.2 (id := id) (by
            rw [tokRefs_cons, if_pos hu]; simp [hz]) t ht)
      · omega

theorem tokRefs_of_zero {base : List Bytes} {id : Bytes} : ∀ {l : List (Nat × Nat)},
    (∀ t ∈ l, base[t.1]? = some id → t.2 = 0) → tokRefs base l id = 0
  | [], _ => rfl
  | t :: l, h => by
    rw [tokRefs_cons, tokRefs_of_zero (fun u hu => h u (by simp [hu]))]
    split
    · rename_i he; rw [h t (by simp) he]
    · rfl

/-- What is listed for an output: its tokens with an amount. -/
theorem listed_iff {base : List Bytes} {l : List (Nat × Nat)} (h : FreshToks base (fun _ => 0) l)
    (id : Bytes) (a : Nat) :
    a = tokRefs base l id ∧ a ≠ 0 ↔ a ≠ 0 ∧ ∃ i, (i, a) ∈ l ∧ base[i]? = some id := by
  constructor
  · rintro ⟨rfl, hne⟩
    refine ⟨hne, ?_⟩
    by_contra hc
    apply hne
    have hz : ∀ t ∈ l, base[t.1]? = some id → t.2 = 0 := by
      intro t ht he
      by_contra ht2
      have := freshToks_amount h t ht he ht2
      exact hc ⟨t.1, by rw [this]; exact ht, he⟩
    exact tokRefs_of_zero hz
  · rintro ⟨hne, i, hm, he⟩
    exact ⟨(freshToks_amount h (i, a) hm he hne).symm, hne⟩

/-! ## The script of an output -/

theorem key_script {b k : Bytes} : b.length = 36 ∧ treeParseP2pk b = some k ↔ IsKeyScript b k := by
  unfold treeParseP2pk IsKeyScript
  constructor
  · rintro ⟨hl, h⟩
    split at h
    · simp at h
    rename_i h1
    split at h
    · simp at h
    rename_i h2
    simp only [Option.some.injEq] at h
    simp only [ne_eq, Decidable.not_not, p2pkPrefix] at h1
    have hd : (b.drop 3).take 33 = b.drop 3 := List.take_of_length_le (by simp; omega)
    rw [hd] at h
    subst h
    refine ⟨?_, by simp; omega, ?_⟩
    · rw [← h1, List.take_append_drop]
    · rw [List.head?_drop]
      have hg : b[3]? = some (b.getD 3 0) := by
        rw [List.getD_eq_getElem?_getD, List.getElem?_eq_getElem (by omega)]; rfl
      rw [hg]
      by_cases h3 : b.getD 3 0 = 2
      · left; rw [h3]
      · right
        have : b.getD 3 0 = 3 := by
          by_contra h4; exact h2 ⟨h3, h4⟩
        rw [this]
  · rintro ⟨rfl, hl, hh⟩
    refine ⟨by simp [hl], ?_⟩
    rw [if_neg (by simp [p2pkPrefix])]
    cases k with
    | nil => simp at hl
    | cons x k =>
      simp only [List.head?_cons, Option.some.injEq] at hh
      rw [if_neg (by rcases hh with rfl | rfl <;> simp)]
      simp at hl ⊢
      omega

theorem hash_script {b h : Bytes} : b.length = 44 ∧ treeParseP2sh b = some h ↔ IsHashScript b h := by
  unfold treeParseP2sh IsHashScript
  constructor
  · rintro ⟨hl, h'⟩
    split at h'
    · simp at h'
    rename_i h1
    split at h'
    · simp at h'
    rename_i h2
    simp only [Option.some.injEq] at h'
    simp only [ne_eq, Decidable.not_not, p2shPrefix, p2shSuffix] at h1 h2
    have hd : (b.drop 41).take 3 = b.drop 41 :=
      List.take_of_length_le (by rw [List.length_drop]; omega)
    rw [hd] at h2
    subst h'
    refine ⟨?_, by simp; omega⟩
    rw [← h1, ← h2, List.append_assoc]
    have e : b.drop 41 = (b.drop 17).drop 24 := by rw [List.drop_drop]
    rw [e, List.take_append_drop, List.take_append_drop]
  · rintro ⟨rfl, hl⟩
    refine ⟨by simp [hl], ?_⟩
    rw [if_neg (by simp [p2shPrefix]), if_neg (by
      rw [List.drop_append_of_le_length (by simp [hl])]
      have : h.drop 24 = [] := List.drop_eq_nil_of_le (by omega)
      simp [this, p2shSuffix])]
    simp [← hl]

/-- The first page of an output with a raw script. -/
theorem script_page {env : Env} (hwf : env.WF) {oi : OutInfo} {n : UInt8} {b : Bytes}
    (hn : networkSupported n = true) (hf : oi.finished = true)
    (ht : oi.type = (rawInfo env true b).1) (hd : oi.data = (rawInfo env true b).2) :
    ∃ p, printAddress env oi n = .page p ∧ ScriptPage env n b p := by
  have hn' : n.toNat ≤ 252 := by
    unfold networkSupported networkMainnet at hn
    simp only [Bool.or_eq_true, decide_eq_true_eq] at hn
    rcases hn with rfl | rfl <;> decide
  have hv := (networkValid_iff n).2 hn'
  have hash : ∀ (h : Bytes) (ty : OutType), ty = .script ∨ ty = .scriptHash → 24 ≤ h.length →
      oi.type = ty → oi.data = .treeHash h → printAddress env oi n =
        .page ⟨.scriptHash, .text (addressText env 2 n (h.take 24))⟩ := by
    intro h ty hty hl h1 h2
    unfold printAddress
    rw [if_neg (by simp [hf]), h1, h2]
    obtain ⟨t, e1, e2, _⟩ := C37_address_fits (withChecksum env ((2 + n) :: h.take 24)) 70 (by
      simp [withChecksum, hl, hwf.blake_len]) (by omega)
    rcases hty with rfl | rfl
    · simp only [addressFromScriptHash, hv, if_true, textLen, e1, e2]
      rfl
    · simp only [addressFromScriptHash, hv, if_true, textLen, e1, e2]
      rfl
  by_cases hk : ∃ k, IsKeyScript b k
  · obtain ⟨k, hk⟩ := hk
    obtain ⟨h1, h2⟩ := key_script.2 hk
    have hl := hk.2.1
    simp only [rawInfo, if_pos h1, h2] at ht hd
    refine ⟨_, ?_, .inl ⟨k, hk, rfl⟩⟩
    unfold printAddress
    rw [if_neg (by simp [hf]), ht, hd]
    obtain ⟨t, e1, e2, _⟩ := C37_address_fits (withChecksum env ((1 + n) :: k)) 70 (by
      simp [withChecksum, hl, hwf.blake_len]) (by omega)
    simp only [addressFromCompressed, hv, if_true, textLen, List.take_of_length_le (Nat.le_of_eq hl),
      e1, e2]
    rfl
  · have hk' : (if b.length = 36 then treeParseP2pk b else none) = none := by
      split
      · rename_i hl
        cases hp : treeParseP2pk b with
        | none => rfl
        | some k => exact absurd ⟨k, key_script.1 ⟨hl, hp⟩⟩ hk
      · rfl
    by_cases hh : ∃ h, IsHashScript b h
    · obtain ⟨h, hh⟩ := hh
      obtain ⟨h1, h2⟩ := hash_script.2 hh
      have hl := hh.2
      simp only [rawInfo, hk', if_pos h1, h2] at ht hd
      refine ⟨_, ?_, .inr (.inl ⟨h, hh, rfl⟩)⟩
      rw [hash h .scriptHash (.inr rfl) (by omega) ht hd, List.take_of_length_le (by omega)]
    · have hh' : (if b.length = 44 then treeParseP2sh b else none) = none := by
        split
        · rename_i hl
          cases hp : treeParseP2sh b with
          | none => rfl
          | some k => exact absurd ⟨k, hash_script.1 ⟨hl, hp⟩⟩ hh
        · rfl
      simp only [rawInfo, hk', hh', if_true] at ht hd
      exact ⟨_, hash _ .script (.inl rfl) (by rw [hwf.blake_len]; omega) ht hd,
        .inr (.inr ⟨hk, hh, rfl⟩)⟩

end Ergo
