import Verif.Proof.Pieces
import Verif.Props.Arith
import Verif.Model.Input
/-!
# The amount accounting follows the balances of the description
-/
namespace Ergo
open Spec

/-! ## Token table search -/

theorem tableFind_some {t : List Bytes} {id : Bytes} {i : Nat} (h : tableFind t id = some i) :
    t[i]? = some id ∧ ∀ j < i, t[j]? ≠ some id := by
  unfold tableFind at h
  rw [List.findIdx?_eq_some_iff_getElem] at h
  obtain ⟨hlt, h1, h2⟩ := h
  refine ⟨?_, ?_⟩
  · rw [List.getElem?_eq_getElem hlt]; simpa using h1
  · intro j hj he
    have hjl : j < t.length := by omega
    rw [List.getElem?_eq_getElem hjl] at he
    have := h2 j hj
    simp only [Option.some.injEq] at he
    simp [he] at this

theorem tableFind_lt {t : List Bytes} {id : Bytes} {i : Nat} (h : tableFind t id = some i) :
    i < t.length := by
  have := (tableFind_some h).1
  by_contra hc
  rw [List.getElem?_eq_none (by omega)] at this
  simp at this

theorem tableFind_none {t : List Bytes} {id : Bytes} : tableFind t id = none ↔ id ∉ t := by
  unfold tableFind
  rw [List.findIdx?_eq_none_iff]
  constructor
  · intro h hm
    have := h id hm
    simp at this
  · intro h x hx
    simp only [beq_eq_false_iff_ne, ne_eq]
    rintro rfl; exact h hx

theorem tableFind_mem {t : List Bytes} {id : Bytes} (h : id ∈ t) : ∃ i, tableFind t id = some i := by
  cases hf : tableFind t id with
  | none => exact absurd h (tableFind_none.1 hf)
  | some i => exact ⟨i, rfl⟩

theorem tableFind_append {t e : List Bytes} {id : Bytes} :
    tableFind (t ++ e) id = (tableFind t id).or ((tableFind e id).map (· + t.length)) := by
  unfold tableFind
  exact List.findIdx?_append

theorem tableFind_inj {t : List Bytes} {a b : Bytes} {i : Nat} (h1 : tableFind t a = some i)
    (h2 : tableFind t b = some i) : a = b := by
  have e1 := (tableFind_some h1).1
  have e2 := (tableFind_some h2).1
  rw [e1] at e2; simpa using e2

theorem tableFind_new {t : List Bytes} {id : Bytes} (h : id ∉ t) :
    tableFind (t ++ [id]) id = some t.length := by
  rw [tableFind_append, tableFind_none.2 h]
  simp [tableFind]

theorem tableFind_other {t : List Bytes} {id b : Bytes} (h : b ≠ id) :
    tableFind (t ++ [id]) b = tableFind t b := by
  rw [tableFind_append]
  have : tableFind [id] b = none := by
    rw [tableFind_none]; simp [h]
  rw [this]; simp

/-! ## Accounting -/

/-- The accounting matches: value, fee, change, and token sums of inputs and outputs; `base` is the
token table sent by the host. -/
structure AmtRel (a : Amounts) (base : List Bytes) (vin vch vfee : Nat) (tin tout : Bytes → Nat) :
    Prop where
  len : a.tokens.length = 20
  tlen : a.table.length ≤ 20
  ids : ∀ id ∈ a.table, id.length = 32
  pre : base <+: a.table
  value : a.value.toNat + vch + vfee = vin
  fee : a.fee.toNat = vfee
  bal : ∀ id i, tableFind a.table id = some i →
    (a.tokens.getD i 0).toInt = (tin id : Int) - (tout id : Int)
  zero : ∀ i, (∀ id, tableFind a.table id ≠ some i) → a.tokens.getD i 0 = 0
  tin0 : ∀ id, id ∉ a.table → tin id = 0
  tout0 : ∀ id, id ∉ a.table → tout id = 0

theorem AmtRel.empty : AmtRel .zero [] 0 0 0 (fun _ => 0) (fun _ => 0) where
  len := rfl
  tlen := by simp [Amounts.zero]
  ids := by simp [Amounts.zero]
  pre := by simp [Amounts.zero]
  value := rfl
  fee := rfl
  bal := by simp [Amounts.zero, tableFind]
  zero := by
    intro i _
    simp only [Amounts.zero]
    by_cases h : i < 20
    · rw [List.getD_eq_getElem?_getD, List.getElem?_eq_getElem (by simp [tokenMax]; exact h)]; simp
    · rw [List.getD_eq_getElem?_getD, List.getElem?_eq_none (by simp [tokenMax]; omega)]; rfl
  tin0 := by simp
  tout0 := by simp

variable {a a' : Amounts} {base : List Bytes} {vin vch vfee : Nat} {tin tout : Bytes → Nat}

theorem checkedAddU64_some {l r s : UInt64} (h : checkedAddU64 l r = some s) :
    s.toNat = l.toNat + r.toNat := by
  have := C05_add_u64 l r
  rw [h] at this
  split at this
  · simpa using this
  · simp at this

theorem checkedSubU64_some {l r s : UInt64} (h : checkedSubU64 l r = some s) :
    s.toNat + r.toNat = l.toNat := by
  have := C05_sub_u64 l r
  rw [h] at this
  split at this
  · simp only [Option.map_some, Option.some.injEq] at this; omega
  · simp at this

theorem checkedAddI64_some {l s : Int64} {r : UInt64} (h : checkedAddI64 l r = some s) :
    s.toInt = l.toInt + r.toNat := by
  have := C05_add_i64 l r
  rw [h] at this
  split at this
  · simpa using this
  · simp at this

theorem checkedSubI64_some {l s : Int64} {r : UInt64} (h : checkedSubI64 l r = some s) :
    s.toInt = l.toInt - r.toNat := by
  have := C05_sub_i64 l r
  rw [h] at this
  split at this
  · simpa using this
  · simp at this

theorem getD_set_self {β : Type} (l : List β) {i : Nat} (v d : β) (h : i < l.length) :
    (l.set i v).getD i d = v := by
  rw [List.getD_eq_getElem?_getD, List.getElem?_eq_getElem (by simpa using h)]; simp

theorem getD_set_ne {β : Type} (l : List β) {i j : Nat} (v d : β) (h : i ≠ j) :
    (l.set i v).getD j d = l.getD j d := by
  simp only [List.getD_eq_getElem?_getD]
  rw [List.getElem?_set_ne h]

theorem AmtRel.addInput (h : AmtRel a base vin vch vfee tin tout) {v : UInt64}
    (hs : a.addInput v = some a') : AmtRel a' base (vin + v.toNat) vch vfee tin tout := by
  unfold Amounts.addInput at hs
  split at hs
  · simp at hs
  · rename_i s hc
    simp only [Option.some.injEq] at hs
    subst hs
    have := checkedAddU64_some hc
    have hv := h.value
    refine ⟨h.len, h.tlen, h.ids, h.pre, ?_, h.fee, h.bal, h.zero, h.tin0, h.tout0⟩
    show s.toNat + vch + vfee = vin + v.toNat
    omega

/-- Adding `v` to the balance at an existing entry. -/
theorem AmtRel.setEntry (h : AmtRel a base vin vch vfee tin tout) {id : Bytes} {i : Nat}
    {s : Int64} (hf : tableFind a.table id = some i) {tin' tout' : Bytes → Nat}
    (hb : s.toInt = (tin' id : Int) - (tout' id : Int))
    (ho : ∀ j, j ≠ id → tin' j = tin j ∧ tout' j = tout j) :
    AmtRel { a with tokens := a.tokens.set i s } base vin vch vfee tin' tout' where
  len := by simp [h.len]
  tlen := h.tlen
  ids := h.ids
  pre := h.pre
  value := h.value
  fee := h.fee
  bal := by
    intro b j hj
    simp only at hj ⊢
    by_cases hbi : b = id
    · subst hbi
      rw [hf] at hj
      simp only [Option.some.injEq] at hj
      subst hj
      rw [getD_set_self _ _ _ (by have := tableFind_lt hf; have := h.tlen; have := h.len; omega)]
      exact hb
    · have hne : i ≠ j := by
        rintro rfl; exact hbi (tableFind_inj hj hf)
      rw [getD_set_ne _ _ _ hne, h.bal b j hj, (ho b hbi).1, (ho b hbi).2]
  zero := by
    intro j hj
    simp only at hj ⊢
    have hne : i ≠ j := by
      rintro rfl; exact hj id hf
    rw [getD_set_ne _ _ _ hne]
    exact h.zero j hj
  tin0 := by
    intro b hb'
    simp only at hb'
    have hne : b ≠ id := by
      rintro rfl
      rw [tableFind_none.2 hb'] at hf; simp at hf
    rw [(ho b hne).1]; exact h.tin0 b hb'
  tout0 := by
    intro b hb'
    simp only at hb'
    have hne : b ≠ id := by
      rintro rfl
      rw [tableFind_none.2 hb'] at hf; simp at hf
    rw [(ho b hne).2]; exact h.tout0 b hb'

theorem AmtRel.addInputToken (h : AmtRel a base vin vch vfee tin tout) {id : Bytes} {v : UInt64}
    (hid : id.length = 32) {r : Res InputErr} (hs : a.addInputToken id v = (a', r)) (hp : r.passes) :
    r = .ok ∧ AmtRel a' base vin vch vfee (fun j => tin j + if j = id then v.toNat else 0) tout := by
  unfold Amounts.addInputToken at hs
  split at hs
  · rename_i i hf
    split at hs
    · simp only [Prod.mk.injEq] at hs
      obtain ⟨_, rfl⟩ := hs
      simp [Res.passes] at hp
    split at hs
    · simp only [Prod.mk.injEq] at hs
      obtain ⟨_, rfl⟩ := hs
      simp [Res.passes] at hp
    · rename_i s hc
      simp only [Prod.mk.injEq] at hs
      obtain ⟨rfl, rfl⟩ := hs
      refine ⟨rfl, h.setEntry hf ?_ ?_⟩
      · rw [checkedAddI64_some hc, h.bal id i hf]; simp; ring
      · intro j hj; simp [hj]
  · rename_i hf
    rw [tableFind_none] at hf
    split at hs
    · simp only [Prod.mk.injEq] at hs
      obtain ⟨_, rfl⟩ := hs
      simp [Res.passes] at hp
    · rename_i t i ht
      unfold tableAddToken at ht
      split at ht
      · simp at ht
      rename_i hlen
      simp only [Option.some.injEq, Prod.mk.injEq] at ht
      obtain ⟨rfl, rfl⟩ := ht
      simp only [tokenMax, not_le, ge_iff_le] at hlen
      split at hs
      · simp only [Prod.mk.injEq] at hs
        obtain ⟨_, rfl⟩ := hs
        simp [Res.passes] at hp
      · rename_i s hc
        simp only [Prod.mk.injEq] at hs
        obtain ⟨rfl, rfl⟩ := hs
        have hsv := checkedAddI64_some hc
        refine ⟨rfl, ?_⟩
        exact
          { len := by simp [h.len]
            tlen := by simp; omega
            ids := by
              intro b hb
              simp only [List.mem_append, List.mem_singleton] at hb
              rcases hb with hb | rfl
              · exact h.ids b hb
              · exact hid
            pre := h.pre.trans (List.prefix_append _ _)
            value := h.value
            fee := h.fee
            bal := by
              intro b j hj
              simp only at hj ⊢
              by_cases hb : b = id
              · subst hb
                rw [tableFind_new hf] at hj
                simp only [Option.some.injEq] at hj
                subst hj
                rw [getD_set_self _ _ _ (by rw [h.len]; exact hlen), hsv]
                simp [h.tin0 b hf, h.tout0 b hf]
              · rw [tableFind_other hb] at hj
                have := tableFind_lt hj
                rw [getD_set_ne _ _ _ (by omega), h.bal b j hj]
                simp [hb]
            zero := by
              intro j hj
              simp only at hj ⊢
              have hne : a.table.length ≠ j := by
                rintro rfl; exact hj id (tableFind_new hf)
              rw [getD_set_ne _ _ _ hne]
              refine h.zero j ?_
              intro b hb
              refine hj b ?_
              rw [tableFind_append, hb]; rfl
            tin0 := by
              intro b hb
              simp only [List.mem_append, List.mem_singleton, not_or] at hb
              simp [hb.2, h.tin0 b hb.1]
            tout0 := by
              intro b hb
              simp only [List.mem_append, List.mem_singleton, not_or] at hb
              exact h.tout0 b hb.1 }

theorem AmtRel.addInputToken_noub (h : AmtRel a base vin vch vfee tin (fun _ => 0)) (id : Bytes)
    (v : UInt64) : (a.addInputToken id v).2 ≠ .ub := by
  unfold Amounts.addInputToken
  split
  · rename_i i hf
    have hb := h.bal id i hf
    rw [if_neg]
    · split <;> simp
    · intro he
      rw [he] at hb
      have : Int64.minValue.toInt = -9223372036854775808 := by decide +kernel
      rw [this] at hb
      simp at hb
  · split
    · simp
    · split <;> simp

theorem AmtRel.addOutput (h : AmtRel a base vin vch vfee tin tout) {ty : BoxType} {v : UInt64}
    {r : Res BoxErr} (hs : a.addOutput ty v = (a', r)) (hp : r.passes) :
    r = .ok ∧ AmtRel a' base vin (vch + if ty = .change then v.toNat else 0)
      (vfee + if ty = .fee then v.toNat else 0) tin tout := by
  unfold Amounts.addOutput at hs
  cases ty with
  | change =>
    simp only at hs
    split at hs
    · simp only [Prod.mk.injEq] at hs
      obtain ⟨_, rfl⟩ := hs
      simp [Res.passes] at hp
    · rename_i s hc
      simp only [Prod.mk.injEq] at hs
      obtain ⟨rfl, rfl⟩ := hs
      have := checkedSubU64_some hc
      have hv := h.value
      exact ⟨rfl, { h with
        value := by simp only [if_true]; simp; omega
        fee := by simpa using h.fee }⟩
  | fee =>
    simp only at hs
    split at hs
    · simp only [Prod.mk.injEq] at hs
      obtain ⟨_, rfl⟩ := hs
      simp [Res.passes] at hp
    · rename_i s hc
      split at hs
      · simp only [Prod.mk.injEq] at hs
        obtain ⟨_, rfl⟩ := hs
        simp [Res.passes] at hp
      · rename_i f hf
        simp only [Prod.mk.injEq] at hs
        obtain ⟨rfl, rfl⟩ := hs
        have h1 := checkedSubU64_some hc
        have h2 := checkedAddU64_some hf
        have hv := h.value
        have hfe := h.fee
        exact ⟨rfl, { h with
          value := by simp only [if_true]; simp; omega
          fee := by simp only [if_true]; omega }⟩
  | tree =>
    simp only [Prod.mk.injEq] at hs
    obtain ⟨rfl, rfl⟩ := hs
    exact ⟨rfl, { h with value := by simpa using h.value, fee := by simpa using h.fee }⟩

theorem addOutput_noub (a : Amounts) (ty : BoxType) (v : UInt64) : (a.addOutput ty v).2 ≠ .ub := by
  unfold Amounts.addOutput
  cases ty <;> simp only
  · split
    · simp
    · split <;> simp
  · split <;> simp
  · simp

theorem AmtRel.addOutputToken (h : AmtRel a base vin vch vfee tin tout) {id : Bytes} {v : UInt64}
    {r : Res BoxErr} (hs : a.addOutputToken id v = (a', r)) (hp : r.passes) :
    r = .ok ∧ a'.table = a.table ∧
      AmtRel a' base vin vch vfee tin (fun j => tout j + if j = id then v.toNat else 0) := by
  unfold Amounts.addOutputToken at hs
  split at hs
  · simp only [Prod.mk.injEq] at hs
    obtain ⟨_, rfl⟩ := hs
    simp [Res.passes] at hp
  · rename_i i hf
    split at hs
    · simp only [Prod.mk.injEq] at hs
      obtain ⟨_, rfl⟩ := hs
      simp [Res.passes] at hp
    · rename_i s hc
      simp only [Prod.mk.injEq] at hs
      obtain ⟨rfl, rfl⟩ := hs
      refine ⟨rfl, rfl, h.setEntry hf ?_ ?_⟩
      · rw [checkedSubI64_some hc, h.bal id i hf]; simp; ring
      · intro j hj; simp [hj]

theorem addOutputToken_noub (a : Amounts) (id : Bytes) (v : UInt64) :
    (a.addOutputToken id v).2 ≠ .ub := by
  unfold Amounts.addOutputToken
  split
  · simp
  · split <;> simp

/-! ## Token entries of input frames -/

/-- Sum of the amounts of a token in a list of entries. -/
def sumOf (l : List (Bytes × Nat)) (id : Bytes) : Nat := ((l.filter (·.1 = id)).map (·.2)).sum

theorem sumOf_append (l m : List (Bytes × Nat)) (id : Bytes) :
    sumOf (l ++ m) id = sumOf l id + sumOf m id := by
  simp [sumOf]

theorem sumOf_cons (t : Bytes × Nat) (l : List (Bytes × Nat)) (id : Bytes) :
    sumOf (t :: l) id = (if id = t.1 then t.2 else 0) + sumOf l id := by
  unfold sumOf
  by_cases h : t.1 = id
  · simp [h]
  · have h' : ¬ id = t.1 := fun e => h e.symm
    simp [h, h']

theorem inputTokensLoop_passes : ∀ (n : Nat) (input : Bytes) (x x' : InputSt) (r : Res InputErr)
    (tin : Bytes → Nat), AmtRel x.a base vin vch vfee tin tout →
    InputSt.tokensLoop n input x = (x', r) → r.passes → x'.c.state ≠ .error →
    r = .ok ∧ x'.c = x.c ∧ x'.h = x.h ∧ (∃ k, input.length = k * 40) ∧
      AmtRel x'.a base vin vch vfee
        (fun j => tin j + sumOf ((pieces 40 input).map tok40) j) tout := by
  intro n
  induction n with
  | zero =>
    intro input x x' r tin hA h hp _
    cases input with
    | nil =>
      simp only [InputSt.tokensLoop, Prod.mk.injEq] at h
      obtain ⟨rfl, rfl⟩ := h
      exact ⟨rfl, rfl, rfl, ⟨0, by simp⟩, by simpa [pieces_nil, sumOf] using hA⟩
    | cons b bs =>
      simp only [InputSt.tokensLoop, Prod.mk.injEq] at h
      obtain ⟨rfl, rfl⟩ := h
      simp [Res.passes] at hp
  | succ n ih =>
    intro input x x' r tin hA h hp hne
    cases input with
    | nil =>
      simp only [InputSt.tokensLoop, Prod.mk.injEq] at h
      obtain ⟨rfl, rfl⟩ := h
      exact ⟨rfl, rfl, rfl, ⟨0, by simp⟩, by simpa [pieces_nil, sumOf] using hA⟩
    | cons b bs =>
      simp only [InputSt.tokensLoop] at h
      split at h
      · simp only [InputSt.fail, Prod.mk.injEq] at h
        obtain ⟨rfl, rfl⟩ := h
        simp [Res.passes] at hp
      rename_i id rest hb
      split at h
      · simp only [InputSt.fail, Prod.mk.injEq] at h
        obtain ⟨rfl, rfl⟩ := h
        simp [Res.passes] at hp
      rename_i v rest' hv
      obtain ⟨e, hl⟩ := bufBytes_some hb
      have hl : id.length = 32 := hl
      have hr := bufU64_some hv
      have hal : (id ++ writeU64be v).length = 40 := by
        simp [hl, length_writeU64]
      have ha : b :: bs = (id ++ writeU64be v) ++ rest' := by rw [e, hr]; simp
      have htok : tok40 (id ++ writeU64be v) = (id, v.toNat) := by
        simp only [tok40]
        rw [← hl]; simp [be_writeU64]
      split at h
      · rename_i a1 hadd
        obtain ⟨_, hA'⟩ := hA.addInputToken hl hadd rfl
        obtain ⟨e1, e2, e3, ⟨k, e4⟩, e5⟩ := ih _ _ _ _ _ hA' h hp hne
        refine ⟨e1, e2, e3, ⟨k + 1, ?_⟩, ?_⟩
        · rw [ha, List.length_append, hal, e4, Nat.succ_mul]; omega
        · rw [ha, pieces_append _ hal (by omega)]
          convert e5 using 2
          simp only [List.map_cons, htok, sumOf_cons]
          omega
      · simp only [Prod.mk.injEq] at h
        obtain ⟨rfl, rfl⟩ := h
        simp at hne
      · simp only [InputSt.fail, Prod.mk.injEq] at h
        obtain ⟨rfl, rfl⟩ := h
        simp [Res.passes] at hp
      · simp only [Prod.mk.injEq] at h
        obtain ⟨rfl, rfl⟩ := h
        simp [Res.passes] at hp

theorem inputTokensLoop_noub : ∀ (n : Nat) (input : Bytes) (x : InputSt)
    (tin : Bytes → Nat), AmtRel x.a base vin vch vfee tin (fun _ => 0) → input.length ≤ n →
    (InputSt.tokensLoop n input x).2 ≠ .ub := by
  intro n
  induction n with
  | zero =>
    intro input x tin hA hn
    have : input = [] := by simpa using hn
    subst this
    simp [InputSt.tokensLoop]
  | succ n ih =>
    intro input x tin hA hn
    cases input with
    | nil => simp [InputSt.tokensLoop]
    | cons b bs =>
      simp only [InputSt.tokensLoop]
      split
      · simp [InputSt.fail]
      rename_i id rest hb
      split
      · simp [InputSt.fail]
      rename_i v rest' hv
      obtain ⟨e, hl⟩ := bufBytes_some hb
      have hl : id.length = 32 := hl
      have hr := bufU64_some hv
      have hlen : rest'.length ≤ n := by
        have : (b :: bs).length = 32 + 8 + rest'.length := by
          rw [e, hr]; simp [hl, length_writeU64]; omega
        omega
      split
      · rename_i a1 hadd
        obtain ⟨_, hA'⟩ := hA.addInputToken hl hadd rfl
        exact ih _ _ _ hA' hlen
      · simp
      · simp [InputSt.fail]
      · rename_i a1 hadd
        have := hA.addInputToken_noub id v
        rw [hadd] at this
        exact absurd rfl this

end Ergo
