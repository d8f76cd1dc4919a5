import Verif.Proof.FullSim
import Mathlib.Tactic.Tauto
/-!
# Inputs and data inputs of the transaction serializer
-/
namespace Ergo
open Spec

variable {keyOf : List UInt32 → Bytes} {h0 : Bytes} {x x' : FullSt} {D : TxDesc} {r : Res FullErr}

theorem dataInputsFinished_rel (h1 : 0 < D.nIn) (h2 : 0 < D.nOut) (h3 : D.nTok ≤ 20)
    (h4 : x.c.distinct.toNat = D.nTok)
    (h5 : AmtRel x.s.a D.table D.sumIn (D.sumOut Script.isChange) (D.sumOut Script.isFee)
      D.tokIn D.tokOut)
    (ht : D.table.length = D.nTok) (ho : D.outputs = []) (hi : ∀ i ∈ D.inputs, i.complete)
    (hn : D.inputs.length = D.nIn) (hd : D.dataInputs.length = D.nData)
    (hno : x.c.outputs.toNat = D.nOut)
    (hh : x.h = h0 ++ (vlq D.nIn ++ D.inputs.reverse.flatMap inputBytes ++ vlq D.nData ++
        D.dataInputs.flatten)) (h : x.dataInputsFinished = (x', r)) :
    r = .ok ∧ x'.s = x.s ∧ FullRel keyOf h0 x' D := by
  simp only [FullSt.dataInputsFinished, Prod.mk.injEq] at h
  obtain ⟨rfl, rfl⟩ := h
  refine ⟨rfl, rfl, h1, h2, h3, h4, h5, ?_⟩
  simp only [FullPhase, OutPhase, ho, List.countP_nil]
  refine ⟨by rw [hno]; exact h2, ht, hi, hn, hd, by simpa using hno, ?_⟩
  rw [hh, tableBytes_eq h5.pre (by rw [h4, ht]), gvePutU16_eq, hno, ht]
  simp [preBytes]

theorem inputFinished_rel (h1 : 0 < D.nIn) (h2 : 0 < D.nOut) (h3 : D.nTok ≤ 20)
    (h4 : x.c.distinct.toNat = D.nTok)
    (h5 : AmtRel x.s.a D.table D.sumIn (D.sumOut Script.isChange) (D.sumOut Script.isFee)
      D.tokIn D.tokOut)
    (hst : x.c.state = .inputsStarted) {ic : InputCtx} (hsub : x.c.sub = .input ic)
    (hic : ic.state = .finished)
    (ht : D.table.length = D.nTok) (hdi : D.dataInputs = []) (ho : D.outputs = [])
    (hd : x.c.dataInputs.toNat = D.nData) (hno : x.c.outputs.toNat = D.nOut)
    (hi : ∀ i ∈ D.inputs, i.complete) (hn : D.inputs.length + x.c.inputs.toNat = D.nIn + 1)
    (hpos : 0 < x.c.inputs.toNat)
    (hh : x.h = h0 ++ (vlq D.nIn ++ D.inputs.reverse.flatMap inputBytes))
    (h : x.inputFinished = (x', r)) :
    r = .ok ∧ x'.s = x.s ∧ FullRel keyOf h0 x' D := by
  unfold FullSt.inputFinished at h
  simp only at h
  have hsub1 : (x.c.inputs - 1).toNat = x.c.inputs.toNat - 1 := u16_sub_ofNat _ (k := 1) hpos
  split at h
  · rename_i hz
    have hz' := u16_eq_zero.1 hz
    split at h
    · rename_i hz2
      have hz2' := u16_eq_zero.1 hz2
      obtain ⟨g1, g2, g3⟩ := dataInputsFinished_rel (keyOf := keyOf) (h0 := h0) h1 h2 h3
        (by exact h4) (by exact h5) ht ho hi (by omega)
        (by rw [hdi]; simp; omega) (by exact hno) (by simp [hh, hdi, gvePutU16_eq, hd]) h
      exact ⟨g1, g2, g3⟩
    · rename_i hz2
      have hz2' := u16_ne_zero.1 hz2
      simp only [Prod.mk.injEq] at h
      obtain ⟨rfl, rfl⟩ := h
      refine ⟨rfl, rfl, h1, h2, h3, h4, h5, ?_⟩
      simp only [FullPhase]
      refine ⟨ht, ho, hi, by omega, by rw [hdi]; simpa using hd, hz2', hno, ?_⟩
      simp [hh, hdi, gvePutU16_eq, hd]
  · rename_i hz
    have hz' := u16_ne_zero.1 hz
    simp only [Prod.mk.injEq] at h
    obtain ⟨rfl, rfl⟩ := h
    refine ⟨rfl, rfl, h1, h2, h3, h4, h5, ?_⟩
    simp only [FullPhase, hst]
    refine ⟨ht, hdi, ho, hd, hno, ic, hsub, ?_⟩
    simp only [InPhase, hic]
    exact ⟨hi, by omega, hz', hh⟩

theorem tokIn_cons (i : InDesc) (is : List InDesc) (id : Bytes) (h : D.inputs = i :: is) :
    D.tokIn id = sumOf i.tokens id + TxDesc.tokIn { D with inputs := is } id := by
  simp [TxDesc.tokIn, h, sumOf]

theorem sumIn_cons (i : InDesc) (is : List InDesc) (h : D.inputs = i :: is) :
    D.sumIn = i.value + TxDesc.sumIn { D with inputs := is } := by
  simp [TxDesc.sumIn, h]

theorem addInput_full {boxId : Bytes} {frames : UInt8} {ext : UInt32} {v : UInt64} {a : Amounts}
    (hR : FullRel keyOf h0 x D) (h : x.addInput boxId frames ext = (x', r)) (hp : r.passes)
    (ha : x'.s.a.addInput v = some a) :
    x'.s = x.s ∧ FullRel keyOf h0 { x' with s := { x'.s with a := a } }
      { D with inputs := ⟨boxId, v.toNat, frames.toNat, 0, [], ext.toNat, []⟩ :: D.inputs } := by
  unfold FullSt.addInput at h
  split at h
  · exact fullFail_passes h hp
  rename_i hst
  simp only [ne_eq, Decidable.not_not] at hst
  have hph := hR.phase
  unfold FullPhase at hph
  rw [hst] at hph
  simp only at hph
  obtain ⟨ht, hdi, ho, hd, hno, ic, hsub, hin⟩ := hph
  rw [hsub] at h
  simp only at h
  split at h
  · exact fullFail_passes h hp
  rename_i hic
  simp only [ne_eq, Decidable.not_not] at hic
  split at h
  · exact fullFail_passes h hp
  simp only [InPhase, hic] at hin
  obtain ⟨hc, hn, hpos, hh⟩ := hin
  obtain ⟨c2, q2, hq⟩ : ∃ c2 q2, inputInit boxId frames ext = (c2, q2) := ⟨_, _, rfl⟩
  rw [hq] at h
  unfold inputInit at hq
  split at hq
  · simp only [Prod.mk.injEq] at hq
    obtain ⟨_, rfl⟩ := hq
    exact fullFail_passes h hp
  simp only [Prod.mk.injEq] at hq
  obtain ⟨rfl, rfl⟩ := hq
  simp only [Prod.mk.injEq] at h
  obtain ⟨rfl, rfl⟩ := h
  refine ⟨rfl, hR.nIn, hR.nOut, hR.nTok, hR.distinct, ?_, ?_⟩
  · have hA := hR.amt.addInput ha
    rw [show TxDesc.sumIn { D with
        inputs := ⟨boxId, v.toNat, frames.toNat, 0, [], ext.toNat, []⟩ :: D.inputs } =
        D.sumIn + v.toNat by simp [TxDesc.sumIn]; omega]
    have e : TxDesc.tokIn { D with
        inputs := ⟨boxId, v.toNat, frames.toNat, 0, [], ext.toNat, []⟩ :: D.inputs } =
        D.tokIn := by
      funext j; simp [TxDesc.tokIn]
    rw [e]
    exact hA
  · have hat : a.table = x.s.a.table := by
      unfold Amounts.addInput at ha
      split at ha
      · simp at ha
      · simp only [Option.some.injEq] at ha
        rw [← ha]
    simp only [FullPhase, hst]
    refine ⟨ht, hdi, ho, hd, hno, _, rfl, ?_⟩
    simp only [InPhase]
    exact ⟨_, _, rfl, hc, hn, hpos, rfl, rfl, rfl, rfl, rfl, .inl rfl, hh⟩

theorem addInputToken_nomore (a : Amounts) (id : Bytes) (v : UInt64) :
    (a.addInputToken id v).2 ≠ .more := by
  unfold Amounts.addInputToken
  split
  · split
    · simp
    · split <;> simp
  · split
    · simp
    · split <;> simp

theorem inputLoop_ok : ∀ (n : Nat) (input : Bytes) (x x' : InputSt) (r : Res InputErr),
    InputSt.tokensLoop n input x = (x', r) → r.passes → r = .ok ∧ x'.c = x.c := by
  intro n
  induction n with
  | zero =>
    intro input x x' r h hp
    cases input with
    | nil =>
      simp only [InputSt.tokensLoop, Prod.mk.injEq] at h
      obtain ⟨rfl, rfl⟩ := h
      exact ⟨rfl, rfl⟩
    | cons b bs =>
      simp only [InputSt.tokensLoop, Prod.mk.injEq] at h
      obtain ⟨_, rfl⟩ := h
      simp [Res.passes] at hp
  | succ n ih =>
    intro input x x' r h hp
    cases input with
    | nil =>
      simp only [InputSt.tokensLoop, Prod.mk.injEq] at h
      obtain ⟨rfl, rfl⟩ := h
      exact ⟨rfl, rfl⟩
    | cons b bs =>
      simp only [InputSt.tokensLoop] at h
      split at h
      · simp only [InputSt.fail, Prod.mk.injEq] at h
        obtain ⟨_, rfl⟩ := h
        simp [Res.passes] at hp
      split at h
      · simp only [InputSt.fail, Prod.mk.injEq] at h
        obtain ⟨_, rfl⟩ := h
        simp [Res.passes] at hp
      split at h
      · obtain ⟨g1, g2⟩ := ih _ _ _ _ h hp
        exact ⟨g1, g2⟩
      · rename_i a hm
        exact absurd (congrArg Prod.snd hm) (addInputToken_nomore x.a _ _)
      · simp only [InputSt.fail, Prod.mk.injEq] at h
        obtain ⟨_, rfl⟩ := h
        simp [Res.passes] at hp
      · simp only [Prod.mk.injEq] at h
        obtain ⟨_, rfl⟩ := h
        simp [Res.passes] at hp

/-- The table after the ids were entered. -/
def grow (t ids : List Bytes) : List Bytes :=
  ids.foldl (fun t id => if id ∈ t then t else t ++ [id]) t

theorem grow_cons (t ids : List Bytes) (id : Bytes) :
    grow t (id :: ids) = grow (if id ∈ t then t else t ++ [id]) ids := rfl

/-- The token table grew by the listed ids that were not in it, each once, in this order. -/
def TableGrows (t ids t' : List Bytes) : Prop := t' = grow t ids

theorem TableGrows.refl (t : List Bytes) : TableGrows t [] t := rfl

theorem TableGrows.trans {t i1 t1 i2 t2 : List Bytes} (h1 : TableGrows t i1 t1)
    (h2 : TableGrows t1 i2 t2) : TableGrows t (i1 ++ i2) t2 := by
  unfold TableGrows at *
  rw [h2, h1]
  unfold grow
  rw [List.foldl_append]

theorem TableGrows.cons {t ids t' : List Bytes} {id : Bytes}
    (h : TableGrows (if id ∈ t then t else t ++ [id]) ids t') : TableGrows t (id :: ids) t' := h

theorem grow_set : ∀ (ids t : List Bytes),
    ∃ e, grow t ids = t ++ e ∧ e.Nodup ∧ ∀ id, id ∈ e ↔ id ∉ t ∧ id ∈ ids := by
  intro ids
  induction ids with
  | nil => intro t; exact ⟨[], by simp [grow]⟩
  | cons id ids ih =>
    intro t
    rw [grow_cons]
    obtain ⟨e, h1, h2, h3⟩ := ih (if id ∈ t then t else t ++ [id])
    rw [h1]
    by_cases hm : id ∈ t
    · rw [if_pos hm] at h3 ⊢
      refine ⟨e, rfl, h2, ?_⟩
      intro j
      rw [h3, List.mem_cons]
      constructor
      · rintro ⟨a, b⟩; exact ⟨a, .inr b⟩
      · rintro ⟨a, b | b⟩
        · subst b; exact absurd hm a
        · exact ⟨a, b⟩
    · rw [if_neg hm] at h3 ⊢
      refine ⟨id :: e, by simp, ?_, ?_⟩
      · rw [List.nodup_cons]
        refine ⟨?_, h2⟩
        intro hc
        have := ((h3 id).1 hc).1
        simp at this
      · intro j
        rw [List.mem_cons, List.mem_cons, h3]
        simp only [List.mem_append, List.mem_singleton, not_or]
        constructor
        · rintro (rfl | ⟨⟨a, _⟩, b⟩)
          · exact ⟨hm, .inl rfl⟩
          · exact ⟨a, .inr b⟩
        · rintro ⟨a, b | b⟩
          · exact .inl b
          · by_cases e : j = id
            · exact .inl e
            · exact .inr ⟨⟨a, e⟩, b⟩

theorem addInputToken_table {a a' : Amounts} {id : Bytes} {v : UInt64} {q : Res InputErr}
    (h : a.addInputToken id v = (a', q)) (hq : q.passes) :
    a'.table = if id ∈ a.table then a.table else a.table ++ [id] := by
  unfold Amounts.addInputToken at h
  split at h
  · rename_i i hf
    have hm : id ∈ a.table := by
      by_contra hc
      rw [tableFind_none.2 hc] at hf; simp at hf
    rw [if_pos hm]
    split at h
    · simp only [Prod.mk.injEq] at h
      rw [← h.1]
    split at h <;> simp only [Prod.mk.injEq] at h <;> rw [← h.1]
  · rename_i hf
    rw [tableFind_none] at hf
    rw [if_neg hf]
    split at h
    · simp only [Prod.mk.injEq] at h
      obtain ⟨_, rfl⟩ := h
      simp [Res.passes] at hq
    · rename_i t i ht
      unfold tableAddToken at ht
      split at ht
      · simp at ht
      simp only [Option.some.injEq, Prod.mk.injEq] at ht
      split at h <;> simp only [Prod.mk.injEq] at h <;> rw [← h.1] <;> exact ht.1.symm

theorem inputLoop_table : ∀ (n : Nat) (input : Bytes) (x x' : InputSt) (r : Res InputErr),
    InputSt.tokensLoop n input x = (x', r) → r.passes →
    TableGrows x.a.table ((pieces 40 input).map (fun b => (tok40 b).1)) x'.a.table := by
  intro n
  induction n with
  | zero =>
    intro input x x' r h hp
    cases input with
    | nil =>
      simp only [InputSt.tokensLoop, Prod.mk.injEq] at h
      obtain ⟨rfl, rfl⟩ := h
      simpa [pieces_nil] using TableGrows.refl _
    | cons b bs =>
      simp only [InputSt.tokensLoop, Prod.mk.injEq] at h
      obtain ⟨_, rfl⟩ := h
      simp [Res.passes] at hp
  | succ n ih =>
    intro input x x' r h hp
    cases input with
    | nil =>
      simp only [InputSt.tokensLoop, Prod.mk.injEq] at h
      obtain ⟨rfl, rfl⟩ := h
      simpa [pieces_nil] using TableGrows.refl _
    | cons b bs =>
      simp only [InputSt.tokensLoop] at h
      split at h
      · simp only [InputSt.fail, Prod.mk.injEq] at h
        obtain ⟨_, rfl⟩ := h
        simp [Res.passes] at hp
      rename_i id rest hb
      split at h
      · simp only [InputSt.fail, Prod.mk.injEq] at h
        obtain ⟨_, rfl⟩ := h
        simp [Res.passes] at hp
      rename_i v rest' hv
      obtain ⟨e, hl⟩ := bufBytes_some hb
      have hl : id.length = 32 := hl
      have hr := bufU64_some hv
      have hal : (id ++ writeU64be v).length = 40 := by
        simp [hl, length_writeU64]
      have ha : b :: bs = (id ++ writeU64be v) ++ rest' := by rw [e, hr]; simp
      have htok : (tok40 (id ++ writeU64be v)).1 = id := by
        simp only [tok40]
        rw [← hl]; simp
      split at h
      · rename_i a hadd
        have g := ih _ _ _ _ h hp
        simp only [addInputToken_table hadd rfl] at g
        rw [ha, pieces_append _ hal (by omega), List.map_cons, htok]
        exact g.cons
      · rename_i a hm
        exact absurd (congrArg Prod.snd hm) (addInputToken_nomore x.a _ _)
      · simp only [InputSt.fail, Prod.mk.injEq] at h
        obtain ⟨_, rfl⟩ := h
        simp [Res.passes] at hp
      · simp only [Prod.mk.injEq] at h
        obtain ⟨_, rfl⟩ := h
        simp [Res.passes] at hp

theorem u8_add_one {a b : UInt8} (h : a < b) : (a + 1).toNat = a.toNat + 1 := by
  have h1 := UInt8.lt_iff_toNat_lt.1 h
  have h2 := b.toNat_lt
  rw [UInt8.toNat_add]
  show (_ + 1) % 256 = _
  omega

theorem addInputTokens_full {boxId tokens : Bytes} {index : UInt8}
    (hR : FullRel keyOf h0 x D) (h : x.addInputTokens boxId index tokens = (x', r))
    (hp : r.passes) :
    (∃ i is, D.inputs = i :: is ∧ i.boxId = boxId ∧ i.got = index.toNat ∧ index.toNat < i.frames) ∧
    x'.s.o = x.s.o ∧ (∃ k, tokens.length = k * 40) ∧
    TableGrows x.s.a.table ((pieces 40 tokens).map (fun b => (tok40 b).1)) x'.s.a.table ∧
    FullRel keyOf h0 x' (D.onInput (fun i =>
      { i with got := i.got + 1, tokens := i.tokens ++ (pieces 40 tokens).map tok40 })) := by
  unfold FullSt.addInputTokens at h
  split at h
  · exact fullFail_passes h hp
  rename_i hst
  simp only [ne_eq, Decidable.not_not] at hst
  have hph := hR.phase
  unfold FullPhase at hph
  rw [hst] at hph
  simp only at hph
  obtain ⟨ht, hdi, ho, hd, hno, ic, hsub, hin⟩ := hph
  rw [hsub] at h
  simp only at h
  obtain ⟨y, q, hy⟩ : ∃ y q, InputSt.addTokens ⟨ic, x.h, x.s.a⟩ boxId index tokens = (y, q) :=
    ⟨_, _, rfl⟩
  rw [hy] at h
  simp only at h
  have hqp : q.passes := by
    cases q with
    | ok => rfl
    | more => rfl
    | err e => exact fullFail_passes h hp
    | ub =>
      simp only [Prod.mk.injEq] at h
      obtain ⟨_, rfl⟩ := h
      simp [Res.passes] at hp
  have ifail : ∀ (z : InputSt) (e : InputErr), z.fail e = (y, q) → False := by
    intro z e he
    simp only [InputSt.fail, Prod.mk.injEq] at he
    obtain ⟨_, rfl⟩ := he
    simp [Res.passes] at hqp
  unfold InputSt.addTokens at hy
  simp only at hy
  split at hy
  · exact (ifail _ _ hy).elim
  rename_i his
  simp only [ne_eq, Decidable.not_not] at his
  split at hy
  · exact (ifail _ _ hy).elim
  rename_i hbox
  simp only [ne_eq, Decidable.not_not] at hbox
  split at hy
  · exact (ifail _ _ hy).elim
  rename_i hge
  split at hy
  · exact (ifail _ _ hy).elim
  rename_i hidx
  simp only [ne_eq, Decidable.not_not] at hidx
  obtain ⟨z, q2, hz⟩ : ∃ z q2, InputSt.tokensLoop tokens.length tokens ⟨ic, x.h, x.s.a⟩ = (z, q2) :=
    ⟨_, _, rfl⟩
  rw [hz] at hy
  have hq2 : q2 = .ok := by
    cases q2 with
    | ok => rfl
    | more => exact (inputLoop_ok _ _ _ _ _ hz rfl).1
    | err e =>
      simp only [Prod.mk.injEq] at hy
      obtain ⟨_, rfl⟩ := hy
      simp [Res.passes] at hqp
    | ub =>
      simp only [Prod.mk.injEq] at hy
      obtain ⟨_, rfl⟩ := hy
      simp [Res.passes] at hqp
  subst hq2
  obtain ⟨_, hzc⟩ := inputLoop_ok _ _ _ _ _ hz rfl
  simp only at hzc
  simp only [InPhase, his] at hin
  obtain ⟨i, is, hD, hc, hn, hpos, e1, e2, e3, e4, e5, _, hh⟩ := hin
  obtain ⟨_, _, hzh, hk, hA⟩ := inputTokensLoop_passes _ _ _ _ _ _ (by exact hR.amt) hz rfl
    (by rw [hzc, his]; decide)
  simp only at hzh
  have hgrow := inputLoop_table _ _ _ _ _ hz rfl
  simp only at hgrow
  have hlt : ic.framesProcessed < ic.framesCount := by
    rw [← hidx]
    simpa using hge
  have hadd := u8_add_one hlt
  have hlt' := UInt8.lt_iff_toNat_lt.1 hlt
  rw [hidx]
  refine ⟨⟨i, is, hD, by rw [e1, hbox], e3, by rw [e2]; exact hlt'⟩, ?_⟩
  have hD' : D.onInput (fun i =>
      { i with got := i.got + 1, tokens := i.tokens ++ (pieces 40 tokens).map tok40 }) =
      { D with inputs := { i with got := i.got + 1, tokens := i.tokens ++ (pieces 40 tokens).map tok40 } :: is } := by
    unfold TxDesc.onInput
    rw [hD]
  rw [hD']
  have hA' : AmtRel z.a D.table
      (TxDesc.sumIn { D with inputs := { i with got := i.got + 1, tokens := i.tokens ++ (pieces 40 tokens).map tok40 } :: is })
      (D.sumOut Script.isChange) (D.sumOut Script.isFee)
      (TxDesc.tokIn { D with inputs := { i with got := i.got + 1, tokens := i.tokens ++ (pieces 40 tokens).map tok40 } :: is })
      D.tokOut := by
    have s1 : TxDesc.sumIn { D with inputs := { i with got := i.got + 1, tokens := i.tokens ++ (pieces 40 tokens).map tok40 } :: is } = D.sumIn := by
      simp [TxDesc.sumIn, hD]
    have s2 : TxDesc.tokIn { D with inputs := { i with got := i.got + 1, tokens := i.tokens ++ (pieces 40 tokens).map tok40 } :: is } =
        fun j => D.tokIn j + sumOf ((pieces 40 tokens).map tok40) j := by
      funext j
      rw [tokIn_cons _ is j rfl, tokIn_cons _ is j hD]
      simp only [sumOf_append]
      omega
    rw [s1, s2]
    exact hA
  simp only [hzc, hzh] at hy
  split at hy
  · rename_i hlast
    have hgot : i.got + 1 = i.frames := by
      rw [e2, e3, ← hadd, hlast]
    split at hy
    · rename_i hext
      have hext' : i.extSize = 0 := by rw [e4, hext]; rfl
      simp only [Prod.mk.injEq] at hy
      obtain ⟨rfl, rfl⟩ := hy
      simp only [if_true] at h
      obtain ⟨g1, g2, g3⟩ := inputFinished_rel (keyOf := keyOf) (h0 := h0) (D := { D with inputs := { i with got := i.got + 1, tokens := i.tokens ++ (pieces 40 tokens).map tok40 } :: is })
        (by exact hR.nIn) (by exact hR.nOut) (by exact hR.nTok)
        (by exact hR.distinct) (by exact hA') (by exact hst) rfl rfl
        (by exact ht) (by exact hdi) (by exact ho) (by exact hd) (by exact hno)
        (by
          intro j hj
          simp only [List.mem_cons] at hj
          rcases hj with rfl | hj
          · simp [InDesc.complete, hgot, e5, hext']
          · exact hc j hj)
        (by simp only [List.length_cons]; omega) (by exact hpos)
        (by
          simp only [hh, List.reverse_cons, List.flatMap_append, List.flatMap_cons,
            List.flatMap_nil, inputBytes, e1, hbox, hext', if_true, List.append_assoc,
            List.append_nil]) h
      exact ⟨by rw [g2], hk, by rw [g2]; exact hgrow, g3⟩
    · rename_i hext
      have hext' : 0 < i.extSize := by rw [e4]; exact u32_ne_zero.1 hext
      simp only [Prod.mk.injEq] at hy
      obtain ⟨rfl, rfl⟩ := hy
      simp only [reduceCtorEq, if_false, Prod.mk.injEq] at h
      obtain ⟨rfl, rfl⟩ := h
      refine ⟨rfl, hk, hgrow, hR.nIn, hR.nOut, hR.nTok, hR.distinct, hA', ?_⟩
      simp only [FullPhase, hst]
      refine ⟨ht, hdi, ho, hd, hno, _, rfl, ?_⟩
      simp only [InPhase]
      refine ⟨_, _, rfl, hc, hn, hpos, hgot, by simp [e5, e4], by rw [← e4]; exact hext', ?_⟩
      simp [hh, e1, hbox, e5]
  · rename_i hlast
    simp only [Prod.mk.injEq] at hy
    obtain ⟨rfl, rfl⟩ := hy
    simp only [Prod.mk.injEq] at h
    obtain ⟨rfl, rfl⟩ := h
    refine ⟨rfl, hk, hgrow, hR.nIn, hR.nOut, hR.nTok, hR.distinct, hA', ?_⟩
    simp only [FullPhase, hst]
    refine ⟨ht, hdi, ho, hd, hno, _, rfl, ?_⟩
    simp only [InPhase, his]
    have hlast' : i.got + 1 < i.frames := by
      have : (ic.framesProcessed + 1).toNat ≠ ic.framesCount.toNat :=
        fun he => hlast (UInt8.toNat_inj.1 he)
      omega
    exact ⟨_, _, rfl, hc, hn, hpos, e1, e2, by simp only; rw [e3, hadd], e4, e5, .inr hlast', hh⟩

theorem addInputExtension_full {chunk : Bytes} (hR : FullRel keyOf h0 x D)
    (h : x.addInputExtension chunk = (x', r)) (hp : r.passes) :
    x'.s = x.s ∧ FullRel keyOf h0 x' (D.onInput (fun i => { i with ext := i.ext ++ chunk })) := by
  unfold FullSt.addInputExtension at h
  split at h
  · exact fullFail_passes h hp
  rename_i hst
  simp only [ne_eq, Decidable.not_not] at hst
  have hph := hR.phase
  unfold FullPhase at hph
  rw [hst] at hph
  simp only at hph
  obtain ⟨ht, hdi, ho, hd, hno, ic, hsub, hin⟩ := hph
  rw [hsub] at h
  simp only at h
  obtain ⟨y, q, hy⟩ : ∃ y q, InputSt.addExtension ⟨ic, x.h, x.s.a⟩ chunk = (y, q) :=
    ⟨_, _, rfl⟩
  rw [hy] at h
  simp only at h
  have hqp : q.passes := by
    cases q with
    | ok => rfl
    | more => rfl
    | err e => exact fullFail_passes h hp
    | ub =>
      simp only [Prod.mk.injEq] at h
      obtain ⟨_, rfl⟩ := h
      simp [Res.passes] at hp
  have ifail : ∀ (z : InputSt) (e : InputErr), z.fail e = (y, q) → False := by
    intro z e he
    simp only [InputSt.fail, Prod.mk.injEq] at he
    obtain ⟨_, rfl⟩ := he
    simp [Res.passes] at hqp
  unfold InputSt.addExtension at hy
  simp only at hy
  split at hy
  · exact (ifail _ _ hy).elim
  rename_i his
  simp only [ne_eq, Decidable.not_not] at his
  split at hy
  · exact (ifail _ _ hy).elim
  rename_i hle
  simp only [InPhase, his] at hin
  obtain ⟨i, is, hD, hc, hn, hpos, e1, e2, e3, hh⟩ := hin
  have hsz : (ic.extSize - UInt32.ofNat chunk.length).toNat = ic.extSize.toNat - chunk.length :=
    u32_sub_ofNat _ (by omega)
  have hD' : D.onInput (fun i => { i with ext := i.ext ++ chunk }) =
      { D with inputs := { i with ext := i.ext ++ chunk } :: is } := by
    unfold TxDesc.onInput
    rw [hD]
  rw [hD']
  have hA' : AmtRel x.s.a D.table
      (TxDesc.sumIn { D with inputs := { i with ext := i.ext ++ chunk } :: is })
      (D.sumOut Script.isChange) (D.sumOut Script.isFee)
      (TxDesc.tokIn { D with inputs := { i with ext := i.ext ++ chunk } :: is }) D.tokOut := by
    have s1 : TxDesc.sumIn { D with inputs := { i with ext := i.ext ++ chunk } :: is } = D.sumIn := by
      simp [TxDesc.sumIn, hD]
    have s2 : TxDesc.tokIn { D with inputs := { i with ext := i.ext ++ chunk } :: is } = D.tokIn := by
      funext j
      rw [tokIn_cons _ is j rfl, tokIn_cons _ is j hD]
    rw [s1, s2]
    exact hR.amt
  have hext0 : i.extSize ≠ 0 := by omega
  split at hy
  · rename_i hz
    have hz' := u32_eq_zero.1 hz
    simp only [Prod.mk.injEq] at hy
    obtain ⟨rfl, rfl⟩ := hy
    simp only at h
    obtain ⟨g1, g2, g3⟩ := inputFinished_rel (keyOf := keyOf) (h0 := h0) (D := { D with inputs := { i with ext := i.ext ++ chunk } :: is })
        (by exact hR.nIn) (by exact hR.nOut) (by exact hR.nTok)
        (by exact hR.distinct) (by exact hA') (by exact hst) rfl rfl
        (by exact ht) (by exact hdi) (by exact ho) (by exact hd) (by exact hno)
        (by
          intro j hj
          simp only [List.mem_cons] at hj
          rcases hj with rfl | hj
          · simp [InDesc.complete, e1]; omega
          · exact hc j hj)
        (by simp only [List.length_cons]; omega) (by exact hpos)
        (by
          simp only [hh, List.reverse_cons, List.flatMap_append, List.flatMap_cons,
            List.flatMap_nil, inputBytes, hext0, if_false, List.append_assoc,
            List.append_nil]) h
    exact ⟨g2, g3⟩
  · rename_i hz
    have hz' := u32_ne_zero.1 hz
    simp only [Prod.mk.injEq] at hy
    obtain ⟨rfl, rfl⟩ := hy
    simp only [Prod.mk.injEq] at h
    obtain ⟨rfl, rfl⟩ := h
    refine ⟨rfl, hR.nIn, hR.nOut, hR.nTok, hR.distinct, hA', ?_⟩
    simp only [FullPhase, hst]
    refine ⟨ht, hdi, ho, hd, hno, _, rfl, ?_⟩
    simp only [InPhase, his]
    refine ⟨_, _, rfl, hc, hn, hpos, e1, ?_, hz', ?_⟩
    · simp only [List.length_append]; omega
    · simp [hh]

theorem dataLoop_passes : ∀ (n : Nat) (input : Bytes) (x x' : FullSt) (r : Res FullErr),
    FullSt.dataInputsLoop n input x = (x', r) → r.passes →
    r = .ok ∧ x'.s = x.s ∧ x'.h = x.h ++ (pieces 32 input).flatten ∧
      (pieces 32 input).length ≤ x.c.dataInputs.toNat ∧
      x'.c = { x.c with dataInputs := x'.c.dataInputs } ∧
      x'.c.dataInputs.toNat = x.c.dataInputs.toNat - (pieces 32 input).length ∧
      ∃ k, input.length = k * 32 := by
  intro n
  induction n with
  | zero =>
    intro input x x' r h hp
    cases input with
    | nil =>
      simp only [FullSt.dataInputsLoop, Prod.mk.injEq] at h
      obtain ⟨rfl, rfl⟩ := h
      simp [pieces_nil]
    | cons b bs =>
      simp only [FullSt.dataInputsLoop, Prod.mk.injEq] at h
      obtain ⟨_, rfl⟩ := h
      simp [Res.passes] at hp
  | succ n ih =>
    intro input x x' r h hp
    cases input with
    | nil =>
      simp only [FullSt.dataInputsLoop, Prod.mk.injEq] at h
      obtain ⟨rfl, rfl⟩ := h
      simp [pieces_nil]
    | cons b bs =>
      simp only [FullSt.dataInputsLoop] at h
      split at h
      · exact fullFail_passes h hp
      rename_i hz
      have hz' := u16_ne_zero.1 hz
      split at h
      · exact fullFail_passes h hp
      · rename_i id rest hb
        obtain ⟨e, hl⟩ := bufBytes_some hb
        have hl' : id.length = 32 := hl
        obtain ⟨g1, g2, g3, g4, g5, g6, k, g7⟩ := ih _ _ _ _ h hp
        have hs1 : (x.c.dataInputs - 1).toNat = x.c.dataInputs.toNat - 1 :=
          u16_sub_ofNat _ (k := 1) hz'
        simp only [hs1] at g2 g3 g4 g6
        rw [e, pieces_append rest hl' (by omega)]
        refine ⟨g1, g2, ?_, ?_, ?_, ?_, k + 1, ?_⟩
        · rw [g3]; simp
        · simp only [List.length_cons]; omega
        · rw [g5]
        · rw [g6]; simp only [List.length_cons]; omega
        · rw [List.length_append, hl', g7]; omega

theorem dataLoop_noub : ∀ (n : Nat) (input : Bytes) (x : FullSt), input.length ≤ n →
    (FullSt.dataInputsLoop n input x).2 ≠ .ub := by
  intro n
  induction n with
  | zero =>
    intro input x h
    have : input = [] := by simpa using h
    subst this
    simp [FullSt.dataInputsLoop]
  | succ n ih =>
    intro input x h
    cases input with
    | nil => simp [FullSt.dataInputsLoop]
    | cons b bs =>
      simp only [FullSt.dataInputsLoop]
      split
      · simp [FullSt.fail]
      split
      · simp [FullSt.fail]
      · rename_i id rest hb
        obtain ⟨e, hl⟩ := bufBytes_some hb
        apply ih
        have hl' : id.length = 32 := hl
        have := congrArg List.length e
        simp only [List.length_append, hl'] at this
        omega

theorem addDataInputs_full {input : Bytes} (hR : FullRel keyOf h0 x D)
    (h : x.addDataInputs input = (x', r)) (hp : r.passes) :
    x'.s = x.s ∧ (∃ k, input.length = k * 32) ∧
    FullRel keyOf h0 x' { D with dataInputs := D.dataInputs ++ pieces 32 input } := by
  unfold FullSt.addDataInputs at h
  split at h
  · exact fullFail_passes h hp
  rename_i hst
  simp only [ne_eq, Decidable.not_not] at hst
  have hph := hR.phase
  unfold FullPhase at hph
  rw [hst] at hph
  simp only at hph
  obtain ⟨ht, ho, hi, hn, hd, hpos, hno, hh⟩ := hph
  obtain ⟨y, q, hy⟩ : ∃ y q, FullSt.dataInputsLoop input.length input x = (y, q) := ⟨_, _, rfl⟩
  rw [hy] at h
  have hq : q = .ok := by
    cases q with
    | ok => rfl
    | more => exact (dataLoop_passes _ _ _ _ _ hy rfl).1
    | err e =>
      simp only [Prod.mk.injEq] at h
      obtain ⟨_, rfl⟩ := h
      simp [Res.passes] at hp
    | ub =>
      simp only [Prod.mk.injEq] at h
      obtain ⟨_, rfl⟩ := h
      simp [Res.passes] at hp
  subst hq
  obtain ⟨_, g2, g3, g4, g5, g6, hk⟩ := dataLoop_passes _ _ _ _ _ hy rfl
  have hA : AmtRel y.s.a D.table
      (TxDesc.sumIn { D with dataInputs := D.dataInputs ++ pieces 32 input })
      (TxDesc.sumOut Script.isChange { D with dataInputs := D.dataInputs ++ pieces 32 input })
      (TxDesc.sumOut Script.isFee { D with dataInputs := D.dataInputs ++ pieces 32 input })
      (TxDesc.tokIn { D with dataInputs := D.dataInputs ++ pieces 32 input })
      (TxDesc.tokOut { D with dataInputs := D.dataInputs ++ pieces 32 input }) := by
    rw [g2]; exact hR.amt
  simp only at h
  split at h
  · rename_i hz
    have hz' := u16_eq_zero.1 hz
    obtain ⟨_, k2, k3⟩ := dataInputsFinished_rel (keyOf := keyOf) (h0 := h0)
      (D := { D with dataInputs := D.dataInputs ++ pieces 32 input }) (by exact hR.nIn)
      (by exact hR.nOut) (by exact hR.nTok) (by rw [g5]; exact hR.distinct) hA (by exact ht)
      (by exact ho) (by exact hi) (by exact hn)
      (by simp only [List.length_append]; omega) (by rw [g5]; exact hno)
      (by rw [g3, hh]; simp) h
    exact ⟨by rw [k2, g2], hk, k3⟩
  · rename_i hz
    have hz' := u16_ne_zero.1 hz
    simp only [Prod.mk.injEq] at h
    obtain ⟨rfl, rfl⟩ := h
    refine ⟨g2, hk, hR.nIn, hR.nOut, hR.nTok, by rw [g5]; exact hR.distinct, hA, ?_⟩
    have hst' : y.c.state = .dataInputsStarted := by rw [g5]; exact hst
    simp only [FullPhase, hst']
    refine ⟨ht, ho, hi, hn, ?_, hz', by rw [g5]; exact hno, ?_⟩
    · simp only [List.length_append]; omega
    · rw [g3, hh]; simp

/-! ## No undefined behaviour -/

theorem addInput_noub (hR : FullRel keyOf h0 x D) (boxId : Bytes) (frames : UInt8)
    (ext : UInt32) : (x.addInput boxId frames ext).2 ≠ .ub := by
  unfold FullSt.addInput
  split
  · simp [FullSt.fail]
  rename_i hst
  simp only [ne_eq, Decidable.not_not] at hst
  have hph := hR.phase
  unfold FullPhase at hph
  rw [hst] at hph
  simp only at hph
  obtain ⟨_, _, _, _, _, ic, hsub, _⟩ := hph
  rw [hsub]
  simp only
  split
  · simp [FullSt.fail]
  split
  · simp [FullSt.fail]
  have : (inputInit boxId frames ext).2 ≠ .ub := by
    unfold inputInit
    split <;> simp
  split
  · simp [FullSt.fail]
  · rename_i he; exact absurd he this
  · simp

theorem inputFinished_noub (x : FullSt) : x.inputFinished.2 ≠ .ub := by
  unfold FullSt.inputFinished FullSt.dataInputsFinished
  simp only
  split
  · split <;> simp
  · simp

theorem addInputTokens_noub (hR : FullRel keyOf h0 x D) (boxId : Bytes) (index : UInt8)
    (tokens : Bytes) : (x.addInputTokens boxId index tokens).2 ≠ .ub := by
  unfold FullSt.addInputTokens
  split
  · simp [FullSt.fail]
  rename_i hst
  simp only [ne_eq, Decidable.not_not] at hst
  have hph := hR.phase
  unfold FullPhase at hph
  rw [hst] at hph
  simp only at hph
  obtain ⟨_, _, ho, _, _, ic, hsub, _⟩ := hph
  rw [hsub]
  simp only
  have hA := hR.amt
  rw [tokOut_nil ho] at hA
  have hl := inputTokensLoop_noub tokens.length tokens ⟨ic, x.h, x.s.a⟩ _ hA (le_refl _)
  have key : (InputSt.addTokens ⟨ic, x.h, x.s.a⟩ boxId index tokens).2 ≠ .ub := by
    unfold InputSt.addTokens
    split
    · simp [InputSt.fail]
    split
    · simp [InputSt.fail]
    split
    · simp [InputSt.fail]
    split
    · simp [InputSt.fail]
    split
    · simp only
      split
      · split <;> simp
      · simp
    · exact hl
  split
  · split
    · exact inputFinished_noub _
    · simp
  · simp
  · simp [FullSt.fail]
  · rename_i he; exact absurd he key

theorem addInputExtension_noub (hR : FullRel keyOf h0 x D) (chunk : Bytes) :
    (x.addInputExtension chunk).2 ≠ .ub := by
  unfold FullSt.addInputExtension
  split
  · simp [FullSt.fail]
  rename_i hst
  simp only [ne_eq, Decidable.not_not] at hst
  have hph := hR.phase
  unfold FullPhase at hph
  rw [hst] at hph
  simp only at hph
  obtain ⟨_, _, ho, _, _, ic, hsub, _⟩ := hph
  rw [hsub]
  simp only
  have key : (InputSt.addExtension ⟨ic, x.h, x.s.a⟩ chunk).2 ≠ .ub := by
    unfold InputSt.addExtension
    split
    · simp [InputSt.fail]
    split
    · simp [InputSt.fail]
    simp only
    split <;> simp
  split
  · exact inputFinished_noub _
  · simp
  · simp [FullSt.fail]
  · rename_i he; exact absurd he key

theorem addDataInputs_noub (x : FullSt) (input : Bytes) : (x.addDataInputs input).2 ≠ .ub := by
  unfold FullSt.addDataInputs
  split
  · simp [FullSt.fail]
  have := dataLoop_noub input.length input x (le_refl _)
  split
  · split
    · simp [FullSt.dataInputsFinished]
    · simp
  · exact this

end Ergo
