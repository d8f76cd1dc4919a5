import Verif.Spec.Why
import Verif.Proof.AcceptDev
/-!
# The status word of a refused command: table, inputs, data inputs
-/
namespace Ergo
open Spec

variable {keyOf : List UInt32 → Bytes} {h0 : Bytes} {x x' : FullSt} {D : TxDesc}

/-! ## Lists of demands -/

theorem Spec.FirstUnmet.notMet {l : List Demand} {c : UInt16} (h : FirstUnmet l c) : ¬ AllMet l := by
  induction h with
  | here hp => exact fun ha => hp (ha _ List.mem_cons_self)
  | later _ _ ih => exact fun ha => ih (fun d hd => ha d (by simp [hd]))

theorem Spec.FirstUnmet.unique {l : List Demand} {c c' : UInt16} (h : FirstUnmet l c)
    (h' : FirstUnmet l c') : c = c' := by
  induction h with
  | here hp =>
    cases h' with
    | here => rfl
    | later hq => exact absurd hq hp
  | later hp _ ih =>
    cases h' with
    | here hq => exact absurd hp hq
    | later _ hq => exact ih hq

theorem Spec.FirstUnmet.left {l m : List Demand} {c : UInt16} (h : FirstUnmet l c) :
    FirstUnmet (l ++ m) c := by
  induction h with
  | here hp => exact .here hp
  | later hp _ ih => exact .later hp ih

theorem Spec.FirstUnmet.right {l m : List Demand} {c : UInt16} (hl : AllMet l)
    (h : FirstUnmet m c) : FirstUnmet (l ++ m) c := by
  induction l with
  | nil => exact h
  | cons d l ih => exact .later (hl d (by simp)) (ih (fun e he => hl e (by simp [he])))

theorem allMet_nil : AllMet [] := by intro d hd; simp at hd

theorem allMet_cons {P : Prop} {c : UInt16} {l : List Demand} :
    AllMet ((P, c) :: l) ↔ P ∧ AllMet l := by
  simp [AllMet]

theorem allMet_append {l m : List Demand} : AllMet (l ++ m) ↔ AllMet l ∧ AllMet m := by
  simp only [AllMet, List.mem_append]
  constructor
  · exact fun h => ⟨fun d hd => h d (.inl hd), fun d hd => h d (.inr hd)⟩
  · rintro ⟨h1, h2⟩ d (hd | hd)
    · exact h1 d hd
    · exact h2 d hd

theorem pieces_ne {n : Nat} (hn : 0 < n) {d : Bytes} (hd : d ≠ []) :
    pieces n d = d.take n :: pieces n (d.drop n) := by
  rw [pieces, dif_neg]
  rintro (h | h)
  · omega
  · exact hd h

/-! ## Ids -/

theorem tableAddLoop_why {dn : UInt8} : ∀ (n : Nat) (input : Bytes) (t t' : List Bytes)
    (e : TableErr), tableAddLoop dn n input t = (t', .err e) →
    FirstUnmet (idDemands dn.toNat 0xE00A 0xE001 t.length (pieces 32 input)) e.toFull.sw := by
  intro n
  induction n with
  | zero =>
    intro input t t' e h
    cases input <;> simp [tableAddLoop] at h
  | succ n ih =>
    intro input t t' e h
    cases input with
    | nil => simp [tableAddLoop] at h
    | cons b bs =>
      obtain ⟨d, hd⟩ : ∃ d, b :: bs = d := ⟨_, rfl⟩
      have hne : d ≠ [] := by rw [← hd]; simp
      simp only [tableAddLoop] at h
      rw [hd] at h ⊢
      rw [pieces_ne (by decide) hne, idDemands]
      by_cases hfull : t.length ≥ dn.toNat
      · rw [if_pos hfull] at h
        simp only [Prod.mk.injEq, Res.err.injEq] at h
        rw [← h.2]
        exact .here (by omega)
      rw [if_neg hfull] at h
      refine .later (by omega) ?_
      rcases bufBytes_cases idLen d with ⟨h1, h2⟩ | ⟨h1, v, h2⟩
      · rw [h2] at h
        simp only [Prod.mk.injEq, Res.err.injEq] at h
        rw [← h.2]
        simp only [idLen] at h1
        exact .here (by simp; omega)
      · rw [h2] at h
        simp only [idLen] at h1 h
        refine .later (by simp; omega) ?_
        have := ih _ _ _ _ h
        simpa using this

theorem dataLoop_why : ∀ (n : Nat) (input : Bytes) (x x' : FullSt) (m k : Nat) (e : FullErr),
    k + x.c.dataInputs.toNat = m →
    FullSt.dataInputsLoop n input x = (x', .err e) →
    FirstUnmet (idDemands m 0xE00C 0xE004 k (pieces 32 input)) e.sw := by
  intro n
  induction n with
  | zero =>
    intro input x x' m k e hk h
    cases input <;> simp [FullSt.dataInputsLoop] at h
  | succ n ih =>
    intro input x x' m k e hk h
    cases input with
    | nil => simp [FullSt.dataInputsLoop] at h
    | cons b bs =>
      obtain ⟨d, hd⟩ : ∃ d, b :: bs = d := ⟨_, rfl⟩
      have hne : d ≠ [] := by rw [← hd]; simp
      simp only [FullSt.dataInputsLoop] at h
      rw [hd] at h ⊢
      rw [pieces_ne (by decide) hne, idDemands]
      by_cases hz : x.c.dataInputs = 0
      · rw [if_pos hz] at h
        simp only [FullSt.fail, Prod.mk.injEq, Res.err.injEq] at h
        rw [← h.2]
        have := u16_eq_zero.1 hz
        exact .here (by omega)
      rw [if_neg hz] at h
      have hz' := u16_ne_zero.1 hz
      refine .later (by omega) ?_
      rcases bufBytes_cases idLen d with ⟨h1, h2⟩ | ⟨h1, v, h2⟩
      · rw [h2] at h
        simp only [FullSt.fail, Prod.mk.injEq, Res.err.injEq] at h
        rw [← h.2]
        simp only [idLen] at h1
        exact .here (by simp; omega)
      · rw [h2] at h
        simp only [idLen] at h1 h
        refine .later (by simp; omega) ?_
        refine ih _ _ _ _ _ _ ?_ h
        have hs1 : (x.c.dataInputs - 1).toNat = x.c.dataInputs.toNat - 1 :=
          u16_sub_ofNat _ (k := 1) hz'
        simp only [hs1]
        omega

theorem idDemands_met {max n : Nat} {many short : UInt16} {data : Bytes} (h : data.length % 32 = 0)
    (hm : n + data.length / 32 ≤ max) : AllMet (idDemands max many short n (pieces 32 data)) := by
  have hk : data.length = (data.length / 32) * 32 := by omega
  generalize data.length / 32 = k at *
  induction k generalizing n data with
  | zero =>
    have : data = [] := by simpa using hk
    rw [this, pieces_nil]
    exact allMet_nil
  | succ k ih =>
    have hne : data ≠ [] := by rintro rfl; simp at hk
    rw [pieces_ne (by decide) hne, idDemands, allMet_cons, allMet_cons]
    refine ⟨by omega, by simp; omega, ih (by simp; omega) (by omega) (by simp; omega)⟩

/-! ## Commands -/

theorem addTokens_why (hR : FullRel keyOf h0 x D) {input : Bytes} {e : FullErr}
    (h : (x.addTokens input).2 = .err e) :
    FirstUnmet ((0 < D.nIn ∧ D.table.length < D.nTok, 0xB0FF) ::
      idDemands D.nTok 0xE00A 0xE001 D.table.length (pieces 32 input)) e.sw := by
  unfold FullSt.addTokens at h
  by_cases hst : x.c.state = .tokensStarted
  · have hlt := hR.table_lt.1 hst
    have ht : x.s.a.table = D.table := by
      have hph := hR.phase
      unfold FullPhase at hph
      rw [hst] at hph
      exact hph.2.1
    rw [if_neg (by simpa using hst)] at h
    refine .later ⟨hR.nIn, hlt⟩ ?_
    simp only at h
    rw [ht] at h
    unfold tableAdd at h
    obtain ⟨t', q, hq⟩ : ∃ t' q, tableAddLoop x.c.distinct input.length input D.table = (t', q) :=
      ⟨_, _, rfl⟩
    rw [hq] at h
    cases q with
    | ok =>
      by_cases hc : t'.length ≥ x.c.distinct.toNat
      · simp [hc] at h
      · simp [hc] at h
    | more => simp at h
    | ub => simp at h
    | err e' =>
      simp only [FullSt.fail, Res.err.injEq] at h
      have := tableAddLoop_why _ _ _ _ _ hq
      rw [hR.distinct] at this
      rw [← h]
      exact this
  · rw [if_pos hst] at h
    simp only [FullSt.fail, Res.err.injEq] at h
    rw [← h]
    exact .here (fun hc => hst (hR.table_lt.2 hc.2))

/-! ## Frames -/

variable {a : Amounts} {base : List Bytes} {vin vch vfee : Nat} {tin : Bytes → Nat}

theorem addInputToken_why (hA : AmtRel a base vin vch vfee tin (fun _ => 0)) {id : Bytes}
    {v : UInt64} {e : InputErr} (h : (a.addInputToken id v).2 = .err e) :
    e.toFull.sw = 0xE00A ∧ ¬ (id ∈ a.table ∨ a.table.length < 20) ∨
    e.toFull.sw = 0xE011 ∧ (id ∈ a.table ∨ a.table.length < 20) ∧ ¬ tin id + v.toNat < 2 ^ 63 := by
  have hiff := addInputToken_iff hA id v
  have hnp : ¬ (a.addInputToken id v).2.passes := by rw [h]; simp [Res.passes]
  rw [hiff] at hnp
  by_cases hc : id ∈ a.table ∨ a.table.length < 20
  · refine .inr ⟨?_, hc, fun hs => hnp ⟨hs, hc⟩⟩
    unfold Amounts.addInputToken at h
    split at h
    · split at h
      · cases h
      split at h
      · simp only [Res.err.injEq] at h
        rw [← h]; rfl
      · cases h
    · rename_i hf
      rw [tableFind_none] at hf
      unfold tableAddToken at h
      have hl := hc.resolve_left hf
      rw [if_neg (by simp only [tokenMax]; omega)] at h
      simp only at h
      split at h
      · simp only [Res.err.injEq] at h
        rw [← h]; rfl
      · cases h
  · refine .inl ⟨?_, hc⟩
    rw [not_or] at hc
    unfold Amounts.addInputToken at h
    rw [tableFind_none.2 hc.1] at h
    unfold tableAddToken at h
    rw [if_pos (by simp only [tokenMax]; omega)] at h
    simp only [Res.err.injEq] at h
    rw [← h]; rfl

theorem inToken_grows {i : InDesc} {is : List InDesc} (hD : D.inputs = i :: is) {t t' : List Bytes}
    (k : Bytes × Nat) (ht : TableGrows D.table (inIds D) t)
    (h' : TableGrows t [k.1] t') : TableGrows D.table (inIds (D.inToken k)) t' := by
  have e : inIds (D.inToken k) = inIds D ++ [k.1] := by
    unfold TxDesc.inToken TxDesc.onInput inIds
    rw [hD]
    simp
  rw [e]
  exact ht.trans h'

theorem grows_one (t : List Bytes) (id : Bytes) :
    TableGrows t [id] (if id ∈ t then t else t ++ [id]) := (TableGrows.refl _).cons

theorem inToken_table (k : Bytes × Nat) : (D.inToken k).table = D.table := by
  unfold TxDesc.inToken TxDesc.onInput
  split <;> rfl

theorem inToken_count {i : InDesc} {is : List InDesc} (hD : D.inputs = i :: is) {t : List Bytes}
    (ht : TableGrows D.table (inIds D) t) (k : Bytes × Nat) :
    (D.inToken k).table.length + (D.inToken k).otherIds.length =
      if k.1 ∈ t then t.length else t.length + 1 := by
  have hg := inToken_grows hD k ht (grows_one t k.1)
  have := hg.length
  rw [inToken_table]
  rw [otherIds_length, inToken_table, ← this]
  split <;> simp

theorem inToken_tokIn {i : InDesc} {is : List InDesc} (hD : D.inputs = i :: is) (k : Bytes × Nat)
    (id : Bytes) : (D.inToken k).tokIn id = D.tokIn id + if id = k.1 then k.2 else 0 := by
  have e : D.inToken k = { D with inputs := { i with tokens := i.tokens ++ [k] } :: is } := by
    unfold TxDesc.inToken TxDesc.onInput; rw [hD]
  rw [e, tokIn_cons (D := D) i is id hD, tokIn_cons _ is id rfl, sumOf_append]
  simp only [sumOf_cons]
  have : sumOf [] id = 0 := rfl
  rw [this]
  omega

theorem inputTokensLoop_why : ∀ (n : Nat) (input : Bytes) (x : InputSt) (x' : InputSt) (D : TxDesc)
    (i : InDesc) (is : List InDesc) (e : InputErr), D.inputs = i :: is →
    AmtRel x.a base vin vch vfee D.tokIn (fun _ => 0) → TableGrows D.table (inIds D) x.a.table →
    InputSt.tokensLoop n input x = (x', .err e) →
    FirstUnmet (inTokDemands D (pieces 40 input)) e.toFull.sw := by
  intro n
  induction n with
  | zero =>
    intro input x x' D i is e hD hA hT h
    cases input <;> simp [InputSt.tokensLoop] at h
  | succ n ih =>
    intro input x x' D i is e hD hA hT h
    cases input with
    | nil => simp [InputSt.tokensLoop] at h
    | cons b bs =>
      obtain ⟨d, hd⟩ : ∃ d, b :: bs = d := ⟨_, rfl⟩
      have hne : d ≠ [] := by rw [← hd]; simp
      simp only [InputSt.tokensLoop] at h
      rw [hd] at h ⊢
      rw [pieces_ne (by decide) hne, inTokDemands]
      rcases bufBytes_cases idLen d with ⟨h1, h2⟩ | ⟨h1, id, h2⟩
      · rw [h2] at h
        simp only [InputSt.fail, Prod.mk.injEq, Res.err.injEq] at h
        rw [← h.2]
        simp only [idLen] at h1
        exact .here (by simp; omega)
      rw [h2] at h
      simp only [idLen] at h1 h
      refine .later (by simp; omega) ?_
      rcases bufU64_cases (d.drop 32) with ⟨h3, h4⟩ | ⟨h3, v, h4⟩
      · simp only [h4, InputSt.fail, Prod.mk.injEq, Res.err.injEq] at h
        rw [← h.2]
        simp only [List.length_drop] at h3
        exact .here (by simp; omega)
      simp only [h4] at h
      simp only [List.length_drop] at h3
      refine .later (by simp; omega) ?_
      obtain ⟨e1, hl⟩ := bufBytes_some h2
      have hl : id.length = 32 := hl
      have hr := bufU64_some h4
      have hal : (id ++ writeU64be v).length = 40 := by simp [hl, length_writeU64]
      have hdd : d = (id ++ writeU64be v) ++ (d.drop 32).drop 8 := by
        have e' : d = id ++ d.drop 32 := e1
        rw [hr] at e'
        simpa using e'
      have htk : d.take 40 = id ++ writeU64be v := by
        rw [hdd, List.take_left' hal]
      have hdr : (d.drop 32).drop 8 = d.drop 40 := by rw [List.drop_drop]
      have htok : tok40 (id ++ writeU64be v) = (id, v.toNat) := by
        simp only [tok40]
        rw [← hl]; simp [be_writeU64]
      rw [hdr] at h
      rw [htk, htok, List.take_left' hl, inToken_count hD hT, inToken_tokIn hD]
      simp only [if_true]
      obtain ⟨a1, q, hadd⟩ : ∃ a1 q, x.a.addInputToken id v = (a1, q) := ⟨_, _, rfl⟩
      have hiff := addInputToken_iff hA id v
      have hlen := hA.tlen
      have hcnt : ((if id ∈ x.a.table then x.a.table.length else x.a.table.length + 1) ≤ 20) ↔
          (id ∈ x.a.table ∨ x.a.table.length < 20) := by
        split
        · exact iff_of_true hlen (.inl (by assumption))
        · rename_i hm
          constructor
          · intro hh; exact .inr (by omega)
          · rintro (hh | hh)
            · exact absurd hh hm
            · omega
      rw [hadd] at h
      cases q with
      | ok =>
        rw [hadd] at hiff
        obtain ⟨k1, k2⟩ := hiff.1 rfl
        refine .later (hcnt.2 k2) (.later k1 ?_)
        obtain ⟨_, hA'⟩ := hA.addInputToken hl hadd rfl
        have htab := addInputToken_table hadd rfl
        refine ih _ _ _ _ { i with tokens := i.tokens ++ [(id, v.toNat)] } is _ ?_ ?_ ?_ h
        · unfold TxDesc.inToken TxDesc.onInput; rw [hD]
        · have : (D.inToken (id, v.toNat)).tokIn =
              fun j => D.tokIn j + if j = id then v.toNat else 0 := by
            funext j; exact inToken_tokIn hD _ j
          rw [this]
          exact hA'
        · rw [inToken_table]
          refine inToken_grows hD (id, v.toNat) hT ?_
          rw [htab]
          exact grows_one _ _
      | more => simp at h
      | ub => simp at h
      | err e' =>
        simp only [InputSt.fail, Prod.mk.injEq, Res.err.injEq] at h
        rw [← h.2]
        have hw := addInputToken_why hA (id := id) (v := v) (e := e') (by rw [hadd])
        rcases hw with ⟨w1, w2⟩ | ⟨w1, w2, w3⟩
        · rw [w1]
          exact .here (fun hc => w2 (hcnt.1 hc))
        · rw [w1]
          exact .later (hcnt.2 w2) (.here w3)

/-- The demands of a frame on the newest input, which is not complete. -/
def moreFrame (D : TxDesc) (i : InDesc) (boxId : Bytes) (index : Nat) (toks : List Bytes) :
    List Demand :=
  [(boxId = i.boxId, 0xE005), (index < i.frames, 0xE00D), (index = i.got, 0xE007)] ++
    inTokDemands D toks

/-- The serializer waits for frames of an input. -/
def AwaitsFrame (c : FullCtx) : Prop :=
  c.state = .inputsStarted ∧ ∃ ic, c.sub = .input ic ∧ ic.state = .framesStarted

theorem addInputTokens_why (hR : FullRel keyOf h0 x D) (hT : TableGrows D.table (inIds D) x.s.a.table)
    {boxId tokens : Bytes} {index : UInt8} {e : FullErr}
    (h : (x.addInputTokens boxId index tokens).2 = .err e) :
    e.sw = 0xB0FF ∧ (∀ i is, D.inputs = i :: is → ¬ i.got < i.frames) ∧ ¬ AwaitsFrame x.c ∨
    ∃ i is, D.inputs = i :: is ∧ (i.got = 0 ∨ i.got < i.frames) ∧
      FirstUnmet (moreFrame D i boxId index.toNat (pieces 40 tokens)) e.sw := by
  unfold FullSt.addInputTokens at h
  by_cases hst : x.c.state = .inputsStarted
  case neg =>
    rw [if_pos hst] at h
    simp only [FullSt.fail, Res.err.injEq] at h
    left
    refine ⟨by rw [← h]; rfl, ?_, fun ha => hst ha.1⟩
    intro i is hD hlt
    refine hst (hR.inputs_missing (hR.tableDone (by rw [hD]; simp)) (.inr ⟨i, by rw [hD]; simp, ?_⟩))
    simp only [InDesc.complete, Bool.and_eq_false_iff, decide_eq_false_iff_not]
    left; omega
  rw [if_neg (by simpa using hst)] at h
  have hph := hR.phase
  unfold FullPhase at hph
  rw [hst] at hph
  simp only at hph
  obtain ⟨ht, hdi, ho, hd, hno, ic, hsub, hin⟩ := hph
  rw [hsub] at h
  simp only at h
  have hA := hR.amt
  rw [tokOut_nil ho] at hA
  obtain ⟨y, q, hy⟩ : ∃ y q, InputSt.addTokens ⟨ic, x.h, x.s.a⟩ boxId index tokens = (y, q) :=
    ⟨_, _, rfl⟩
  rw [hy] at h
  have hq : ∃ e', q = .err e' ∧ e = e'.toFull := by
    cases q with
    | ok =>
      simp only at h
      split at h
      · have := inputFinished_passes { x with h := y.h, s := { x.s with a := y.a }, c := { x.c with sub := .input y.c } }
        rw [h] at this
        simp [Res.passes] at this
      · cases h
    | more => cases h
    | ub => cases h
    | err e' =>
      simp only [FullSt.fail, Res.err.injEq] at h
      exact ⟨e', rfl, h.symm⟩
  obtain ⟨e', rfl, rfl⟩ := hq
  unfold InputSt.addTokens at hy
  simp only at hy
  by_cases hic : ic.state = .framesStarted
  case neg =>
    rw [if_pos hic] at hy
    simp only [InputSt.fail, Prod.mk.injEq, Res.err.injEq] at hy
    left
    refine ⟨by rw [← hy.2]; rfl, ?_, fun ha => ?_⟩
    case refine_2 =>
      obtain ⟨_, jc, hj, hj'⟩ := ha
      rw [hsub] at hj
      cases hj
      exact hic hj'
    intro i is hD hlt
    unfold InPhase at hin
    split at hin
    · have := hin.1 i (by rw [hD]; simp)
      simp only [InDesc.complete, Bool.and_eq_true, decide_eq_true_eq] at this
      omega
    · rename_i he; exact hic he
    · obtain ⟨j, js, hj, e1, e2, e3, e4, _⟩ := hin
      rw [hD] at hj
      simp only [List.cons.injEq] at hj
      obtain ⟨rfl, rfl⟩ := hj
      omega
    · exact hin
  rw [if_neg (by simpa using hic)] at hy
  simp only [InPhase, hic] at hin
  obtain ⟨i, is, hD, e1, e2, e3, e4, e5, e6, e7, e8, e9, e10⟩ := hin
  right
  refine ⟨i, is, hD, e9, ?_⟩
  unfold moreFrame
  by_cases hb : ic.boxId ≠ boxId
  · rw [if_pos hb] at hy
    simp only [InputSt.fail, Prod.mk.injEq, Res.err.injEq] at hy
    rw [← hy.2]
    exact .here (fun hc => hb (by rw [hc, e4]))
  rw [if_neg hb] at hy
  simp only [ne_eq, Decidable.not_not] at hb
  refine .later (by rw [← hb, e4]) ?_
  by_cases hge : index ≥ ic.framesCount
  · rw [if_pos hge] at hy
    simp only [InputSt.fail, Prod.mk.injEq, Res.err.injEq] at hy
    rw [← hy.2]
    rw [ge_iff_le, UInt8.le_iff_toNat_le] at hge
    exact .here (by omega)
  rw [if_neg hge] at hy
  rw [ge_iff_le, UInt8.le_iff_toNat_le] at hge
  refine .later (by omega) ?_
  by_cases hnx : index ≠ ic.framesProcessed
  · rw [if_pos hnx] at hy
    simp only [InputSt.fail, Prod.mk.injEq, Res.err.injEq] at hy
    rw [← hy.2]
    rw [ne_eq, ← UInt8.toNat_inj] at hnx
    exact .here (by omega)
  rw [if_neg hnx] at hy
  simp only [ne_eq, Decidable.not_not] at hnx
  refine .later (by rw [hnx]; exact e6.symm) ?_
  obtain ⟨z, q, hz⟩ : ∃ z q, InputSt.tokensLoop tokens.length tokens ⟨ic, x.h, x.s.a⟩ = (z, q) :=
    ⟨_, _, rfl⟩
  rw [hz] at hy
  cases q with
  | ok =>
    simp only at hy
    split at hy
    · split at hy <;> simp at hy
    · simp at hy
  | more => simp at hy
  | ub => simp at hy
  | err e2 =>
    simp only [Prod.mk.injEq, Res.err.injEq] at hy
    rw [← hy.2]
    exact inputTokensLoop_why _ _ _ _ D i is _ hD hA hT hz

end Ergo
