import Verif.Spec.Accept
import Verif.Proof.Lengths
/-!
# When the commands for the table, the inputs and the data inputs are accepted
-/
namespace Ergo
open Spec

variable {keyOf : List UInt32 → Bytes} {h0 : Bytes} {x x' : FullSt} {D : TxDesc}

/-! ## Entries of fixed width -/

theorem tableAddLoop_iff {dn : UInt8} : ∀ (n : Nat) (input : Bytes) (t : List Bytes),
    input.length ≤ n → t.length ≤ dn.toNat →
    ((tableAddLoop dn n input t).2.passes ↔
      input.length % 32 = 0 ∧ t.length + input.length / 32 ≤ dn.toNat) := by
  intro n
  induction n with
  | zero =>
    intro input t h ht
    have : input = [] := by simpa using h
    subst this
    simp [tableAddLoop, Res.passes, ht]
  | succ n ih =>
    intro input t h ht
    cases input with
    | nil => simp [tableAddLoop, Res.passes, ht]
    | cons b bs =>
      obtain ⟨d, hd⟩ : ∃ d, b :: bs = d := ⟨_, rfl⟩
      have hpos : 0 < d.length := by rw [← hd]; simp
      simp only [tableAddLoop]
      rw [hd] at h ⊢
      by_cases hfull : t.length ≥ dn.toNat
      · rw [if_pos hfull]
        simp only [Res.passes, Bool.false_eq_true, false_iff]
        omega
      · rw [if_neg hfull]
        rcases bufBytes_cases idLen d with ⟨h1, h2⟩ | ⟨h1, v, h2⟩
        · rw [h2]
          simp only [idLen] at h1
          simp only [Res.passes, Bool.false_eq_true, false_iff]
          omega
        · rw [h2]
          simp only [idLen] at h1 ⊢
          rw [ih (d.drop 32) (t ++ [v]) (by simp; omega) (by simp; omega)]
          simp only [List.length_drop, List.length_append, List.length_cons, List.length_nil]
          omega

theorem dataLoop_iff : ∀ (n : Nat) (input : Bytes) (x : FullSt), input.length ≤ n →
    ((FullSt.dataInputsLoop n input x).2.passes ↔
      input.length % 32 = 0 ∧ input.length / 32 ≤ x.c.dataInputs.toNat) := by
  intro n
  induction n with
  | zero =>
    intro input x h
    have : input = [] := by simpa using h
    subst this
    simp [FullSt.dataInputsLoop, Res.passes]
  | succ n ih =>
    intro input x h
    cases input with
    | nil => simp [FullSt.dataInputsLoop, Res.passes]
    | cons b bs =>
      obtain ⟨d, hd⟩ : ∃ d, b :: bs = d := ⟨_, rfl⟩
      have hpos : 0 < d.length := by rw [← hd]; simp
      simp only [FullSt.dataInputsLoop]
      rw [hd] at h ⊢
      by_cases hz : x.c.dataInputs = 0
      · rw [if_pos hz]
        have := u16_eq_zero.1 hz
        simp only [FullSt.fail, Res.passes, Bool.false_eq_true, false_iff]
        omega
      · rw [if_neg hz]
        have hz' := u16_ne_zero.1 hz
        rcases bufBytes_cases idLen d with ⟨h1, h2⟩ | ⟨h1, v, h2⟩
        · rw [h2]
          simp only [idLen] at h1
          simp only [FullSt.fail, Res.passes, Bool.false_eq_true, false_iff]
          omega
        · rw [h2]
          simp only [idLen] at h1 ⊢
          rw [ih (d.drop 32) _ (by simp; omega)]
          have hs1 : (x.c.dataInputs - 1).toNat = x.c.dataInputs.toNat - 1 :=
            u16_sub_ofNat _ (k := 1) hz'
          simp only [List.length_drop, hs1]
          omega

/-! ## Token entries of frames -/

theorem grow_length : ∀ (ids t : List Bytes), t.length ≤ (grow t ids).length := by
  intro ids
  induction ids with
  | nil => intro t; exact Nat.le_refl _
  | cons id ids ih =>
    intro t
    rw [grow_cons]
    refine Nat.le_trans ?_ (ih _)
    split <;> simp

theorem TableGrows.length {t ids t' : List Bytes} (h : TableGrows t ids t') :
    t'.length = t.length + ((ids.filter (· ∉ t)).dedup).length := by
  obtain ⟨e, h1, h2, h3⟩ := grow_set ids t
  rw [show t' = grow t ids from h]
  rw [h1, List.length_append]
  congr 1
  apply List.Perm.length_eq
  rw [List.perm_ext_iff_of_nodup h2 (List.nodup_dedup _)]
  intro id
  rw [h3, List.mem_dedup, List.mem_filter]
  simp only [decide_eq_true_eq]
  tauto

variable {a : Amounts} {base : List Bytes} {vin vch vfee : Nat} {tin : Bytes → Nat}

theorem addInputToken_iff (hA : AmtRel a base vin vch vfee tin (fun _ => 0)) (id : Bytes)
    (v : UInt64) : (a.addInputToken id v).2.passes ↔
      tin id + v.toNat < 2 ^ 63 ∧ (id ∈ a.table ∨ a.table.length < 20) := by
  unfold Amounts.addInputToken
  split
  · rename_i i hf
    have hb := hA.bal id i hf
    have hm : id ∈ a.table := by
      by_contra hc
      rw [tableFind_none.2 hc] at hf; simp at hf
    have hmin : ¬ a.tokens.getD i 0 = Int64.minValue := by
      intro he
      rw [he] at hb
      have : Int64.minValue.toInt = -9223372036854775808 := by decide +kernel
      rw [this] at hb
      simp at hb
    rw [if_neg hmin]
    have hc := C05_add_i64 (a.tokens.getD i 0) v
    rw [hb] at hc
    have hcond : ((tin id : Int) - ((0 : Nat) : Int) + v.toNat < 2 ^ 63) ↔
        tin id + v.toNat < 2 ^ 63 := by
      simp only [Nat.cast_zero, sub_zero]
      norm_cast
    split
    · rename_i hn
      rw [hn] at hc
      simp only [Option.map_none] at hc
      split at hc
      · simp at hc
      · rename_i hnot
        rw [hcond] at hnot
        exact iff_of_false (by simp [Res.passes]) (fun hc => hnot hc.1)
    · rename_i s hs
      rw [hs] at hc
      simp only [Option.map_some] at hc
      split at hc
      · rename_i hyes
        rw [hcond] at hyes
        exact iff_of_true rfl ⟨hyes, .inl hm⟩
      · simp at hc
  · rename_i hf
    rw [tableFind_none] at hf
    have h0 := hA.tin0 id hf
    unfold tableAddToken
    by_cases hl : a.table.length ≥ tokenMax
    · rw [if_pos hl]
      simp only [tokenMax] at hl
      simp only [Res.passes, Bool.false_eq_true, false_iff, not_and, not_or]
      intro _
      exact ⟨hf, by omega⟩
    · rw [if_neg hl]
      simp only [tokenMax] at hl
      simp only
      have hc := C05_add_i64 0 v
      have hcond : ((0 : Int64).toInt + v.toNat < 2 ^ 63) ↔ tin id + v.toNat < 2 ^ 63 := by
        rw [h0, show (0 : Int64).toInt = 0 from rfl]
        simp only [zero_add]
        norm_cast
      split
      · rename_i hn
        rw [hn] at hc
        simp only [Option.map_none] at hc
        split at hc
        · simp at hc
        · rename_i hnot
          rw [hcond] at hnot
          exact iff_of_false (by simp [Res.passes]) (fun hc => hnot hc.1)
      · rename_i s hs
        rw [hs] at hc
        simp only [Option.map_some] at hc
        split at hc
        · rename_i hyes
          rw [hcond] at hyes
          simp only [Res.passes, true_iff]
          exact ⟨hyes, .inr (by omega)⟩
        · simp at hc

theorem inputTokensLoop_iff : ∀ (n : Nat) (input : Bytes) (x : InputSt) (tin : Bytes → Nat),
    AmtRel x.a base vin vch vfee tin (fun _ => 0) → input.length ≤ n →
    (∀ id, tin id < 2 ^ 63) →
    ((InputSt.tokensLoop n input x).2.passes ↔
      input.length % 40 = 0 ∧
      (∀ id, tin id + sumOf ((pieces 40 input).map tok40) id < 2 ^ 63) ∧
      (grow x.a.table ((pieces 40 input).map (fun b => (tok40 b).1))).length ≤ 20) := by
  intro n
  induction n with
  | zero =>
    intro input x tin hA h ht
    have : input = [] := by simpa using h
    subst this
    simp only [InputSt.tokensLoop, Res.passes, pieces_nil, grow, sumOf, true_iff]
    exact ⟨by simp, by simpa using ht, by simpa using hA.tlen⟩
  | succ n ih =>
    intro input x tin hA h ht
    cases input with
    | nil =>
      simp only [InputSt.tokensLoop, Res.passes, pieces_nil, grow, sumOf, true_iff]
      exact ⟨by simp, by simpa using ht, by simpa using hA.tlen⟩
    | cons b bs =>
      obtain ⟨d, hd⟩ : ∃ d, b :: bs = d := ⟨_, rfl⟩
      have hpos : 0 < d.length := by rw [← hd]; simp
      simp only [InputSt.tokensLoop]
      rw [hd] at h ⊢
      rcases bufBytes_cases idLen d with ⟨h1, h2⟩ | ⟨h1, id, h2⟩
      · rw [h2]
        simp only [idLen] at h1
        simp only [InputSt.fail, Res.passes, Bool.false_eq_true, false_iff, not_and]
        intro hc; omega
      rw [h2]
      simp only [idLen] at h1 ⊢
      rcases bufU64_cases (d.drop 32) with ⟨h3, h4⟩ | ⟨h3, v, h4⟩
      · simp only [h4]
        simp only [List.length_drop] at h3
        simp only [InputSt.fail, Res.passes, Bool.false_eq_true, false_iff, not_and]
        intro hc; omega
      simp only [h4]
      simp only [List.length_drop] at h3
      obtain ⟨e, hl⟩ := bufBytes_some h2
      have hl : id.length = 32 := hl
      have hr := bufU64_some h4
      have hal : (id ++ writeU64be v).length = 40 := by
        simp [hl, length_writeU64]
      have hdd : d = (id ++ writeU64be v) ++ (d.drop 32).drop 8 := by
        have e' : d = id ++ d.drop 32 := e
        rw [hr] at e'
        simpa using e'
      have htok : tok40 (id ++ writeU64be v) = (id, v.toNat) := by
        simp only [tok40]
        rw [← hl]; simp [be_writeU64]
      have hpc : pieces 40 d = (id ++ writeU64be v) :: pieces 40 ((d.drop 32).drop 8) := by
        conv_lhs => rw [hdd]
        exact pieces_append _ hal (by omega)
      have hiff := addInputToken_iff hA id v
      simp only [hpc, List.map_cons, htok, sumOf_cons, grow_cons]
      obtain ⟨a1, q, hadd⟩ : ∃ a1 q, x.a.addInputToken id v = (a1, q) := ⟨_, _, rfl⟩
      rw [hadd] at hiff ⊢
      have nope : q.passes = false → ¬ (d.length % 40 = 0 ∧
          (∀ id_1, tin id_1 + ((if id_1 = id then v.toNat else 0) +
            sumOf ((pieces 40 ((d.drop 32).drop 8)).map tok40) id_1) < 2 ^ 63) ∧
          (grow (if id ∈ x.a.table then x.a.table else x.a.table ++ [id])
            ((pieces 40 ((d.drop 32).drop 8)).map (fun b => (tok40 b).1))).length ≤ 20) := by
        intro hq ⟨_, g2, g3⟩
        have : q.passes = true := hiff.2 ⟨by
            have := g2 id
            simp only [if_true] at this
            omega, by
            by_contra hc
            simp only [not_or] at hc
            rw [if_neg hc.1] at g3
            have := grow_length ((pieces 40 ((d.drop 32).drop 8)).map (fun b => (tok40 b).1))
              (x.a.table ++ [id])
            simp only [List.length_append, List.length_cons, List.length_nil] at this
            omega⟩
        rw [hq] at this; simp at this
      cases q with
      | ok =>
        obtain ⟨_, hA'⟩ := hA.addInputToken hl hadd rfl
        have htab := addInputToken_table hadd rfl
        have ok := hiff.1 rfl
        simp only
        rw [ih _ _ _ hA' (by simp; omega) (by
          intro j
          by_cases hj : j = id
          · subst hj; simp only [if_true]; exact ok.1
          · simp only [hj, if_false, Nat.add_zero]; exact ht j)]
        simp only [htab, List.length_drop, Nat.add_assoc]
        have : (d.length - 32 - 8) % 40 = 0 ↔ d.length % 40 = 0 := by omega
        rw [this]
      | more =>
        exact absurd (congrArg Prod.snd hadd) (addInputToken_nomore x.a id v)
      | err e =>
        simp only [InputSt.fail]
        exact iff_of_false (by simp [Res.passes]) (nope rfl)
      | ub => exact iff_of_false (by simp [Res.passes]) (nope rfl)

/-! ## The commands -/

/-- The end of an input is never an error. -/
theorem inputFinished_passes (x : FullSt) : (x.inputFinished).2.passes := by
  unfold FullSt.inputFinished
  simp only
  split
  · split <;> rfl
  · rfl

/-- What is known before any command that needs the table complete or not. -/
theorem FullRel.table_lt (hR : FullRel keyOf h0 x D) :
    x.c.state = .tokensStarted ↔ D.table.length < D.nTok := by
  have hph := hR.phase
  unfold FullPhase OutPhase at hph
  constructor
  · intro h; rw [h] at hph; exact hph.1
  · intro h
    split at hph
    · assumption
    all_goals first | exact hph.elim | (exfalso; omega)

theorem addTokens_iff (hR : FullRel keyOf h0 x D) (input : Bytes) :
    (x.addTokens input).2.passes ↔ D.table.length < D.nTok ∧ input.length % 32 = 0 ∧
      D.table.length + input.length / 32 ≤ D.nTok := by
  unfold FullSt.addTokens
  by_cases hst : x.c.state = .tokensStarted
  · have hlt := hR.table_lt.1 hst
    have ht : x.s.a.table = D.table := by
      have hph := hR.phase
      unfold FullPhase at hph
      rw [hst] at hph
      exact hph.2.1
    rw [if_neg (by simpa using hst)]
    have key := tableAddLoop_iff (dn := x.c.distinct) input.length input x.s.a.table
      (Nat.le_refl _) (by rw [ht, hR.distinct]; omega)
    rw [ht, hR.distinct] at key
    have : (tableAdd x.c.distinct input x.s.a.table).2.passes =
        (tableAddLoop x.c.distinct input.length input D.table).2.passes := by
      unfold tableAdd
      rw [ht]
      split
      · rename_i t' he
        rw [he]
        by_cases hc : t'.length ≥ x.c.distinct.toNat
        · rw [if_pos hc]
        · rw [if_neg hc]; rfl
      · rfl
    rw [← this] at key
    simp only
    generalize (tableAdd x.c.distinct input x.s.a.table).2 = q at key ⊢
    cases q with
    | ok => exact ⟨fun _ => ⟨hlt, key.1 rfl⟩, fun _ => rfl⟩
    | more => exact ⟨fun _ => ⟨hlt, key.1 rfl⟩, fun _ => rfl⟩
    | err e =>
      exact iff_of_false (by simp [FullSt.fail, Res.passes])
        (fun hc => by simpa [Res.passes] using key.2 hc.2)
    | ub =>
      exact iff_of_false (by simp [Res.passes])
        (fun hc => by simpa [Res.passes] using key.2 hc.2)
  · rw [if_pos hst]
    refine iff_of_false (by simp [FullSt.fail, Res.passes]) (fun hc => hst (hR.table_lt.2 hc.1))

/-- Not all inputs are there. -/
theorem FullRel.inputs_missing (hR : FullRel keyOf h0 x D) (ht : D.table.length = D.nTok)
    (h : D.inputs.length < D.nIn ∨ ∃ i ∈ D.inputs, i.complete = false) :
    x.c.state = .inputsStarted := by
  have hph := hR.phase
  have all : (∀ i ∈ D.inputs, i.complete) ∧ D.inputs.length = D.nIn → False := by
    rintro ⟨h1, h2⟩
    rcases h with h | ⟨i, hi, hc⟩
    · omega
    · have := h1 i hi
      rw [hc] at this; simp at this
  unfold FullPhase OutPhase at hph
  split at hph
  · exfalso; omega
  · assumption
  · exact (all ⟨hph.2.2.1, hph.2.2.2.1⟩).elim
  · exact (all ⟨hph.2.2.1, hph.2.2.2.1⟩).elim
  · exact (all ⟨hph.2.1.2.1, hph.2.1.2.2.1⟩).elim
  · exact hph.elim

theorem addInput_iff (hR : FullRel keyOf h0 x D) (hgot : ∀ i ∈ D.inputs, 0 < i.got)
    (boxId : Bytes) (frames : UInt8) (ext : UInt32) :
    (x.addInput boxId frames ext).2.passes ↔ D.table.length = D.nTok ∧
      D.inputs.length < D.nIn ∧ (∀ i ∈ D.inputs, i.complete) ∧ ext.toNat ≠ 1 ∧
      ext.toNat ≤ 32768 := by
  unfold FullSt.addInput
  by_cases hst : x.c.state = .inputsStarted
  · rw [if_neg (by simpa using hst)]
    have hph := hR.phase
    unfold FullPhase at hph
    rw [hst] at hph
    simp only at hph
    obtain ⟨ht, hdi, ho, hd, hno, ic, hsub, hin⟩ := hph
    rw [hsub]
    simp only
    by_cases hic : ic.state = .finished
    · rw [if_neg (by simpa using hic)]
      simp only [InPhase, hic] at hin
      obtain ⟨hc, hn, hpos, hh⟩ := hin
      rw [if_neg (u16_ne_zero.2 hpos)]
      unfold inputInit
      have h1 : ext = 1 ↔ ext.toNat = 1 := by rw [← UInt32.toNat_inj]; rfl
      by_cases hbad : ext = 1 ∨ ext.toNat > 32768
      · rw [if_pos hbad]
        refine iff_of_false (by simp [FullSt.fail, Res.passes]) ?_
        rintro ⟨_, _, _, g1, g2⟩
        rcases hbad with hb | hb
        · exact g1 (h1.1 hb)
        · omega
      · rw [if_neg hbad]
        rw [not_or, h1] at hbad
        exact iff_of_true rfl ⟨ht, by omega, hc, hbad.1, by omega⟩
    · rw [if_pos hic]
      refine iff_of_false (by simp [FullSt.fail, Res.passes]) ?_
      rintro ⟨_, _, g, _⟩
      unfold InPhase at hin
      split at hin
      · rename_i he; exact hic he
      · obtain ⟨i, is, hD, e1, e2, e3, e4, e5, e6, e7, e8, e9, e10⟩ := hin
        have := g i (by rw [hD]; simp)
        have hp := hgot i (by rw [hD]; simp)
        simp only [InDesc.complete, Bool.and_eq_true, decide_eq_true_eq] at this
        omega
      · obtain ⟨i, is, hD, e1, e2, e3, e4, e5, e6, e7⟩ := hin
        have := g i (by rw [hD]; simp)
        simp only [InDesc.complete, Bool.and_eq_true, decide_eq_true_eq] at this
        omega
      · exact hin
  · rw [if_pos hst]
    refine iff_of_false (by simp [FullSt.fail, Res.passes]) ?_
    rintro ⟨g1, g2, _⟩
    exact hst (hR.inputs_missing g1 (.inl g2))

/-- Token sums that can be represented. -/
theorem AmtRel.tin_lt (hA : AmtRel a base vin vch vfee tin (fun _ => 0)) (id : Bytes) :
    tin id < 2 ^ 63 := by
  by_cases hm : id ∈ a.table
  · obtain ⟨i, hf⟩ := tableFind_mem hm
    have h1 := hA.bal id i hf
    have h2 := (a.tokens.getD i 0).toInt_lt
    rw [h1] at h2
    simp only [Nat.cast_zero, sub_zero] at h2
    exact_mod_cast h2
  · rw [hA.tin0 id hm]; decide

theorem addInputTokens_iff (hR : FullRel keyOf h0 x D) (boxId tokens : Bytes) (index : UInt8) :
    (x.addInputTokens boxId index tokens).2.passes ↔
      (∃ i is, D.inputs = i :: is ∧ boxId = i.boxId ∧ index.toNat = i.got ∧ i.got < i.frames) ∧
      tokens.length % 40 = 0 ∧
      (∀ id, D.tokIn id + sumOf ((pieces 40 tokens).map tok40) id < 2 ^ 63) ∧
      (grow x.s.a.table ((pieces 40 tokens).map (fun b => (tok40 b).1))).length ≤ 20 := by
  unfold FullSt.addInputTokens
  by_cases hst : x.c.state = .inputsStarted
  · rw [if_neg (by simpa using hst)]
    have hph := hR.phase
    unfold FullPhase at hph
    rw [hst] at hph
    simp only at hph
    obtain ⟨ht, hdi, ho, hd, hno, ic, hsub, hin⟩ := hph
    rw [hsub]
    simp only
    have hA := hR.amt
    rw [tokOut_nil ho] at hA
    have loop := inputTokensLoop_iff tokens.length tokens ⟨ic, x.h, x.s.a⟩ D.tokIn hA
      (Nat.le_refl _) hA.tin_lt
    have key : (InputSt.addTokens ⟨ic, x.h, x.s.a⟩ boxId index tokens).2.passes ↔
        (∃ i is, D.inputs = i :: is ∧ boxId = i.boxId ∧ index.toNat = i.got ∧ i.got < i.frames) ∧
        (InputSt.tokensLoop tokens.length tokens ⟨ic, x.h, x.s.a⟩).2.passes := by
      unfold InputSt.addTokens
      simp only
      by_cases hic : ic.state = .framesStarted
      · rw [if_neg (by simpa using hic)]
        simp only [InPhase, hic] at hin
        obtain ⟨i, is, hD, e1, e2, e3, e4, e5, e6, e7, e8, e9, e10⟩ := hin
        have hex : (∃ i is, D.inputs = i :: is ∧ boxId = i.boxId ∧ index.toNat = i.got ∧
            i.got < i.frames) ↔ boxId = ic.boxId ∧ index = ic.framesProcessed ∧
            index < ic.framesCount := by
          rw [UInt8.lt_iff_toNat_lt, ← UInt8.toNat_inj, ← e4, ← e5, ← e6]
          constructor
          · rintro ⟨j, js, hj, g1, g2, g3⟩
            rw [hD] at hj
            simp only [List.cons.injEq] at hj
            obtain ⟨rfl, rfl⟩ := hj
            exact ⟨g1, g2, by omega⟩
          · rintro ⟨g1, g2, g3⟩
            exact ⟨i, is, hD, g1, g2, by omega⟩
        rw [hex]
        by_cases hb : ic.boxId ≠ boxId
        · rw [if_pos hb]
          exact iff_of_false (by simp [InputSt.fail, Res.passes]) (fun hc => hb hc.1.1.symm)
        rw [if_neg hb]
        simp only [ne_eq, Decidable.not_not] at hb
        by_cases hge : index ≥ ic.framesCount
        · rw [if_pos hge]
          refine iff_of_false (by simp [InputSt.fail, Res.passes]) (fun hc => ?_)
          have := hc.1.2.2
          simp only [UInt8.lt_iff_toNat_lt, ge_iff_le, UInt8.le_iff_toNat_le] at this hge
          omega
        rw [if_neg hge]
        by_cases hne : index ≠ ic.framesProcessed
        · rw [if_pos hne]
          exact iff_of_false (by simp [InputSt.fail, Res.passes]) (fun hc => hne hc.1.2.1)
        rw [if_neg hne]
        simp only [ne_eq, Decidable.not_not] at hne
        have hlt : index < ic.framesCount := by simpa using hge
        simp only [hb, hne, true_and]
        rw [hne] at hlt
        simp only [hlt, true_and]
        obtain ⟨y, q, hy⟩ : ∃ y q,
            InputSt.tokensLoop tokens.length tokens ⟨ic, x.h, x.s.a⟩ = (y, q) := ⟨_, _, rfl⟩
        rw [hy]
        cases q with
        | ok =>
          simp only
          split
          · split <;> simp [Res.passes]
          · simp [Res.passes]
        | more => rfl
        | err e => rfl
        | ub => rfl
      · rw [if_pos hic]
        refine iff_of_false (by simp [InputSt.fail, Res.passes]) ?_
        rintro ⟨⟨i, is, hD, _, _, hlt⟩, _⟩
        unfold InPhase at hin
        split at hin
        · have := hin.1 i (by rw [hD]; simp)
          simp only [InDesc.complete, Bool.and_eq_true, decide_eq_true_eq] at this
          omega
        · rename_i he; exact hic he
        · obtain ⟨j, js, hj, e1, e2, e3, e4, _⟩ := hin
          rw [hD] at hj
          simp only [List.cons.injEq] at hj
          obtain ⟨rfl, rfl⟩ := hj
          omega
        · exact hin
    rw [← loop, ← key]
    obtain ⟨y, q, hy⟩ : ∃ y q, InputSt.addTokens ⟨ic, x.h, x.s.a⟩ boxId index tokens = (y, q) :=
      ⟨_, _, rfl⟩
    rw [hy]
    cases q with
    | ok =>
      simp only
      split
      · exact iff_of_true (inputFinished_passes _) rfl
      · exact iff_of_true rfl rfl
    | more => rfl
    | err e => simp [FullSt.fail, Res.passes]
    | ub => rfl
  · rw [if_pos hst]
    refine iff_of_false (by simp [FullSt.fail, Res.passes]) ?_
    rintro ⟨⟨i, is, hD, _, _, hlt⟩, _⟩
    refine hst (hR.inputs_missing ?_ (.inr ⟨i, by rw [hD]; simp, ?_⟩))
    · by_contra hc
      have := hR.phase
      unfold FullPhase OutPhase at this
      split at this
      · rw [hD] at this; simp at this
      all_goals first | exact this.elim | omega
    · simp only [InDesc.complete, Bool.and_eq_false_iff, decide_eq_false_iff_not]
      left; omega

theorem addInputExtension_iff (hR : FullRel keyOf h0 x D) (chunk : Bytes)
    (hgot : ∀ i ∈ D.inputs, 0 < i.got) :
    (x.addInputExtension chunk).2.passes ↔
      ∃ i is, D.inputs = i :: is ∧ i.got = i.frames ∧ i.ext.length < i.extSize ∧
        i.ext.length + chunk.length ≤ i.extSize := by
  unfold FullSt.addInputExtension
  by_cases hst : x.c.state = .inputsStarted
  · rw [if_neg (by simpa using hst)]
    have hph := hR.phase
    unfold FullPhase at hph
    rw [hst] at hph
    simp only at hph
    obtain ⟨ht, hdi, ho, hd, hno, ic, hsub, hin⟩ := hph
    rw [hsub]
    simp only
    have key : (InputSt.addExtension ⟨ic, x.h, x.s.a⟩ chunk).2.passes ↔
        ∃ i is, D.inputs = i :: is ∧ i.got = i.frames ∧ i.ext.length < i.extSize ∧
        i.ext.length + chunk.length ≤ i.extSize := by
      unfold InputSt.addExtension
      simp only
      by_cases hic : ic.state = .extensionStarted
      · rw [if_neg (by simpa using hic)]
        simp only [InPhase, hic] at hin
        obtain ⟨i, is, hD, e1, e2, e3, e4, e5, e6, e7⟩ := hin
        by_cases hle : ic.extSize.toNat < chunk.length
        · rw [if_pos hle]
          refine iff_of_false (by simp [InputSt.fail, Res.passes]) ?_
          rintro ⟨j, js, hj, g1, g2, g3⟩
          rw [hD] at hj
          simp only [List.cons.injEq] at hj
          obtain ⟨rfl, rfl⟩ := hj
          omega
        · rw [if_neg hle]
          refine iff_of_true ?_ ⟨i, is, hD, e4, by omega, by omega⟩
          split <;> rfl
      · rw [if_pos hic]
        refine iff_of_false (by simp [InputSt.fail, Res.passes]) ?_
        rintro ⟨i, is, hD, g1, g2, g3⟩
        unfold InPhase at hin
        split at hin
        · have := hin.1 i (by rw [hD]; simp)
          simp only [InDesc.complete, Bool.and_eq_true, decide_eq_true_eq] at this
          omega
        · obtain ⟨j, js, hj, e1, e2, e3, e4, e5, e6, e7, e8, e9, e10⟩ := hin
          have hp := hgot i (by rw [hD]; simp)
          rw [hD] at hj
          simp only [List.cons.injEq] at hj
          obtain ⟨rfl, rfl⟩ := hj
          omega
        · rename_i he; exact hic he
        · exact hin
    rw [← key]
    obtain ⟨y, q, hy⟩ : ∃ y q, InputSt.addExtension ⟨ic, x.h, x.s.a⟩ chunk = (y, q) :=
      ⟨_, _, rfl⟩
    rw [hy]
    cases q with
    | ok => exact iff_of_true (inputFinished_passes _) rfl
    | more => rfl
    | err e => simp [FullSt.fail, Res.passes]
    | ub => rfl
  · rw [if_pos hst]
    refine iff_of_false (by simp [FullSt.fail, Res.passes]) ?_
    rintro ⟨i, is, hD, _, hlt, _⟩
    refine hst (hR.inputs_missing ?_ (.inr ⟨i, by rw [hD]; simp, ?_⟩))
    · by_contra hc
      have := hR.phase
      unfold FullPhase OutPhase at this
      split at this
      · rw [hD] at this; simp at this
      all_goals first | exact this.elim | omega
    · simp only [InDesc.complete, Bool.and_eq_false_iff, decide_eq_false_iff_not]
      right; omega

theorem addDataInputs_iff (hR : FullRel keyOf h0 x D) (input : Bytes)
    (hgot : ∀ i ∈ D.inputs, 0 < i.got) :
    (x.addDataInputs input).2.passes ↔
      D.AllInputs ∧ D.dataInputs.length < D.nData ∧ input.length % 32 = 0 ∧
        D.dataInputs.length + input.length / 32 ≤ D.nData := by
  unfold FullSt.addDataInputs
  have hph := hR.phase
  by_cases hst : x.c.state = .dataInputsStarted
  · rw [if_neg (by simpa using hst)]
    unfold FullPhase at hph
    rw [hst] at hph
    simp only at hph
    obtain ⟨ht, ho, hi, hn, hd, hpos, hno, hh⟩ := hph
    have loop := dataLoop_iff input.length input x (Nat.le_refl _)
    have : (D.AllInputs ∧ D.dataInputs.length < D.nData ∧ input.length % 32 = 0 ∧
        D.dataInputs.length + input.length / 32 ≤ D.nData) ↔ input.length % 32 = 0 ∧
          input.length / 32 ≤ x.c.dataInputs.toNat := by
      constructor
      · rintro ⟨_, _, g1, g2⟩
        exact ⟨g1, by omega⟩
      · rintro ⟨g1, g2⟩
        exact ⟨⟨hn, hi⟩, by omega, g1, by omega⟩
    rw [this, ← loop]
    obtain ⟨y, q, hy⟩ : ∃ y q, FullSt.dataInputsLoop input.length input x = (y, q) := ⟨_, _, rfl⟩
    rw [hy]
    cases q with
    | ok =>
      simp only
      split
      · exact iff_of_true rfl rfl
      · exact iff_of_true rfl rfl
    | more => rfl
    | err e => rfl
    | ub => rfl
  · rw [if_pos hst]
    refine iff_of_false (by simp [FullSt.fail, Res.passes]) ?_
    rintro ⟨⟨g1, g2⟩, g3, _⟩
    have hnin := hR.nIn
    unfold FullPhase OutPhase at hph
    split at hph
    · rw [hph.2.2.1] at g1; simp at g1; omega
    · obtain ⟨ht, hdi, ho, hd, hno, ic, hsub, hin⟩ := hph
      unfold InPhase at hin
      split at hin
      · omega
      · obtain ⟨j, js, hj, e1, e2, e3, e4, e5, e6, e7, e8, e9, e10⟩ := hin
        have hc := g2 j (by rw [hj]; simp)
        have hp := hgot j (by rw [hj]; simp)
        simp only [InDesc.complete, Bool.and_eq_true, decide_eq_true_eq] at hc
        omega
      · obtain ⟨j, js, hj, e1, e2, e3, e4, e5, e6, e7⟩ := hin
        have hc := g2 j (by rw [hj]; simp)
        simp only [InDesc.complete, Bool.and_eq_true, decide_eq_true_eq] at hc
        omega
      · exact hin
    · rename_i he; exact hst he
    · omega
    · omega
    · exact hph

theorem addBox_iff (hR : FullRel keyOf h0 x D) (hgot : ∀ i ∈ D.inputs, 0 < i.got)
    (value : UInt64) (ts ht rg : UInt32) (nt : UInt8) :
    (x.addBox value ts ht nt rg).2.passes ↔
      D.AllInputs ∧ D.dataInputs.length = D.nData ∧ D.outputs.countP (·.box.complete) < D.nOut ∧
        ts.toNat ≤ 32768 ∧ nt.toNat ≤ 20 ∧ rg.toNat ≤ 32768 := by
  unfold FullSt.addBox
  have hph := hR.phase
  by_cases hst : x.c.state = .outputsStarted
  · rw [if_neg (by simpa using hst)]
    unfold FullPhase OutPhase at hph
    rw [hst] at hph
    simp only at hph
    obtain ⟨hpos, htab, hi, hn, hd, hcnt, _⟩ := hph
    rw [if_neg (u16_ne_zero.2 hpos)]
    have : (D.AllInputs ∧ D.dataInputs.length = D.nData ∧
        D.outputs.countP (·.box.complete) < D.nOut ∧
        ts.toNat ≤ 32768 ∧ nt.toNat ≤ 20 ∧ rg.toNat ≤ 32768) ↔
        ts.toNat ≤ 32768 ∧ nt.toNat ≤ 20 ∧ rg.toNat ≤ 32768 :=
      ⟨fun h => h.2.2.2, fun h => ⟨⟨hn, hi⟩, hd, by omega, h⟩⟩
    rw [this]
    have hb : (boxInit value ts ht nt rg x.h).2.2 ≠ .ub ∧
        ((boxInit value ts ht nt rg x.h).2.2.passes ↔
          ts.toNat ≤ 32768 ∧ nt.toNat ≤ 20 ∧ rg.toNat ≤ 32768) := by
      unfold boxInit
      have e1 : tokenMax = 20 := rfl
      have e2 : maxPart = 32768 := rfl
      by_cases h1 : nt.toNat > tokenMax
      · rw [if_pos h1]
        exact ⟨nofun, iff_of_false (by simp [Res.passes]) (by omega)⟩
      rw [if_neg h1]
      by_cases h2 : ts.toNat > maxPart
      · rw [if_pos h2]
        exact ⟨nofun, iff_of_false (by simp [Res.passes]) (by omega)⟩
      rw [if_neg h2]
      by_cases h3 : rg.toNat > maxPart
      · rw [if_pos h3]
        exact ⟨nofun, iff_of_false (by simp [Res.passes]) (by omega)⟩
      rw [if_neg h3]
      exact ⟨nofun, iff_of_true rfl (by omega)⟩
    rw [← hb.2]
    have hnu := hb.1
    simp only
    generalize (boxInit value ts ht nt rg x.h).2.2 = q at hnu
    cases q with
    | ok => exact iff_of_true rfl rfl
    | more => exact iff_of_true rfl rfl
    | err e => simp [FullSt.fail, Res.passes]
    | ub => exact absurd rfl hnu
  · rw [if_pos hst]
    refine iff_of_false (by simp [FullSt.fail, Res.passes]) ?_
    rintro ⟨⟨g1, g2⟩, g3, g4, _⟩
    have hnin := hR.nIn
    unfold FullPhase OutPhase at hph
    split at hph
    · rw [hph.2.2.1] at g1; simp at g1; omega
    · obtain ⟨ht, hdi, ho, hd, hno, ic, hsub, hin⟩ := hph
      unfold InPhase at hin
      split at hin
      · omega
      · obtain ⟨j, js, hj, e1, e2, e3, e4, e5, e6, e7, e8, e9, e10⟩ := hin
        have hc := g2 j (by rw [hj]; simp)
        have hp := hgot j (by rw [hj]; simp)
        simp only [InDesc.complete, Bool.and_eq_true, decide_eq_true_eq] at hc
        omega
      · obtain ⟨j, js, hj, e1, e2, e3, e4, e5, e6, e7⟩ := hin
        have hc := g2 j (by rw [hj]; simp)
        simp only [InDesc.complete, Bool.and_eq_true, decide_eq_true_eq] at hc
        omega
      · exact hin
    · omega
    · rename_i he; exact hst he
    · omega
    · exact hph

end Ergo
