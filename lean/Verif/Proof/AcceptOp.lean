import Verif.Proof.AcceptOut
import Verif.Proof.Lengths
import Verif.Proof.Accepted
import Verif.Props.Arith
/-!
# When the commands of a signing session are accepted
-/
namespace Ergo
open Spec

variable {env : Env} {h0 : Bytes} {p p' : P2pk} {D : TxDesc} {data : Bytes}

/-! ## Serializer calls -/

theorem withTx_iff {f : FullSt → FullSt × Res FullErr} {t : TxData} (hu : p.u = .transaction t) :
    (∃ p', p.withTx f = .ok p') ↔
      (f ⟨t.tx, p.hash, ⟨p.amounts, t.out.getD (.init 0)⟩⟩).2.passes := by
  constructor
  · rintro ⟨p', h⟩
    obtain ⟨x, r, hf, hr, _⟩ := withTx_ok hu h
    rw [hf]; exact hr
  · intro h
    unfold P2pk.withTx
    rw [hu]
    obtain ⟨x, r, hf⟩ : ∃ x r, f ⟨t.tx, p.hash, ⟨p.amounts, t.out.getD (.init 0)⟩⟩ = (x, r) :=
      ⟨_, _, rfl⟩
    rw [hf] at h
    simp only [hf]
    rcases passes_iff.1 h with rfl | rfl
    · exact ⟨_, rfl⟩
    · exact ⟨_, rfl⟩

/-- A transaction was started iff the operation left its first state. -/
theorem PRel.started (hR : PRel env h0 p D) (hnf : p.state ≠ .finalized) (h : 0 < D.nIn) :
    ∃ t, p.u = .transaction t ∧ TxSim env h0 p.state p.hash p.amounts t D := by
  refine hR.tx ?_ hnf
  intro he
  unfold PRel at hR
  rw [he] at hR
  rw [hR.2.2] at h
  simp [TxDesc.empty] at h

theorem PRel.started' (hR : PRel env h0 p D) (hnf : p.state ≠ .finalized)
    (h : p.state ≠ .initialized) : 0 < D.nIn := by
  obtain ⟨t, _, hT⟩ := hR.tx h hnf
  exact hT.full.nIn

theorem FullRel.outDone {keyOf : List UInt32 → Bytes} {x : FullSt} (hR : FullRel keyOf h0 x D)
    (h : x.c.state = .outputsStarted ∨ x.c.state = .finished) :
    D.table.length = D.nTok ∧ (∀ i ∈ D.inputs, i.complete) ∧ D.inputs.length = D.nIn ∧
      D.dataInputs.length = D.nData := by
  have hph := hR.phase
  unfold FullPhase at hph
  rcases h with h | h <;> rw [h] at hph
  · exact ⟨hph.2.1, hph.2.2.1, hph.2.2.2.1, hph.2.2.2.2.1⟩
  · exact ⟨hph.2.1.1, hph.2.1.2.1, hph.2.1.2.2.1, hph.2.1.2.2.2.1⟩

theorem FullRel.tableDone {keyOf : List UInt32 → Bytes} {x : FullSt} (hR : FullRel keyOf h0 x D)
    (h : D.inputs ≠ []) : D.table.length = D.nTok := by
  have hph := hR.phase
  unfold FullPhase at hph
  split at hph
  · exact absurd hph.2.2.1 h
  · exact hph.1
  · exact hph.1
  · exact hph.2.1
  · exact hph.2.1.1
  · exact hph.elim

/-- An input is missing or incomplete: the operation is before the outputs. -/
theorem TxSim.before {st : P2pkState} {hash : Bytes} {a : Amounts} {t : TxData}
    (hT : TxSim env h0 st hash a t D)
    (h : D.inputs.length < D.nIn ∨ ∃ i ∈ D.inputs, i.complete = false) :
    st = .txStarted ∨ st = .inputsStarted := by
  have hs := hT.state
  unfold StateRel at hs
  have key : ∀ c, c = t.tx.state → (c = .outputsStarted ∨ c = .finished) → False := by
    intro c hc ho
    subst hc
    obtain ⟨_, h1, h2, _⟩ := hT.full.outDone ho
    rcases h with h | ⟨i, hi, hi'⟩
    · omega
    · rw [h1 i hi] at hi'; simp at hi'
  split at hs
  · exact hs.elim
  · simp
  · simp
  · exact (key _ rfl (.inl hs.2)).elim
  · exact (key _ rfl (.inr hs.2)).elim
  · exact hs.elim

/-! ## Start -/

theorem parseStart_some (h : data.length = 7) : ∃ ni nd nt no, parseStart data = .ok (ni, nd, nt, no) := by
  unfold parseStart
  rcases bufU16_cases data with ⟨g1, h1⟩ | ⟨g1, v1, h1⟩
  · omega
  simp only [h1]
  rcases bufU16_cases (data.drop 2) with ⟨g2, h2⟩ | ⟨g2, v2, h2⟩
  · simp only [List.length_drop] at g2; omega
  simp only [h2]
  rcases bufU8_cases ((data.drop 2).drop 2) with ⟨g3, h3⟩ | ⟨g3, v3, h3⟩
  · simp only [List.length_drop] at g3; omega
  simp only [h3]
  rcases bufU16_cases (((data.drop 2).drop 2).drop 1) with ⟨g4, h4⟩ | ⟨g4, v4, h4⟩
  · simp only [List.length_drop] at g4; omega
  simp only [h4]
  refine ⟨v1, v2, v3, v4, ?_⟩
  rw [if_neg]
  rw [not_not, ← List.length_eq_zero_iff]
  simp only [List.length_drop]; omega

theorem opStart_iff (hR : PRel env h0 p D) (hnf : p.state ≠ .finalized) :
    (∃ p', opStart p data = .ok p') ↔ D.nIn = 0 ∧ data.length = 7 ∧ 0 < field data 0 2 ∧
      0 < field data 5 2 ∧ field data 4 1 ≤ 20 := by
  by_cases hl : data.length = 7
  case neg =>
    refine iff_of_false ?_ (fun h => hl h.2.1)
    rintro ⟨p', h⟩
    unfold opStart at h
    rcases Nat.lt_trichotomy data.length 7 with h1 | h1 | h1
    · rw [parseStart_short h1] at h; cases h
    · exact hl h1
    · rw [parseStart_long h1] at h; cases h
  obtain ⟨ni, nd, nt, no, hp⟩ := parseStart_some hl
  obtain ⟨_, f1, f2, f3, f4⟩ := parseStart_ok hp
  unfold opStart
  rw [hp]
  simp only
  unfold P2pk.startTx
  by_cases hst : p.state = .initialized
  case neg =>
    rw [if_pos hst]
    have := hR.started' hnf hst
    refine iff_of_false ?_ (by omega)
    rintro ⟨_, h⟩; cases h
  rw [if_neg (not_not.2 hst)]
  unfold PRel at hR
  rw [hst] at hR
  simp only at hR
  obtain ⟨hh, ha, hD⟩ := hR
  have hn0 : D.nIn = 0 := by rw [hD]; rfl
  rw [f1, f3, f4]
  simp only [hn0, hl, true_and]
  rw [ha]
  unfold fullInit
  by_cases h1 : ni = 0
  · simp [h1]
  have h1' : 0 < ni.toNat := by have := u16_ne_zero.1 h1; omega
  by_cases h2 : no = 0
  · simp [h1, h2]
  have h2' : 0 < no.toNat := by have := u16_ne_zero.1 h2; omega
  simp only [if_neg h1, if_neg h2, tableInit]
  have e1 : tokenMax = 20 := rfl
  by_cases h3 : nt.toNat > tokenMax
  · rw [if_pos (.inr h3)]
    refine iff_of_false ?_ (by omega)
    rintro ⟨_, h⟩; cases h
  · rw [if_neg (by simp [Amounts.zero]; omega)]
    refine iff_of_true ?_ ⟨h1', h2', by omega⟩
    simp only
    by_cases h4 : nt = 0
    · simp only [h4, ne_eq, not_true_eq_false, if_false]; exact ⟨_, rfl⟩
    · simp only [ne_eq, h4, not_false_eq_true, if_true]; exact ⟨_, rfl⟩

/-! ## Inputs -/

theorem addTokens_op (hR : PRel env h0 p D) (hnf : p.state ≠ .finalized) :
    (∃ p', p.addTokens data = .ok p') ↔ 0 < D.nIn ∧ D.table.length < D.nTok ∧
      data.length % 32 = 0 ∧ D.table.length + data.length / 32 ≤ D.nTok := by
  unfold P2pk.addTokens
  by_cases hst : p.state = .txStarted
  · rw [if_neg (not_not.2 hst)]
    obtain ⟨t, hu, hT⟩ := hR.tx (by rw [hst]; simp) hnf
    rw [withTx_iff hu, addTokens_iff hT.full]
    simp [hT.full.nIn]
  · rw [if_pos hst]
    refine iff_of_false (by rintro ⟨_, h⟩; cases h) ?_
    rintro ⟨h1, h2, _⟩
    obtain ⟨t, hu, hT⟩ := hR.started hnf h1
    have hc := hT.full.table_lt.2 h2
    have hph := hT.full.phase
    unfold FullPhase at hph
    rw [hc] at hph
    rcases hT.before (.inl (by rw [hph.2.2.1]; exact h1)) with h | h
    · exact hst h
    · have := hT.state
      rw [h] at this
      exact this.1 hph.2.2.1

/-- The description with a frame added to the newest input. -/
def addToks (D : TxDesc) (toks : List (Bytes × Nat)) : TxDesc :=
  D.onInput (fun i => { i with got := i.got + 1, tokens := i.tokens ++ toks })

/-- The number of ids does not depend on their order. -/
theorem otherIds_length (D : TxDesc) :
    D.otherIds.length = (((inIds D).filter (· ∉ D.table)).dedup).length := by
  unfold TxDesc.otherIds
  apply List.Perm.length_eq
  rw [List.perm_ext_iff_of_nodup (List.nodup_dedup _) (List.nodup_dedup _)]
  intro id
  simp [List.mem_dedup, List.mem_filter, inIds]

theorem addInputTokens_op (hR : PRel env h0 p D) (hnf : p.state ≠ .finalized) (boxId tokens : Bytes)
    (index : UInt8) :
    (∃ p', p.addInputTokens boxId index tokens = .ok p') ↔ 0 < D.nIn ∧
      (∃ i is, D.inputs = i :: is ∧ boxId = i.boxId ∧ index.toNat = i.got ∧ i.got < i.frames) ∧
      tokens.length % 40 = 0 ∧ SumsFit (addToks D ((pieces 40 tokens).map tok40)) := by
  unfold P2pk.addInputTokens
  by_cases hst : p.state = .inputsStarted
  · rw [if_neg (not_not.2 hst)]
    obtain ⟨t, hu, hT⟩ := hR.tx (by rw [hst]; simp) hnf
    rw [withTx_iff hu, addInputTokens_iff hT.full]
    simp only [hT.full.nIn, true_and]
    apply and_congr_right
    rintro ⟨i, is, hD, _⟩
    apply and_congr_right
    intro _
    have hnew : addToks D ((pieces 40 tokens).map tok40) =
        { D with inputs := { i with got := i.got + 1, tokens := i.tokens ++ (pieces 40 tokens).map tok40 } :: is } := by
      unfold addToks TxDesc.onInput; rw [hD]
    have hsum : (addToks D ((pieces 40 tokens).map tok40)).sumIn = D.sumIn := by
      rw [hnew, sumIn_cons (D := D) i is hD, sumIn_cons _ is rfl]
    have htok : ∀ id, (addToks D ((pieces 40 tokens).map tok40)).tokIn id =
        D.tokIn id + sumOf ((pieces 40 tokens).map tok40) id := by
      intro id
      rw [hnew, tokIn_cons (D := D) i is id hD, tokIn_cons _ is id rfl, sumOf_append]
      simp only
      omega
    have hids : (grow p.amounts.table ((pieces 40 tokens).map (fun b => (tok40 b).1))).length =
        (addToks D ((pieces 40 tokens).map tok40)).table.length +
          (addToks D ((pieces 40 tokens).map tok40)).otherIds.length := by
      have e : inIds (addToks D ((pieces 40 tokens).map tok40)) =
          inIds D ++ (pieces 40 tokens).map (fun b => (tok40 b).1) := by
        rw [hnew]
        simp [inIds, hD, Function.comp_def]
      have hg := hT.tab.trans (show TableGrows p.amounts.table
        ((pieces 40 tokens).map (fun b => (tok40 b).1)) _ from rfl)
      rw [← e] at hg
      have e1 : (addToks D ((pieces 40 tokens).map tok40)).table = D.table := by rw [hnew]
      rw [hg.length, otherIds_length, e1]
    constructor
    · rintro ⟨h1, h2⟩
      refine ⟨by rw [hsum]; exact hT.sum, fun id => by rw [htok]; exact h1 id, ?_⟩
      rw [← hids]; exact h2
    · rintro ⟨_, h1, h2⟩
      refine ⟨fun id => by rw [← htok]; exact h1 id, ?_⟩
      show (grow p.amounts.table _).length ≤ 20
      rw [hids]; exact h2
  · rw [if_pos hst]
    refine iff_of_false (by rintro ⟨_, h⟩; cases h) ?_
    rintro ⟨h1, ⟨i, is, hD, _, _, hlt⟩, _⟩
    obtain ⟨t, hu, hT⟩ := hR.started hnf h1
    rcases hT.before (.inr ⟨i, by rw [hD]; simp, by
      simp only [InDesc.complete, Bool.and_eq_false_iff, decide_eq_false_iff_not]
      left; omega⟩) with h | h
    · have := hT.state
      rw [h] at this
      rw [this.1] at hD
      simp at hD
    · exact hst h

theorem addInput_same {x x' : FullSt} {r : Res FullErr} {boxId : Bytes} {n : UInt8} {ext : UInt32}
    (h : x.addInput boxId n ext = (x', r)) : x'.s = x.s := by
  unfold FullSt.addInput FullSt.fail at h
  simp only at h
  repeat' split at h
  all_goals
    simp only [Prod.mk.injEq] at h
    rw [← h.1]

theorem addInput_amount {a : Amounts} {v : UInt64} :
    (∃ a', a.addInput v = some a') ↔ a.value.toNat + v.toNat < 2 ^ 64 := by
  have := C05_add_u64 a.value v
  unfold Amounts.addInput
  cases hc : checkedAddU64 a.value v with
  | none =>
    rw [hc] at this
    refine iff_of_false (by simp) ?_
    intro h
    rw [if_pos h] at this
    simp at this
  | some s =>
    rw [hc] at this
    refine iff_of_true (by simp) ?_
    by_contra h
    rw [if_neg h] at this
    simp at this

theorem addInput_op (hR : PRel env h0 p D) (hnf : p.state ≠ .finalized)
    (hgot : ∀ i ∈ D.inputs, 0 < i.got) (boxId : Bytes) (v : UInt64) (n : UInt8) (ext : UInt32) :
    (∃ p', p.addInput boxId v n ext = .ok p') ↔ 0 < D.nIn ∧ D.table.length = D.nTok ∧
      D.inputs.length < D.nIn ∧ (∀ i ∈ D.inputs, i.complete) ∧ ext.toNat ≠ 1 ∧
      ext.toNat ≤ 32768 ∧ D.sumIn + v.toNat < 2 ^ 64 := by
  unfold P2pk.addInput
  by_cases hst : p.state ≠ .txStarted ∧ p.state ≠ .inputsStarted
  · rw [if_pos hst]
    refine iff_of_false (by rintro ⟨_, h⟩; cases h) ?_
    rintro ⟨h1, _, h2, _⟩
    obtain ⟨t, hu, hT⟩ := hR.started hnf h1
    rcases hT.before (.inl h2) with h | h
    · exact hst.1 h
    · exact hst.2 h
  · rw [if_neg hst]
    have hni : p.state ≠ .initialized := by intro he; rw [he] at hst; simp at hst
    obtain ⟨t, hu, hT⟩ := hR.tx hni hnf
    have hno : D.outputs = [] := by
      have hs := hT.state
      unfold StateRel at hs
      split at hs
      · exact hs.elim
      · exact hs.2
      · exact hs.2
      · rename_i he; rw [he] at hst; simp at hst
      · rename_i he; rw [he] at hst; simp at hst
      · exact hs.elim
    have hval : p.amounts.value.toNat = D.sumIn := by
      have := hT.full.amt.value
      rw [sumOut_nil _ hno, sumOut_nil _ hno] at this
      simpa using this
    have hiff := withTx_iff (f := fun x => x.addInput boxId n ext) hu
    rw [addInput_iff hT.full hgot] at hiff
    simp only [hT.full.nIn, true_and]
    cases hw : p.withTx (fun x => x.addInput boxId n ext) with
    | ok q =>
      obtain ⟨x, r, hf, hp, rfl⟩ := withTx_ok hu hw
      have h1 := hiff.1 ⟨_, hw⟩
      simp only
      have hxs : x.s.a = p.amounts := by
        have := addInput_same hf
        rw [this]
      have ham := addInput_amount (a := x.s.a) (v := v)
      rw [hxs, hval] at ham
      rw [hxs]
      cases hc : p.amounts.addInput v with
      | none =>
        rw [hc] at ham
        refine iff_of_false (by rintro ⟨_, h⟩; cases h) ?_
        rintro ⟨_, _, _, _, _, h⟩
        obtain ⟨_, h'⟩ := ham.2 h
        cases h'
      | some a =>
        refine iff_of_true ⟨_, rfl⟩ ?_
        obtain ⟨e1, e2, e3, e4, e5⟩ := h1
        exact ⟨e1, e2, e3, e4, e5, ham.1 ⟨a, hc⟩⟩
    | err e =>
      refine iff_of_false (by rintro ⟨_, h⟩; cases h) ?_
      rintro ⟨e1, e2, e3, e4, e5, _⟩
      obtain ⟨_, h'⟩ := hiff.2 ⟨e1, e2, e3, e4, e5⟩
      rw [hw] at h'; cases h'
    | ub =>
      refine iff_of_false (by rintro ⟨_, h⟩; cases h) ?_
      rintro ⟨e1, e2, e3, e4, e5, _⟩
      obtain ⟨_, h'⟩ := hiff.2 ⟨e1, e2, e3, e4, e5⟩
      rw [hw] at h'; cases h'

theorem frameParse_ok (hl : leastLen 0x21 0x12 data ≤ data.length) : ∃ f, frameParse data = some f := by
  simp only [leastLen, and_self, if_true] at hl
  unfold frameParse
  rcases bufBytes_cases idLen data with ⟨g1, h1⟩ | ⟨g1, v1, h1⟩
  · simp only [idLen] at g1; omega
  simp only [h1]
  rcases bufU8_cases (data.drop idLen) with ⟨g2, h2⟩ | ⟨g2, v2, h2⟩
  · simp only [idLen, List.length_drop] at g2; omega
  simp only [h2]
  rcases bufU8_cases ((data.drop idLen).drop 1) with ⟨g3, h3⟩ | ⟨g3, v3, h3⟩
  · simp only [idLen, List.length_drop] at g3; omega
  simp only [h3]
  rcases bufU64_cases (((data.drop idLen).drop 1).drop 1) with ⟨g4, h4⟩ | ⟨g4, v4, h4⟩
  · simp only [idLen, List.length_drop] at g4; omega
  simp only [h4]
  rcases bufU8_cases ((((data.drop idLen).drop 1).drop 1).drop 8) with ⟨g5, h5⟩ | ⟨g5, v5, h5⟩
  · simp only [idLen, List.length_drop] at g5; omega
  simp only [h5]
  have e33 : field data 33 1 = v3.toNat := by
    have := bufU8_some h3
    rw [field, show (33 : Nat) = idLen + 1 from rfl, ← List.drop_drop, this]
    simp [be_one]
  have e42 : field data 42 1 = v5.toNat := by
    have := bufU8_some h5
    rw [field, show (42 : Nat) = idLen + 1 + 1 + 8 from rfl, ← List.drop_drop, ← List.drop_drop,
      ← List.drop_drop, this]
    simp [be_one]
  rw [e33, e42, ← mul40] at hl
  generalize hr : (((((data.drop idLen).drop 1).drop 1).drop 8).drop 1) = r
  have hrl : r.length = data.length - 43 := by
    rw [← hr]; simp only [List.length_drop, idLen]; omega
  rw [if_neg (show ¬ r.length < (v5 * 40).toNat + 16 by omega)]
  by_cases h0 : v3 = 0
  · simp only [if_pos h0]
    rw [if_pos (by rw [h0]; rfl)] at hl
    rcases bufU32_cases (r.drop ((v5 * 40).toNat + 16)) with ⟨g6, h6⟩ | ⟨g6, v6, h6⟩
    · simp only [List.length_drop] at g6; omega
    · simp only [h6]; exact ⟨_, rfl⟩
  · simp only [if_neg h0]; exact ⟨_, rfl⟩

/-- The facts about a frame that can be parsed. -/
theorem frameParse_facts (hl : data.length ≤ 255) {f : Frame} (hf : frameParse data = some f) :
    leastLen 0x21 0x12 data ≤ data.length ∧ (frameDataLen data).toNat = frameLen data ∧
      f.tokens.length = 40 * field data 42 1 % 256 := by
  obtain ⟨n, rest, e, l1, lt, l16, h0', _⟩ := frameParse_some hf
  obtain ⟨_, _, f3, _, _, _, _, f8⟩ := frameParse_fields hf
  obtain ⟨hdl, _⟩ := C42_parse data f hl hf
  have hn : field data 42 1 = n.toNat := by
    rw [field_of (d := data) (pre := f.boxId ++ [f.count, f.index] ++ writeU64be f.value)
      (a := [n]) (post := f.tokens ++ rest) (by rw [e]; simp) (by simp [l1, length_writeU64])
      (by rfl), be_one]
  rw [mul40, ← hn] at lt
  refine ⟨?_, by rw [hdl, lt, frameLen], lt⟩
  simp only [leastLen, and_self, if_true]
  split
  · rename_i h0
    rw [f3] at h0
    obtain ⟨e4, r4, _, hr4⟩ := h0' (UInt8.toNat_inj.1 h0)
    have hle := congrArg List.length e
    have hl4 := congrArg List.length hr4
    simp only [List.length_append, l1, lt, length_writeU64, length_writeU32, List.length_drop,
      List.length_cons, List.length_nil] at hle hl4
    omega
  · omega

theorem opFrame_iff (hR : PRel env h0 p D) (hnf : p.state ≠ .finalized)
    (hgot : ∀ i ∈ D.inputs, 0 < i.got) (hl : data.length ≤ 255) (key : Bytes) :
    (∃ p', opFrame env key p data = .ok p') ↔ 0 < D.nIn ∧ FrameFits env key D data := by
  by_cases hlen : leastLen 0x21 0x12 data ≤ data.length
  case neg =>
    refine iff_of_false ?_ (fun h => hlen h.2.1)
    rintro ⟨p', h⟩
    unfold opFrame at h
    simp only at h
    split at h
    · cases h
    split at h
    · cases h
    split at h
    · cases h
    rename_i f hf
    exact hlen (frameParse_facts hl hf).1
  obtain ⟨f, hf⟩ := frameParse_ok hlen
  obtain ⟨_, hfl, ht⟩ := frameParse_facts hl hf
  obtain ⟨e1, e2, e3, e4, e5, e6, e7, _⟩ := frameParse_fields hf
  unfold opFrame FrameFits TagValid
  have h43 : frameLen data ≠ 0 := by unfold frameLen; omega
  simp only [hfl, if_neg h43]
  by_cases htag : (data.drop (frameLen data)).take 16 = (env.hmac key (data.take (frameLen data))).take 16
  case neg =>
    rw [if_pos (fun h => htag h.symm)]
    exact iff_of_false (by rintro ⟨_, h⟩; cases h) (fun h => htag h.2.2.2.1)
  rw [if_neg (not_not.2 htag.symm), hf]
  simp only [hlen, htag, true_and]
  rw [← ht]
  cases hext : f.ext with
  | none =>
    have hne := e7 hext
    have hn0 : ¬ field data 33 1 = 0 := by
      rw [e3]; intro he; exact hne (u8_eq_zero.2 he)
    simp only [if_neg hn0]
    have hfr : D.frame data = addToks D ((pieces 40 f.tokens).map tok40) := by
      unfold TxDesc.frame addToks
      rw [if_neg hn0, e5]
    rw [addInputTokens_op hR hnf, hfr, e1, e3]
    constructor
    · rintro ⟨h1, ⟨i, is, hD, h2, h3, h4⟩, h5, h6⟩
      obtain ⟨t, _, hT⟩ := hR.started hnf h1
      exact ⟨h1, h5, hT.full.tableDone (by rw [hD]; simp), h6, i, is, hD, h3, h4, h2⟩
    · rintro ⟨h1, h5, _, h6, i, is, hD, h3, h4, h2⟩
      exact ⟨h1, ⟨i, is, hD, h2, h3, h4⟩, h5, h6⟩
  | some ext =>
    obtain ⟨hi, hex⟩ := e6 ext hext
    have h00 : field data 33 1 = 0 := by rw [e3, hi]; rfl
    simp only [if_pos h00]
    have hexl : field data (frameLen data + 16) 4 = ext.toNat := hex
    have hfr : D.frame data = addToks { D with inputs :=
        ⟨f.boxId, f.value.toNat, f.count.toNat, 0, [], ext.toNat, []⟩ :: D.inputs }
        ((pieces 40 f.tokens).map tok40) := by
      unfold TxDesc.frame addToks TxDesc.onInput
      rw [if_pos h00, e1, e2, e4, e5, hex]
      simp
    have hsum : (D.frame data).sumIn = f.value.toNat + D.sumIn := by
      rw [hfr]
      unfold addToks TxDesc.onInput
      rw [sumIn_cons _ D.inputs rfl]
    have hin := addInput_op hR hnf hgot f.boxId f.value f.count ext
    rw [hexl, e2]
    cases hq : p.addInput f.boxId f.value f.count ext with
    | ok q =>
      obtain ⟨g1, g2, g3, g4, g5, g6, g7⟩ := hin.1 ⟨q, hq⟩
      have hq' := addInput_rel hR hq
      have hqs : q.state ≠ .finalized := by
        unfold P2pk.addInput at hq
        split at hq
        · cases hq
        split at hq
        · split at hq
          · cases hq
          · simp only [OpRes.ok.injEq] at hq
            rw [← hq]; simp
        · rename_i hn
          exact absurd hq (hn _)
      simp only
      rw [addInputTokens_op hq' hqs, ← hfr]
      constructor
      · rintro ⟨h1, ⟨i, is, hD, h2, h3, h4⟩, h5, h6⟩
        simp only [List.cons.injEq] at hD
        obtain ⟨rfl, rfl⟩ := hD
        exact ⟨h1, h5, g2, h6, g3, g4, h4, g5, g6⟩
      · rintro ⟨h1, h5, _, h6, _, _, h4, _, _⟩
        exact ⟨h1, ⟨_, _, rfl, rfl, by rw [hi]; rfl, h4⟩, h5, h6⟩
    | err e =>
      refine iff_of_false (by rintro ⟨_, h⟩; cases h) ?_
      rintro ⟨h1, h5, h2, h6, h3, h4, _, h7, h8⟩
      have := h6.value
      obtain ⟨_, h'⟩ := hin.2 ⟨h1, h2, h3, h4, h7, h8, by omega⟩
      rw [hq] at h'; cases h'
    | ub =>
      refine iff_of_false (by rintro ⟨_, h⟩; cases h) ?_
      rintro ⟨h1, h5, h2, h6, h3, h4, _, h7, h8⟩
      have := h6.value
      obtain ⟨_, h'⟩ := hin.2 ⟨h1, h2, h3, h4, h7, h8, by omega⟩
      rw [hq] at h'; cases h'

theorem addExtension_op (hR : PRel env h0 p D) (hnf : p.state ≠ .finalized)
    (hgot : ∀ i ∈ D.inputs, 0 < i.got) :
    (∃ p', p.addExtension data = .ok p') ↔ 0 < D.nIn ∧
      ∃ i is, D.inputs = i :: is ∧ i.got = i.frames ∧ i.ext.length < i.extSize ∧
        i.ext.length + data.length ≤ i.extSize := by
  unfold P2pk.addExtension
  by_cases hst : p.state = .inputsStarted
  · rw [if_neg (not_not.2 hst)]
    obtain ⟨t, hu, hT⟩ := hR.tx (by rw [hst]; simp) hnf
    rw [withTx_iff hu, addInputExtension_iff hT.full _ hgot]
    simp [hT.full.nIn]
  · rw [if_pos hst]
    refine iff_of_false (by rintro ⟨_, h⟩; cases h) ?_
    rintro ⟨h1, i, is, hD, _, hlt, _⟩
    obtain ⟨t, hu, hT⟩ := hR.started hnf h1
    rcases hT.before (.inr ⟨i, by rw [hD]; simp, by
      simp only [InDesc.complete, Bool.and_eq_false_iff, decide_eq_false_iff_not]
      right; omega⟩) with h | h
    · have := hT.state
      rw [h] at this
      rw [this.1] at hD
      simp at hD
    · exact hst h

theorem addDataInputs_op (hR : PRel env h0 p D) (hnf : p.state ≠ .finalized)
    (hgot : ∀ i ∈ D.inputs, 0 < i.got) :
    (∃ p', p.addDataInputs data = .ok p') ↔ 0 < D.nIn ∧
      D.AllInputs ∧ D.dataInputs.length < D.nData ∧ data.length % 32 = 0 ∧
        D.dataInputs.length + data.length / 32 ≤ D.nData := by
  unfold P2pk.addDataInputs
  by_cases hst : p.state = .inputsStarted
  · rw [if_neg (not_not.2 hst)]
    obtain ⟨t, hu, hT⟩ := hR.tx (by rw [hst]; simp) hnf
    rw [withTx_iff hu, addDataInputs_iff hT.full _ hgot]
    simp [hT.full.nIn]
  · rw [if_pos hst]
    refine iff_of_false (by rintro ⟨_, h⟩; cases h) ?_
    rintro ⟨h1, ⟨h2, _⟩, h3, _⟩
    obtain ⟨t, hu, hT⟩ := hR.started hnf h1
    have hs := hT.state
    unfold StateRel at hs
    split at hs
    · exact hs.elim
    · rw [hs.1] at h2; simp at h2; omega
    · rename_i he; exact hst he
    · have := (hT.full.outDone (.inl hs.2)).2.2.2; omega
    · have := (hT.full.outDone (.inr hs.2)).2.2.2; omega
    · exact hs.elim

/-! ## Outputs -/

theorem parseOutput_some (h : data.length = 21) :
    ∃ v ts ht nt rg, parseOutput data = .ok (v, ts, ht, nt, rg) := by
  unfold parseOutput
  rcases bufU64_cases data with ⟨g1, h1⟩ | ⟨g1, v1, h1⟩
  · omega
  simp only [h1]
  rcases bufU32_cases (data.drop 8) with ⟨g2, h2⟩ | ⟨g2, v2, h2⟩
  · simp only [List.length_drop] at g2; omega
  simp only [h2]
  rcases bufU32_cases ((data.drop 8).drop 4) with ⟨g3, h3⟩ | ⟨g3, v3, h3⟩
  · simp only [List.length_drop] at g3; omega
  simp only [h3]
  rcases bufU8_cases (((data.drop 8).drop 4).drop 4) with ⟨g4, h4⟩ | ⟨g4, v4, h4⟩
  · simp only [List.length_drop] at g4; omega
  simp only [h4]
  rcases bufU32_cases ((((data.drop 8).drop 4).drop 4).drop 1) with ⟨g5, h5⟩ | ⟨g5, v5, h5⟩
  · simp only [List.length_drop] at g5; omega
  simp only [h5]
  refine ⟨v1, v2, v3, v4, v5, ?_⟩
  rw [if_neg]
  rw [not_not, ← List.length_eq_zero_iff]
  simp only [List.length_drop]; omega

theorem opOutput_iff (hR : PRel env h0 p D) (hnf : p.state ≠ .finalized)
    (hgot : ∀ i ∈ D.inputs, 0 < i.got) :
    (∃ p', opOutput p data = .ok p') ↔ 0 < D.nIn ∧ D.AllInputs ∧ D.dataInputs.length = D.nData ∧
      D.outputs.countP (·.box.complete) < D.nOut ∧ data.length = 21 ∧ field data 8 4 ≤ 32768 ∧
      field data 16 1 ≤ 20 ∧ field data 17 4 ≤ 32768 := by
  by_cases hl : data.length = 21
  case neg =>
    refine iff_of_false ?_ (fun h => hl h.2.2.2.2.1)
    rintro ⟨p', h⟩
    unfold opOutput at h
    rcases Nat.lt_trichotomy data.length 21 with h1 | h1 | h1
    · rw [parseOutput_short h1] at h; cases h
    · exact hl h1
    · rw [parseOutput_long h1] at h; cases h
  obtain ⟨v, ts, ht, nt, rg, hp⟩ := parseOutput_some hl
  obtain ⟨_, hh⟩ := parseOutput_ok hp
  simp only [outHeader, BoxDesc.mk.injEq, and_true] at hh
  obtain ⟨f1, f2, f3, f4, f5⟩ := hh
  rw [f2, f4, f5]
  unfold opOutput
  rw [hp]
  simp only
  unfold P2pk.addOutput
  by_cases hst : p.state ≠ .inputsStarted ∧ p.state ≠ .outputsStarted
  · rw [if_pos hst]
    refine iff_of_false (by rintro ⟨_, h⟩; cases h) ?_
    rintro ⟨h1, ⟨h2, _⟩, h3, h4, _⟩
    obtain ⟨t, hu, hT⟩ := hR.started hnf h1
    have hs := hT.state
    unfold StateRel at hs
    split at hs
    · exact hs.elim
    · rw [hs.1] at h2; simp at h2; omega
    · rename_i he; exact hst.1 he
    · rename_i he; exact hst.2 he
    · have hph := hT.full.phase
      unfold FullPhase at hph
      rw [hs.2] at hph
      have := hph.2.1.2.2.2.2.1
      omega
    · exact hs.elim
  · rw [if_neg hst]
    have hni : p.state ≠ .initialized := by intro he; rw [he] at hst; simp at hst
    obtain ⟨t, hu, hT⟩ := hR.tx hni hnf
    have hiff := withTx_iff (f := fun x => x.addBox v ts ht nt rg) hu
    rw [addBox_iff hT.full hgot] at hiff
    simp only [hT.full.nIn, hl, true_and]
    rw [← hiff]
    cases hw : p.withTx (fun x => x.addBox v ts ht nt rg) with
    | ok q =>
      obtain ⟨x, r, hf, hp, rfl⟩ := withTx_ok hu hw
      simp
    | err e => simp
    | ub => simp

/-- A part of an output is accepted iff the serializer and the output info take it. -/
theorem withOut_iff {f : FullSt → FullSt × Res FullErr} {g : OutInfo → Bool → OutRes}
    {Q : OutDesc → Prop} (hR : PRel env h0 p D) (hnf : p.state ≠ .finalized)
    (hinc : ∀ o, Q o → o.box.complete = false)
    (hq : ∀ x o os, FullRel env.keyOf h0 x D → D.outputs = o :: os →
      OutRel env x.s.a.table D.table x.s.o o.box → D.sumIn < 2 ^ 64 →
      (((f x).2.passes ∧ ∃ q, g (f x).1.s.o ((f x).2 = .ok) = .ok q) ↔ Q o)) :
    (∃ p', p.withOut f g = .ok p') ↔ 0 < D.nIn ∧ ∃ o os, D.outputs = o :: os ∧ Q o := by
  constructor
  · rintro ⟨p', h⟩
    obtain ⟨t, oi, o, os, x, r, q, hst, hu, hoi, hD, hT, hF, hO, hf, hrp, hg, rfl⟩ := withOut_ok hR h
    refine ⟨hT.full.nIn, o, os, hD, (hq _ o os hF hD hO hT.sum).1 ?_⟩
    rw [hf]
    exact ⟨hrp, q, hg⟩
  · rintro ⟨h1, o, os, hD, hQ⟩
    obtain ⟨t, hu, hT⟩ := hR.started hnf h1
    have hst : p.state = .outputsStarted := by
      have hs := hT.state
      unfold StateRel at hs
      split at hs
      · exact hs.elim
      · rw [hs.2] at hD; cases hD
      · rw [hs.2] at hD; cases hD
      · rename_i he; exact he
      · have hph := hT.full.phase
        unfold FullPhase at hph
        rw [hs.2] at hph
        obtain ⟨_, _, o', os', hD', hc⟩ := hph
        rw [hD'] at hD
        simp only [List.cons.injEq] at hD
        obtain ⟨rfl, rfl⟩ := hD
        rw [hinc _ hQ] at hc
        cases hc
      · exact hs.elim
    have hout := hT.out
    unfold NewestRel at hout
    rw [hD] at hout
    obtain ⟨oi, hoi, hO⟩ := hout
    have hF := hT.full
    rw [hoi] at hF
    obtain ⟨hp, q, hg⟩ := (hq _ o os hF hD hO hT.sum).2 hQ
    unfold P2pk.withOut
    rw [if_neg (not_not.2 hst), hu]
    simp only [hoi]
    simp only [Option.getD_some] at hp hg
    obtain ⟨x, r, hf⟩ : ∃ x r, f ⟨t.tx, p.hash, ⟨p.amounts, oi⟩⟩ = (x, r) := ⟨_, _, rfl⟩
    simp only [hf] at hp hg ⊢
    rcases passes_iff.1 hp with rfl | rfl
    · simp only [decide_true] at hg ⊢
      rw [hg]
      exact ⟨_, rfl⟩
    · simp only [reduceCtorEq, decide_false] at hg ⊢
      rw [hg]
      exact ⟨_, rfl⟩

theorem addOutputTree_iff (hR : PRel env h0 p D) (hnf : p.state ≠ .finalized) :
    (∃ p', p.addOutputTree env data = .ok p') ↔ 0 < D.nIn ∧ ∃ o os, D.outputs = o :: os ∧
      (o.box.scriptDone = false ∧ scriptLen o.box + data.length ≤ o.box.treeSize ∧
        (scriptLen o.box + data.length = o.box.treeSize ∨ 255 ≤ data.length)) := by
  refine withOut_iff (Q := fun o => o.box.scriptDone = false ∧
    scriptLen o.box + data.length ≤ o.box.treeSize ∧
    (scriptLen o.box + data.length = o.box.treeSize ∨ 255 ≤ data.length)) hR hnf
    (fun o h => not_complete h.1) ?_
  intro x o os hF hD hO hv
  rw [← addBoxTree_iff hF hD hO hv]
  constructor
  · exact fun h => h.1
  · intro hp
    refine ⟨hp, ?_⟩
    obtain ⟨x', r, hf⟩ : ∃ x' r, x.addBoxTree env data = (x', r) := ⟨_, _, rfl⟩
    rw [hf] at hp ⊢
    obtain ⟨hsd, hF', htab, hs, hr, hlen⟩ := addBoxTree_full hF hD hO hf hp
    obtain ⟨q', hq', hO'⟩ := addTreeChunk_rel hO hsd hlen
    have hb : decide (r = .ok) = (o.box.addTree data).scriptDone := by
      rw [Bool.eq_iff_iff, decide_eq_true_iff]; exact hr
    simp only
    rw [hs, hb]
    exact ⟨q', hq'⟩

theorem addOutputFee_iff (hR : PRel env h0 p D) (hnf : p.state ≠ .finalized) :
    (∃ p', p.addOutputFee env = .ok p') ↔ 0 < D.nIn ∧ ∃ o os, D.outputs = o :: os ∧
      (o.box.script = none ∧ ValueFits D o) := by
  refine withOut_iff (Q := fun o => o.box.script = none ∧ ValueFits D o) hR hnf
    (fun o h => not_complete (by simp [BoxDesc.scriptDone, h.1])) ?_
  intro x o os hF hD hO hv
  have hiff : (x.addBoxFee env).2.passes ↔ o.box.scriptDone = false ∧ ValueFits D o :=
    setScript_iff (s := .fee) (bytes := minersFeeTree) (fun b => rfl) (by simp) hF hD hO hv
  obtain ⟨x', r, hf⟩ : ∃ x' r, x.addBoxFee env = (x', r) := ⟨_, _, rfl⟩
  rw [hf] at hiff ⊢
  simp only at hiff ⊢
  constructor
  · rintro ⟨hp, q, hg⟩
    obtain ⟨hsd, ⟨fin, hfin⟩, hnone⟩ := setScript_full (s := .fee) (bytes := minersFeeTree)
      (fun b => rfl) (by simp) feeTree_eq hF hD hO hf hp
    rw [hfin] at hg
    rcases setFee_rel hO hsd fin (by
      intro hn
      have := (hnone hn).2.2
      rw [hfin] at this
      exact congrArg OutInfo.boxFinished this) with ⟨q', hq', hn, hO'⟩ | hbad
    · exact ⟨hn, (hiff.1 hp).2⟩
    · rw [hbad] at hg; cases hg
  · rintro ⟨hn, hvf⟩
    have hsd : o.box.scriptDone = false := by simp [BoxDesc.scriptDone, hn]
    have hp := hiff.2 ⟨hsd, hvf⟩
    refine ⟨hp, ?_⟩
    obtain ⟨hsd, ⟨fin, hfin⟩, hnone⟩ := setScript_full (s := .fee) (bytes := minersFeeTree)
      (fun b => rfl) (by simp) feeTree_eq hF hD hO hf hp
    rw [hfin]
    have hty := hO.script
    rw [hn] at hty
    rcases setFee_rel hO hsd fin (by
      intro hn
      have := (hnone hn).2.2
      rw [hfin] at this
      exact congrArg OutInfo.boxFinished this) with ⟨q', hq', _⟩ | hbad
    · exact ⟨q', hq'⟩
    · unfold OutInfo.setFee at hbad
      rw [if_neg (not_not.2 hty.1)] at hbad
      unfold OutRes.ofMaybe at hbad
      split at hbad <;> cases hbad

theorem addOutputChange_iff {path : List UInt32} {pub cc : Bytes} (hR : PRel env h0 p D)
    (hnf : p.state ≠ .finalized) (hpub : env.genPublic path = some (pub, cc)) :
    (∃ p', p.addOutputChange env path pub = .ok p') ↔ 0 < D.nIn ∧ ∃ o os, D.outputs = o :: os ∧
      (o.box.script = none ∧ ValueFits D o) := by
  refine withOut_iff (Q := fun o => o.box.script = none ∧ ValueFits D o) hR hnf
    (fun o h => not_complete (by simp [BoxDesc.scriptDone, h.1])) ?_
  intro x o os hF hD hO hv
  have hiff : (x.addBoxChange env pub).2.passes ↔ o.box.scriptDone = false ∧ ValueFits D o :=
    setScript_iff (s := .change path) (bytes := treeGenerateP2pk pub) (fun b => rfl) (by simp)
      hF hD hO hv
  obtain ⟨x', r, hf⟩ : ∃ x' r, x.addBoxChange env pub = (x', r) := ⟨_, _, rfl⟩
  rw [hf] at hiff ⊢
  simp only at hiff ⊢
  have hb : scriptBytes env.keyOf (.change path) = treeGenerateP2pk pub := by
    simp only [scriptBytes, Env.keyOf, hpub, treeGenerateP2pk]
    rfl
  constructor
  · rintro ⟨hp, q, hg⟩
    obtain ⟨hsd, ⟨fin, hfin⟩, hnone⟩ := setScript_full (s := .change path)
      (bytes := treeGenerateP2pk pub) (fun b => rfl) (by simp) hb hF hD hO hf hp
    rw [hfin] at hg
    rcases setBip32_rel hO hsd fin path (by
      intro hn
      have := (hnone hn).2.2
      rw [hfin] at this
      exact congrArg OutInfo.boxFinished this) with ⟨q', hq', hn, hO'⟩ | hbad
    · exact ⟨hn, (hiff.1 hp).2⟩
    · rw [hbad] at hg; cases hg
  · rintro ⟨hn, hvf⟩
    have hsd : o.box.scriptDone = false := by simp [BoxDesc.scriptDone, hn]
    have hp := hiff.2 ⟨hsd, hvf⟩
    refine ⟨hp, ?_⟩
    obtain ⟨hsd, ⟨fin, hfin⟩, hnone⟩ := setScript_full (s := .change path)
      (bytes := treeGenerateP2pk pub) (fun b => rfl) (by simp) hb hF hD hO hf hp
    rw [hfin]
    have hty := hO.script
    rw [hn] at hty
    rcases setBip32_rel hO hsd fin path (by
      intro hn
      have := (hnone hn).2.2
      rw [hfin] at this
      exact congrArg OutInfo.boxFinished this) with ⟨q', hq', _⟩ | hbad
    · exact ⟨q', hq'⟩
    · unfold OutInfo.setBip32 at hbad
      rw [if_neg (not_not.2 hty.1)] at hbad
      unfold OutRes.ofMaybe at hbad
      split at hbad <;> cases hbad

theorem addOutputTokens_iff (hR : PRel env h0 p D) (hnf : p.state ≠ .finalized) :
    (∃ p', p.addOutputTokens env data = .ok p') ↔ 0 < D.nIn ∧ ∃ o os, D.outputs = o :: os ∧
      (o.box.scriptDone = true ∧ o.box.tokens.length < o.box.nTokens ∧ data.length % 12 = 0 ∧
        o.box.tokens.length + data.length / 12 ≤ o.box.nTokens ∧
        (∀ t ∈ (pieces 12 data).map tok12, t.1 < D.nTok) ∧
        NoRepeat D.table (o.box.tokens ++ (pieces 12 data).map tok12) ∧
        ∀ id, D.tokOut id + tokRefs D.table ((pieces 12 data).map tok12) id ≤ D.tokIn id + 2 ^ 63) := by
  refine withOut_iff (Q := fun o => (o.box.scriptDone = true ∧ o.box.tokens.length < o.box.nTokens ∧
        data.length % 12 = 0 ∧
        o.box.tokens.length + data.length / 12 ≤ o.box.nTokens ∧
        (∀ t ∈ (pieces 12 data).map tok12, t.1 < D.nTok) ∧
        NoRepeat D.table (o.box.tokens ++ (pieces 12 data).map tok12) ∧
        ∀ id, D.tokOut id + tokRefs D.table ((pieces 12 data).map tok12) id ≤ D.tokIn id + 2 ^ 63))
    hR hnf ?_ ?_
  · rintro o ⟨_, h, _⟩
    simp only [BoxDesc.complete, Bool.and_eq_false_iff, decide_eq_false_iff_not]
    left; right; omega
  · intro x o os hF hD hO hv
    rw [← addBoxTokens_iff hF hD hO]
    simp

theorem addOutputRegisters_iff (hR : PRel env h0 p D) (hnf : p.state ≠ .finalized) :
    (∃ p', p.addOutputRegisters env data = .ok p') ↔ 0 < D.nIn ∧ ∃ o os, D.outputs = o :: os ∧
      (o.box.scriptDone = true ∧ o.box.tokens.length = o.box.nTokens ∧
        o.box.regs.length < o.box.regsSize ∧ o.box.regs.length + data.length ≤ o.box.regsSize) := by
  refine withOut_iff (Q := fun o => (o.box.scriptDone = true ∧ o.box.tokens.length = o.box.nTokens ∧
        o.box.regs.length < o.box.regsSize ∧ o.box.regs.length + data.length ≤ o.box.regsSize))
    hR hnf ?_ ?_
  · rintro o ⟨_, _, h, _⟩
    simp only [BoxDesc.complete, Bool.and_eq_false_iff, decide_eq_false_iff_not]
    right; omega
  · intro x o os hF hD hO hv
    rw [← addBoxRegisters_iff hF hD hO]
    simp

theorem opFee_iff (hR : PRel env h0 p D) (hnf : p.state ≠ .finalized) :
    (∃ p', opFee env p data = .ok p') ↔ 0 < D.nIn ∧ ∃ o os, D.outputs = o :: os ∧
      (data = [] ∧ o.box.script = none ∧ ValueFits D o) := by
  unfold opFee
  by_cases hd : data = []
  · rw [if_neg (not_not.2 hd), addOutputFee_iff hR hnf]
    simp [hd]
  · rw [if_pos hd]
    refine iff_of_false (by rintro ⟨_, h⟩; cases h) ?_
    rintro ⟨_, _, _, _, h, _⟩
    exact hd h

theorem opChange_iff (hR : PRel env h0 p D) (hnf : p.state ≠ .finalized) :
    (∃ p', opChange env p data = .ok p') ↔ 0 < D.nIn ∧ ∃ o os, D.outputs = o :: os ∧
      (1 ≤ field data 0 1 ∧ field data 0 1 ≤ 10 ∧ pathLen data ≤ data.length ∧
        IsAddressPath (pathOf data) ∧ (env.genPublic (pathOf data)).isSome ∧
        o.box.script = none ∧ ValueFits D o) := by
  unfold opChange
  rcases readPath_cases data with ⟨h1, h2⟩ | ⟨h1, path, h2⟩
  · rw [h2]
    refine iff_of_false (by rintro ⟨_, h⟩; cases h) ?_
    rintro ⟨_, _, _, _, g1, g2, g3, _⟩
    omega
  rw [h2]
  simp only
  obtain ⟨hp, _⟩ := readPath_some h2
  rw [hp]
  by_cases hv : pathValidate path .addressGe5
  case neg =>
    rw [if_pos hv]
    refine iff_of_false (by rintro ⟨_, h⟩; cases h) ?_
    rintro ⟨_, _, _, _, _, _, _, g4, _⟩
    exact hv ((validate_address path).2 g4)
  rw [if_neg (not_not.2 hv)]
  cases hg : env.genPublic path with
  | none =>
    refine iff_of_false (by rintro ⟨_, h⟩; cases h) ?_
    rintro ⟨_, _, _, _, _, _, _, _, g5, _⟩
    cases g5
  | some r =>
    obtain ⟨pub, cc⟩ := r
    simp only
    rw [addOutputChange_iff hR hnf hg]
    have hip := (validate_address path).1 hv
    simp only [h1.1, h1.2.1, h1.2.2, hip, Option.isSome_some, true_and]

/-- A command of a signing session succeeds iff it fits after what was described. -/
theorem signOp_fits (hR : PRel env h0 p D) (hnf : p.state ≠ .finalized)
    (hgot : ∀ i ∈ D.inputs, 0 < i.got) (hl : data.length ≤ 255) (key : Bytes) {sub : UInt8}
    (h1 : 0x10 ≤ sub) (h2 : sub ≤ 0x1A) :
    (∃ p', signOp env key p sub data = .ok p') ↔ Fits env key D sub data := by
  by_cases e : sub = 0x10
  · subst e; exact opStart_iff hR hnf
  by_cases e1 : sub = 0x11
  · subst e1; exact addTokens_op hR hnf
  by_cases e2 : sub = 0x12
  · subst e2; exact opFrame_iff hR hnf hgot hl key
  by_cases e3 : sub = 0x13
  · subst e3; exact addExtension_op hR hnf hgot
  by_cases e4 : sub = 0x14
  · subst e4; exact addDataInputs_op hR hnf hgot
  by_cases e5 : sub = 0x15
  · subst e5; exact opOutput_iff hR hnf hgot
  by_cases e6 : sub = 0x16
  · subst e6; exact addOutputTree_iff hR hnf
  by_cases e7 : sub = 0x17
  · subst e7; exact opFee_iff hR hnf
  by_cases e8 : sub = 0x18
  · subst e8; exact opChange_iff hR hnf
  by_cases e9 : sub = 0x19
  · subst e9; exact addOutputTokens_iff hR hnf
  have ea : sub = 0x1A := by
    rw [UInt8.le_iff_toNat_le] at h1 h2
    simp only [← UInt8.toNat_inj] at *
    simp at *
    omega
  subst ea
  exact addOutputRegisters_iff hR hnf

end Ergo
