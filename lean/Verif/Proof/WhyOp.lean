import Verif.Proof.WhyOut
/-!
# The status word of a refused command: the operation
-/
namespace Ergo
open Spec

variable {env : Env} {h0 : Bytes} {p p' : P2pk} {D : TxDesc} {data : Bytes}

theorem withTx_fails {f : FullSt → FullSt × Res FullErr} {t : TxData} (hu : p.u = .transaction t)
    {c : UInt16} (h : p.withTx f = .err c) :
    ∃ e, (f ⟨t.tx, p.hash, ⟨p.amounts, t.out.getD (.init 0)⟩⟩).2 = .err e ∧ c = e.sw := by
  unfold P2pk.withTx at h
  rw [hu] at h
  simp only at h
  obtain ⟨x, r, hf⟩ : ∃ x r, f ⟨t.tx, p.hash, ⟨p.amounts, t.out.getD (.init 0)⟩⟩ = (x, r) :=
    ⟨_, _, rfl⟩
  rw [hf] at h ⊢
  cases r with
  | ok => cases h
  | more => cases h
  | ub => cases h
  | err e =>
    simp only [OpRes.err.injEq] at h
    exact ⟨e, rfl, h.symm⟩

/-! ## Before the outputs -/

theorem opStart_why (hR : PRel env h0 p D) (hnf : p.state ≠ .finalized) {c : UInt16}
    (h : opStart p data = .err c) :
    FirstUnmet [(7 ≤ data.length, 0xE014), (data.length ≤ 7, 0xE015), (D.nIn = 0, 0xB0FF),
      (0 < field data 0 2, 0xE008), (0 < field data 5 2, 0xE009), (field data 4 1 ≤ 20, 0xE00A)] c := by
  unfold opStart at h
  rcases Nat.lt_trichotomy data.length 7 with h1 | hl | h1
  · rw [parseStart_short h1] at h
    simp only [OpRes.err.injEq] at h
    rw [← h]
    exact .here (by omega)
  case inr.inr =>
    rw [parseStart_long h1] at h
    simp only [OpRes.err.injEq] at h
    rw [← h]
    exact .later (by omega) (.here (by omega))
  refine .later (by omega) (.later (by omega) ?_)
  obtain ⟨ni, nd, nt, no, hp⟩ := parseStart_some hl
  obtain ⟨_, f1, f2, f3, f4⟩ := parseStart_ok hp
  rw [hp] at h
  simp only at h
  unfold P2pk.startTx at h
  by_cases hst : p.state = .initialized
  case neg =>
    rw [if_pos hst] at h
    simp only [OpRes.err.injEq] at h
    have := hR.started' hnf hst
    rw [← h]
    exact .here (by omega)
  rw [if_neg (not_not.2 hst)] at h
  unfold PRel at hR
  rw [hst] at hR
  simp only at hR
  obtain ⟨hh, ha, hD⟩ := hR
  refine .later (by rw [hD]; rfl) ?_
  rw [f1, f3, f4]
  rw [ha] at h
  unfold fullInit at h
  by_cases h1 : ni = 0
  · rw [if_pos h1] at h
    simp only [OpRes.err.injEq] at h
    rw [← h]
    refine .here ?_
    rw [h1]; decide
  have h1' : 0 < ni.toNat := by have := u16_ne_zero.1 h1; omega
  refine .later h1' ?_
  rw [if_neg h1] at h
  by_cases h2 : no = 0
  · rw [if_pos h2] at h
    simp only [OpRes.err.injEq] at h
    rw [← h]
    refine .here ?_
    rw [h2]; decide
  have h2' : 0 < no.toNat := by have := u16_ne_zero.1 h2; omega
  refine .later h2' ?_
  rw [if_neg h2] at h
  simp only [tableInit] at h
  have e1 : tokenMax = 20 := rfl
  by_cases h3 : nt.toNat > tokenMax
  · rw [if_pos (.inr h3)] at h
    simp only [OpRes.err.injEq] at h
    rw [← h]
    exact .here (by omega)
  · rw [if_neg (by simp [Amounts.zero]; omega)] at h
    simp only at h
    exfalso
    by_cases h4 : nt = 0
    · simp [h4] at h
    · simp [h4] at h

theorem addTokens_op_why (hR : PRel env h0 p D) (hnf : p.state ≠ .finalized) {c : UInt16}
    (h : p.addTokens data = .err c) :
    FirstUnmet ((0 < D.nIn ∧ D.table.length < D.nTok, 0xB0FF) ::
      idDemands D.nTok 0xE00A 0xE001 D.table.length (pieces 32 data)) c := by
  have h0' := addTokens_op (data := []) hR hnf
  unfold P2pk.addTokens at h h0'
  by_cases hst : p.state = .txStarted
  · rw [if_neg (not_not.2 hst)] at h
    obtain ⟨t, hu, hT⟩ := hR.tx (by rw [hst]; simp) hnf
    obtain ⟨e, he, rfl⟩ := withTx_fails hu h
    exact addTokens_why hT.full he
  · rw [if_pos hst] at h h0'
    simp only [OpRes.err.injEq] at h
    rw [← h]
    refine .here (fun hc => ?_)
    obtain ⟨_, hh⟩ := h0'.2 ⟨hc.1, hc.2, by simp, by simpa using Nat.le_of_lt hc.2⟩
    cases hh

theorem addInputTokens_op_why (hR : PRel env h0 p D) (hnf : p.state ≠ .finalized)
    {boxId tokens : Bytes} {index : UInt8} {c : UInt16}
    (h : p.addInputTokens boxId index tokens = .err c) :
    c = 0xB0FF ∧ (∀ i is, D.inputs = i :: is → ¬ i.got < i.frames) ∧
      (∀ t, p.state = .inputsStarted → p.u = .transaction t → ¬ AwaitsFrame t.tx) ∨
    ∃ i is, D.inputs = i :: is ∧ (i.got = 0 ∨ i.got < i.frames) ∧
      FirstUnmet (moreFrame D i boxId index.toNat (pieces 40 tokens)) c := by
  unfold P2pk.addInputTokens at h
  by_cases hst : p.state = .inputsStarted
  · rw [if_neg (not_not.2 hst)] at h
    obtain ⟨t, hu, hT⟩ := hR.tx (by rw [hst]; simp) hnf
    obtain ⟨e, he, rfl⟩ := withTx_fails hu h
    rcases addInputTokens_why hT.full hT.tab he with ⟨h1, h2, h3⟩ | h
    · refine .inl ⟨h1, h2, fun t' _ hu' => ?_⟩
      rw [hu] at hu'
      simp only [P2pkU.transaction.injEq] at hu'
      rw [← hu']
      exact h3
    · exact .inr h
  · rw [if_pos hst] at h
    simp only [OpRes.err.injEq] at h
    left
    refine ⟨h.symm, ?_, fun _ hs _ => absurd hs hst⟩
    intro i is hD hlt
    have hni : p.state ≠ .initialized := by
      intro he
      unfold PRel at hR
      rw [he] at hR
      rw [hR.2.2] at hD
      simp [TxDesc.empty] at hD
    obtain ⟨t, hu, hT⟩ := hR.tx hni hnf
    rcases hT.before (.inr ⟨i, by rw [hD]; simp, by
      simp only [InDesc.complete, Bool.and_eq_false_iff, decide_eq_false_iff_not]
      left; omega⟩) with h | h
    · have := hT.state
      rw [h] at this
      rw [this.1] at hD
      simp at hD
    · exact hst h

theorem addInput_awaits {boxId : Bytes} {v : UInt64} {n : UInt8} {ext : UInt32}
    (h : p.addInput boxId v n ext = .ok p') :
    p'.state = .inputsStarted ∧ ∃ t, p'.u = .transaction t ∧ AwaitsFrame t.tx := by
  unfold P2pk.addInput at h
  split at h
  · cases h
  cases hw : p.withTx (fun x => x.addInput boxId n ext) with
  | err e => rw [hw] at h; cases h
  | ub => rw [hw] at h; cases h
  | ok q =>
    rw [hw] at h
    simp only at h
    split at h
    · cases h
    simp only [OpRes.ok.injEq] at h
    subst h
    refine ⟨rfl, ?_⟩
    simp only
    unfold P2pk.withTx at hw
    split at hw
    case h_2 => cases hw
    rename_i t hu
    obtain ⟨x, r, hf⟩ : ∃ x r, FullSt.addInput ⟨t.tx, p.hash, ⟨p.amounts, t.out.getD (.init 0)⟩⟩
        boxId n ext = (x, r) := ⟨_, _, rfl⟩
    have key : r = .ok ∨ r = .more → AwaitsFrame x.c := by
      intro hr
      unfold FullSt.addInput at hf
      by_cases hs : t.tx.state = .inputsStarted
      case neg =>
        rw [if_pos hs] at hf
        simp only [FullSt.fail, Prod.mk.injEq] at hf
        rw [← hf.2] at hr
        simp at hr
      rw [if_neg (not_not.2 hs)] at hf
      unfold inputInit FullSt.fail at hf
      simp only at hf
      repeat' split at hf
      all_goals
        simp only [Prod.mk.injEq] at hf
        obtain ⟨rfl, rfl⟩ := hf
        first
          | (simp at hr; done)
          | skip
      all_goals
        first
          | exact ⟨hs, _, rfl, rfl⟩
          | (exfalso; simp_all; done)
    simp only [hf] at hw
    cases r with
    | ok =>
      simp only [OpRes.ok.injEq] at hw
      subst hw
      exact ⟨_, rfl, key (.inl rfl)⟩
    | more =>
      simp only [OpRes.ok.injEq] at hw
      subst hw
      exact ⟨_, rfl, key (.inr rfl)⟩
    | err e => cases hw
    | ub => cases hw

theorem addInput_op_why (hR : PRel env h0 p D) (hnf : p.state ≠ .finalized)
    (hgot : ∀ i ∈ D.inputs, 0 < i.got) {boxId : Bytes} {v : UInt64} {n : UInt8} {ext : UInt32}
    {c : UInt16} (h : p.addInput boxId v n ext = .err c) :
    FirstUnmet [(0 < D.nIn ∧ D.table.length = D.nTok ∧ D.inputs.length < D.nIn ∧
        ∀ i ∈ D.inputs, i.complete, 0xB0FF),
      (ext.toNat ≠ 1 ∧ ext.toNat ≤ 32768, 0xE003), (D.sumIn + v.toNat < 2 ^ 64, 0xE011)] c := by
  have hiff := addInput_op hR hnf hgot boxId v n ext
  have h0' := addInput_op hR hnf hgot boxId 0 n 0
  have hnp : ¬ ∃ p', p.addInput boxId v n ext = .ok p' := by
    rw [h]; rintro ⟨_, hh⟩; cases hh
  unfold P2pk.addInput at h h0'
  by_cases hst : p.state ≠ .txStarted ∧ p.state ≠ .inputsStarted
  · rw [if_pos hst] at h h0'
    simp only [OpRes.err.injEq] at h
    rw [← h]
    refine .here (fun hc => ?_)
    have hni : p.state ≠ .initialized := by
      intro he
      unfold PRel at hR
      rw [he] at hR
      rw [hR.2.2] at hc
      simp [TxDesc.empty] at hc
    obtain ⟨t, hu, hT⟩ := hR.tx hni hnf
    obtain ⟨_, hh⟩ := h0'.2 ⟨hc.1, hc.2.1, hc.2.2.1, hc.2.2.2, by decide, by decide, hT.sum⟩
    cases hh
  · rw [if_neg hst] at h
    have hni : p.state ≠ .initialized := by intro he; rw [he] at hst; simp at hst
    obtain ⟨t, hu, hT⟩ := hR.tx hni hnf
    cases hw : p.withTx (fun x => x.addInput boxId n ext) with
    | ok q =>
      rw [hw] at h
      simp only at h
      have hp := (withTx_iff (f := fun x => x.addInput boxId n ext) hu).1 ⟨q, hw⟩
      rw [addInput_iff hT.full hgot] at hp
      obtain ⟨g1, g2, g3, g4, g5⟩ := hp
      refine .later ⟨hT.full.nIn, g1, g2, g3⟩ (.later ⟨g4, g5⟩ ?_)
      split at h
      · simp only [OpRes.err.injEq] at h
        rw [← h]
        exact .here (fun hc => hnp (hiff.2 ⟨hT.full.nIn, g1, g2, g3, g4, g5, hc⟩))
      · cases h
    | err e =>
      rw [hw] at h
      simp only [OpRes.err.injEq] at h
      obtain ⟨e', he, rfl⟩ := withTx_fails hu hw
      rw [← h]
      exact (addInput_why hT.full hgot he).left (m := [_])
    | ub =>
      rw [hw] at h
      cases h

theorem frameDataLen_cases (hl : data.length ≤ 255) :
    (data.length < 59 ∨ 59 ≤ data.length ∧ data.length < frameLen data % 256 + 16) ∧
      frameDataLen data = 0 ∨
    59 ≤ data.length ∧ frameLen data % 256 + 16 ≤ data.length ∧
      (frameDataLen data).toNat = frameLen data % 256 := by
  unfold frameDataLen
  by_cases h1 : data.length < 59
  · rw [if_pos h1]; exact .inl ⟨.inl h1, rfl⟩
  rw [if_neg h1]
  have hb : (data.getD 42 0).toNat = field data 42 1 := by
    obtain ⟨b, hb⟩ : ∃ b, data[42]? = some b := ⟨_, List.getElem?_eq_getElem (by omega)⟩
    have : (data.drop 42).take 1 = [b] := by
      rw [List.drop_eq_getElem_cons (by omega)]
      rw [List.getElem?_eq_getElem (by omega)] at hb
      simp only [Option.some.injEq] at hb
      simp [hb]
    rw [field, this, be_one, List.getD_eq_getElem?_getD, hb]
    rfl
  have e : (data.getD 42 0 * 40 + 43).toNat = frameLen data % 256 := by
    rw [UInt8.toNat_add, mul40, hb, frameLen]
    show (40 * field data 42 1 % 256 + 43) % 256 = _
    omega
  simp only [e]
  split
  · left; exact ⟨.inr ⟨by omega, by assumption⟩, rfl⟩
  · right; exact ⟨by omega, by omega, e⟩

/-- Three bytes at least are under the tag. -/
theorem frameLen_mod (d : Bytes) : frameLen d % 256 ≠ 0 := by
  unfold frameLen
  generalize field d 42 1 = n
  omega

theorem opFrame_why (hR : PRel env h0 p D) (hnf : p.state ≠ .finalized)
    (hgot : ∀ i ∈ D.inputs, 0 < i.got) (hl : data.length ≤ 255) (key : Bytes) {c : UInt16}
    (h : opFrame env key p data = .err c) : FirstUnmet (frameDemands env key D data) c := by
  unfold frameDemands
  unfold opFrame at h
  simp only at h ⊢
  rcases frameDataLen_cases hl with ⟨h1, h2⟩ | ⟨h1, h2, h3⟩
  · rw [h2] at h
    rw [if_pos (by rfl)] at h
    simp only [OpRes.err.injEq] at h
    rw [← h]
    rcases h1 with h1 | ⟨h1, h1'⟩
    · exact .here (by omega)
    · exact .later h1 (.here (by omega))
  refine .later h1 (.later h2 ?_)
  rw [h3, if_neg (frameLen_mod data)] at h
  by_cases htag : TagAt env key (frameLen data % 256) data
  case neg =>
    rw [if_pos (fun hh => htag hh.symm)] at h
    simp only [OpRes.err.injEq] at h
    rw [← h]
    exact .here htag
  rw [if_neg (not_not.2 htag.symm)] at h
  refine .later htag ?_
  by_cases hlen : leastLen 0x21 0x12 data ≤ data.length
  case neg =>
    have : frameParse data = none := by
      cases hf : frameParse data with
      | none => rfl
      | some f => exact absurd (frameParse_facts hl hf).1 hlen
    rw [this] at h
    simp only [OpRes.err.injEq] at h
    rw [← h]
    exact .here hlen
  refine .later hlen ?_
  obtain ⟨f, hf⟩ := frameParse_ok hlen
  obtain ⟨_, hfl, ht⟩ := frameParse_facts hl hf
  obtain ⟨e1, e2, e3, e4, e5, e6, e7, _⟩ := frameParse_fields hf
  have htoks : (data.drop 43).take (40 * field data 42 1 % 256) = f.tokens := by
    obtain ⟨n, rest, e, l1, lt, l16, _⟩ := frameParse_some hf
    have h43 : data.drop 43 = f.tokens ++ rest := by
      have : (f.boxId ++ ([f.count, f.index] ++ (writeU64be f.value ++ [n]))).length = 43 := by
        simp [l1, length_writeU64]
      rw [e, ← this]
      simp only [← List.append_assoc]
      rw [List.append_assoc _ f.tokens, List.drop_left]
    rw [h43, List.take_left' ht]
  rw [hf] at h
  simp only at h
  rw [htoks, e3]
  cases hext : f.ext with
  | none =>
    have hne := e7 hext
    have hn0 : ¬ f.index.toNat = 0 := fun he => hne (u8_eq_zero.2 he)
    rw [hext] at h
    simp only at h
    rw [if_neg hn0]
    rcases addInputTokens_op_why hR hnf h with ⟨rfl, hno, _⟩ | ⟨i, is, hD, hg, hw⟩
    · refine .here ?_
      rintro ⟨i, hi, hlt⟩
      cases hD : D.inputs with
      | nil => rw [hD] at hi; simp at hi
      | cons j js =>
        rw [hD] at hi
        simp only [List.head?_cons, Option.mem_def, Option.some.injEq] at hi
        subst hi
        exact hno _ _ hD hlt
    · have hp := hgot i (by rw [hD]; simp)
      rw [hD]
      simp only [List.head?_cons, Option.mem_def, Option.some.injEq, exists_eq_left', forall_eq', e1]
      exact .later (hg.resolve_left (by omega)) hw
  | some ext =>
    obtain ⟨hi, hex⟩ := e6 ext hext
    have hexl : field data (frameLen data + 16) 4 = ext.toNat := hex
    rw [hext] at h
    simp only at h
    rw [if_pos (by rw [hi]; rfl), hexl, e4, e2, e1]
    cases hq : p.addInput f.boxId f.value f.count ext with
    | err e =>
      rw [hq] at h
      simp only [OpRes.err.injEq] at h
      rw [← h]
      exact (addInput_op_why hR hnf hgot hq).left (m := _ :: _)
    | ub => rw [hq] at h; cases h
    | ok q =>
      rw [hq] at h
      simp only at h
      obtain ⟨g1, g2, g3, g4, g5, g6, g7⟩ := (addInput_op hR hnf hgot _ _ _ _).1 ⟨q, hq⟩
      refine .later ⟨g1, g2, g3, g4⟩ (.later ⟨g5, g6⟩ (.later g7 ?_))
      have hq' := addInput_rel hR hq
      obtain ⟨hqs, t, hu, hfr⟩ := addInput_awaits hq
      rcases addInputTokens_op_why hq' (by rw [hqs]; simp) h with
        ⟨rfl, _, hno⟩ | ⟨i, is, hD, hg, hw⟩
      · exact absurd hfr (hno t hqs hu)
      · simp only [List.cons.injEq] at hD
        obtain ⟨rfl, rfl⟩ := hD
        cases hw with
        | here hb => exact absurd rfl hb
        | later _ hw =>
          cases hw with
          | here hb =>
            refine .here (fun hc => hb ?_)
            simp only
            rw [hi]
            exact hc
          | later hb hw =>
            cases hw with
            | here hn => exact absurd (by rw [hi]; rfl) hn
            | later _ hw =>
              refine .later ?_ hw
              simp only at hb
              omega

theorem PRel.nIn_pos (hR : PRel env h0 p D) (hnf : p.state ≠ .finalized)
    (h : D.inputs ≠ [] ∨ D.outputs ≠ []) : 0 < D.nIn := by
  have hni : p.state ≠ .initialized := by
    intro he
    unfold PRel at hR
    rw [he] at hR
    rw [hR.2.2] at h
    simp [TxDesc.empty] at h
  obtain ⟨t, hu, hT⟩ := hR.tx hni hnf
  exact hT.full.nIn

theorem addExtension_op_why (hR : PRel env h0 p D) (hnf : p.state ≠ .finalized)
    (hgot : ∀ i ∈ D.inputs, 0 < i.got) {c : UInt16} (h : p.addExtension data = .err c) :
    FirstUnmet [(∃ i ∈ D.inputs.head?, i.got = i.frames ∧ i.ext.length < i.extSize, 0xB0FF),
      (∀ i ∈ D.inputs.head?, i.ext.length + data.length ≤ i.extSize, 0xE015)] c := by
  have h0' := addExtension_op (data := []) hR hnf hgot
  unfold P2pk.addExtension at h h0'
  by_cases hst : p.state = .inputsStarted
  · rw [if_neg (not_not.2 hst)] at h
    obtain ⟨t, hu, hT⟩ := hR.tx (by rw [hst]; simp) hnf
    obtain ⟨e, he, rfl⟩ := withTx_fails hu h
    exact addInputExtension_why hT.full hgot he
  · rw [if_pos hst] at h h0'
    simp only [OpRes.err.injEq] at h
    rw [← h]
    refine .here ?_
    rintro ⟨i, hi, h1, h2⟩
    obtain ⟨is, hD⟩ : ∃ is, D.inputs = i :: is := by
      cases hD : D.inputs with
      | nil => rw [hD] at hi; simp at hi
      | cons j js => rw [hD] at hi; simp at hi; exact ⟨js, by rw [hi]⟩
    obtain ⟨_, hh⟩ := h0'.2 ⟨hR.nIn_pos hnf (.inl (by rw [hD]; simp)), i, is, hD, h1, h2, by
      simpa using Nat.le_of_lt h2⟩
    cases hh

theorem addDataInputs_op_why (hR : PRel env h0 p D) (hnf : p.state ≠ .finalized)
    (hgot : ∀ i ∈ D.inputs, 0 < i.got) {c : UInt16} (h : p.addDataInputs data = .err c) :
    FirstUnmet ((0 < D.nIn ∧ D.AllInputs ∧ D.dataInputs.length < D.nData, 0xB0FF) ::
      idDemands D.nData 0xE00C 0xE004 D.dataInputs.length (pieces 32 data)) c := by
  have h0' := addDataInputs_op (data := []) hR hnf hgot
  unfold P2pk.addDataInputs at h h0'
  by_cases hst : p.state = .inputsStarted
  · rw [if_neg (not_not.2 hst)] at h
    obtain ⟨t, hu, hT⟩ := hR.tx (by rw [hst]; simp) hnf
    obtain ⟨e, he, rfl⟩ := withTx_fails hu h
    exact addDataInputs_why hT.full hgot he
  · rw [if_pos hst] at h h0'
    simp only [OpRes.err.injEq] at h
    rw [← h]
    refine .here (fun hc => ?_)
    obtain ⟨_, hh⟩ := h0'.2 ⟨hc.1, hc.2.1, hc.2.2, by simp, by simpa using Nat.le_of_lt hc.2.2⟩
    cases hh

/-! ## Outputs -/

theorem opOutput_why (hR : PRel env h0 p D) (hnf : p.state ≠ .finalized)
    (hgot : ∀ i ∈ D.inputs, 0 < i.got) {c : UInt16} (h : opOutput p data = .err c) :
    FirstUnmet [(21 ≤ data.length, 0xE014), (data.length ≤ 21, 0xE015),
      (0 < D.nIn ∧ D.AllInputs ∧ D.dataInputs.length = D.nData ∧
        D.outputs.countP (·.box.complete) < D.nOut, 0xB0FF),
      (field data 16 1 ≤ 20, 0xE00A), (field data 8 4 ≤ 32768, 0xE015),
      (field data 17 4 ≤ 32768, 0xE015)] c := by
  have h0' := opOutput_iff (data := List.replicate 21 0) hR hnf hgot
  unfold opOutput at h h0'
  rcases Nat.lt_trichotomy data.length 21 with h1 | hl | h1
  · rw [parseOutput_short h1] at h
    simp only [OpRes.err.injEq] at h
    rw [← h]
    exact .here (by omega)
  case inr.inr =>
    rw [parseOutput_long h1] at h
    simp only [OpRes.err.injEq] at h
    rw [← h]
    exact .later (by omega) (.here (by omega))
  refine .later (by omega) (.later (by omega) ?_)
  obtain ⟨v, ts, ht, nt, rg, hp⟩ := parseOutput_some hl
  obtain ⟨_, hh⟩ := parseOutput_ok hp
  simp only [outHeader, BoxDesc.mk.injEq, and_true] at hh
  obtain ⟨f1, f2, f3, f4, f5⟩ := hh
  rw [f2, f4, f5]
  rw [hp] at h
  rw [show parseOutput (List.replicate 21 0) = .ok (0, 0, 0, 0, 0) from by decide +kernel] at h0'
  simp only at h h0'
  unfold P2pk.addOutput at h h0'
  by_cases hst : p.state ≠ .inputsStarted ∧ p.state ≠ .outputsStarted
  · rw [if_pos hst] at h h0'
    simp only [OpRes.err.injEq] at h
    rw [← h]
    refine .here (fun hc => ?_)
    obtain ⟨_, hh⟩ := h0'.2 ⟨hc.1, hc.2.1, hc.2.2.1, hc.2.2.2, by simp, by decide, by decide,
      by decide⟩
    cases hh
  · rw [if_neg hst] at h
    have hni : p.state ≠ .initialized := by intro he; rw [he] at hst; simp at hst
    obtain ⟨t, hu, hT⟩ := hR.tx hni hnf
    cases hw : p.withTx (fun x => x.addBox v ts ht nt rg) with
    | ok q =>
      obtain ⟨x, r, hf, hp, rfl⟩ := withTx_ok hu hw
      rw [hw] at h
      cases h
    | ub => rw [hw] at h; cases h
    | err e =>
      rw [hw] at h
      simp only [OpRes.err.injEq] at h
      obtain ⟨e', he, rfl⟩ := withTx_fails hu hw
      rw [← h]
      exact addBox_why hT.full hgot he

/-- A part of an output is refused by the serializer or by the output info, or there is no output
that waits for parts. -/
theorem withOut_why {f : FullSt → FullSt × Res FullErr} {g : OutInfo → Bool → OutRes}
    {Q : OutDesc → Prop} {l : OutDesc → List Demand} (hR : PRel env h0 p D)
    (hnf : p.state ≠ .finalized) (hinc : ∀ o, Q o → o.box.complete = false)
    (hq : ∀ x o os c, FullRel env.keyOf h0 x D → D.outputs = o :: os →
      OutRel env x.s.a.table D.table x.s.o o.box → D.sumIn < 2 ^ 64 →
      ((∃ e, (f x).2 = .err e ∧ c = e.sw) ∨
        ((f x).2.passes ∧ g (f x).1.s.o ((f x).2 = .ok) = .badState ∧ c = 0xB0FF)) →
      FirstUnmet ((Q o, 0xB0FF) :: l o) c) {c : UInt16} (h : p.withOut f g = .err c) :
    (c = 0xB0FF ∧ ¬ ∃ o ∈ D.outputs.head?, Q o) ∨
      ∃ o os, D.outputs = o :: os ∧ FirstUnmet ((Q o, 0xB0FF) :: l o) c := by
  unfold P2pk.withOut at h
  by_cases hst : p.state = .outputsStarted
  · right
    rw [if_neg (not_not.2 hst)] at h
    obtain ⟨t, hu, hT⟩ := hR.tx (by rw [hst]; simp) hnf
    rw [hst] at hT
    rw [hu] at h
    simp only at h
    obtain ⟨hne, _⟩ := hT.state
    have hout := hT.out
    unfold NewestRel at hout
    cases hD : D.outputs with
    | nil => exact absurd hD hne
    | cons o os =>
      rw [hD] at hout
      obtain ⟨oi, hoi, hO⟩ := hout
      refine ⟨o, os, rfl, ?_⟩
      have hF := hT.full
      rw [hoi] at hF
      have hq := hq _ o os c hF hD hO hT.sum
      simp only [Option.getD_some] at hq
      obtain ⟨x, r, hf⟩ : ∃ x r, f ⟨t.tx, p.hash, ⟨p.amounts, oi⟩⟩ = (x, r) := ⟨_, _, rfl⟩
      simp only [hoi, hf] at h
      simp only [hf] at hq
      cases r with
      | err e =>
        simp only [OpRes.err.injEq] at h
        exact hq (.inl ⟨e, rfl, h.symm⟩)
      | ub => cases h
      | ok =>
        simp only [decide_true] at h hq
        cases hg : g x.s.o true with
        | badState =>
          rw [hg] at h
          simp only [OpRes.err.injEq] at h
          exact hq (.inr ⟨rfl, hg, h.symm⟩)
        | ub => rw [hg] at h; cases h
        | ok q => rw [hg] at h; cases h
      | more =>
        simp only [reduceCtorEq, decide_false] at h hq
        cases hg : g x.s.o false with
        | badState =>
          rw [hg] at h
          simp only [OpRes.err.injEq] at h
          exact hq (.inr ⟨rfl, hg, h.symm⟩)
        | ub => rw [hg] at h; cases h
        | ok q => rw [hg] at h; cases h
  · left
    rw [if_pos hst] at h
    simp only [OpRes.err.injEq] at h
    refine ⟨h.symm, ?_⟩
    rintro ⟨o, ho, hQ⟩
    cases hD : D.outputs with
    | nil => rw [hD] at ho; simp at ho
    | cons o' os =>
      rw [hD] at ho
      simp only [List.head?_cons, Option.mem_def, Option.some.injEq] at ho
      subst ho
      obtain ⟨t, hu, hT⟩ := hR.started hnf (hR.nIn_pos hnf (.inr (by rw [hD]; simp)))
      have hs := hT.state
      unfold StateRel at hs
      split at hs
      · exact hs.elim
      · rw [hs.2] at hD; cases hD
      · rw [hs.2] at hD; cases hD
      · rename_i he; exact hst he
      · have hph := hT.full.phase
        unfold FullPhase at hph
        rw [hs.2] at hph
        obtain ⟨_, _, o', os', hD', hc⟩ := hph
        rw [hD'] at hD
        simp only [List.cons.injEq] at hD
        obtain ⟨rfl, rfl⟩ := hD
        rw [hinc _ hQ] at hc
        cases hc
      · exact hs.elim

theorem addOutputTree_op_why (hR : PRel env h0 p D) (hnf : p.state ≠ .finalized) {c : UInt16}
    (h : p.addOutputTree env data = .err c) :
    FirstUnmet [(∃ o ∈ D.outputs.head?, o.box.scriptDone = false, 0xB0FF),
      (∀ o ∈ D.outputs.head?, scriptLen o.box + data.length ≤ o.box.treeSize, 0xE015),
      (∀ o ∈ D.outputs.head?, scriptLen o.box + data.length = o.box.treeSize ∨ 255 ≤ data.length,
        0xE01A)] c := by
  have hiff := addOutputTree_iff (data := data) hR hnf
  rw [h] at hiff
  rcases withOut_why (Q := fun o => o.box.scriptDone = false) (l := fun o =>
    [(scriptLen o.box + data.length ≤ o.box.treeSize, 0xE015),
      (scriptLen o.box + data.length = o.box.treeSize ∨ 255 ≤ data.length, 0xE01A)])
    hR hnf (fun o h => not_complete h) (by
        intro x o os c hF hD hO hv hc
        rcases hc with ⟨e, he, rfl⟩ | ⟨hp, hg, rfl⟩
        · exact addBoxTree_why hF hD hO hv he
        · exfalso
          obtain ⟨_, hh⟩ := hiff.2 ⟨hF.nIn, o, os, hD, (addBoxTree_iff hF hD hO hv data).1 hp⟩
          cases hh) h with ⟨rfl, hno⟩ | ⟨o, os, hD, hw⟩
  · exact .here hno
  · rw [hD]
    simpa using hw

theorem ownScript_why {f : FullSt → FullSt × Res FullErr} {g : OutInfo → Bool → OutRes}
    (hR : PRel env h0 p D) (hnf : p.state ≠ .finalized)
    (hiff : (∃ p', p.withOut f g = .ok p') ↔ 0 < D.nIn ∧ ∃ o os, D.outputs = o :: os ∧
      (o.box.script = none ∧ ValueFits D o))
    (hq : ∀ x o os, FullRel env.keyOf h0 x D → D.outputs = o :: os →
      OutRel env x.s.a.table D.table x.s.o o.box → D.sumIn < 2 ^ 64 →
      ((f x).2.passes → o.box.scriptDone = false ∧ ValueFits D o) ∧
      ∀ e, (f x).2 = .err e →
        FirstUnmet [(o.box.scriptDone = false, 0xB0FF), (ValueFits D o, 0xE011),
          (o.box.script = none, 0xB0FF)] e.sw)
    {c : UInt16} (h : p.withOut f g = .err c) : FirstUnmet (ownScriptDemands D) c := by
  rw [h] at hiff
  rcases withOut_why (Q := fun o => o.box.scriptDone = false) (l := fun o =>
    [(ValueFits D o, 0xE011), (o.box.script = none, 0xB0FF)])
    hR hnf (fun o h => not_complete h) (by
        intro x o os c hF hD hO hv hc
        obtain ⟨h1, h2⟩ := hq x o os hF hD hO hv
        rcases hc with ⟨e, he, rfl⟩ | ⟨hp, hg, rfl⟩
        · exact h2 e he
        · obtain ⟨g1, g2⟩ := h1 hp
          refine .later g1 (.later g2 (.here (fun hn => ?_)))
          obtain ⟨_, hh⟩ := hiff.2 ⟨hF.nIn, o, os, hD, hn, g2⟩
          cases hh) h with ⟨rfl, hno⟩ | ⟨o, os, hD, hw⟩
  · exact .here hno
  · unfold ownScriptDemands
    rw [hD]
    simpa using hw

theorem opFee_why (hR : PRel env h0 p D) (hnf : p.state ≠ .finalized) {c : UInt16}
    (h : opFee env p data = .err c) :
    FirstUnmet ((data = [], 0xE015) :: ownScriptDemands D) c := by
  unfold opFee at h
  by_cases hd : data = []
  · rw [if_neg (not_not.2 hd)] at h
    refine .later hd (ownScript_why hR hnf (addOutputFee_iff hR hnf) ?_ h)
    intro x o os hF hD hO hv
    exact ⟨(setScript_iff (s := .fee) (bytes := minersFeeTree) (fun b => rfl) (by simp) hF hD hO hv).1,
      fun e he => setScript_why (s := .fee) (bytes := minersFeeTree) (fun b => rfl) hF hD hv he⟩
  · rw [if_pos hd] at h
    simp only [OpRes.err.injEq] at h
    rw [← h]
    exact .here hd

theorem opChange_why (hR : PRel env h0 p D) (hnf : p.state ≠ .finalized) {c : UInt16}
    (h : opChange env p data = .err c) :
    FirstUnmet ((1 ≤ field data 0 1 ∧ field data 0 1 ≤ 10 ∧ pathLen data ≤ data.length, 0xE010) ::
      (IsAddressPath (pathOf data), 0xE012) :: ((env.genPublic (pathOf data)).isSome, 0xE013) ::
      ownScriptDemands D) c := by
  unfold opChange at h
  rcases readPath_cases data with ⟨h1, h2⟩ | ⟨h1, path, h2⟩
  · rw [h2] at h
    simp only [OpRes.err.injEq] at h
    rw [← h]
    exact .here (by omega)
  rw [h2] at h
  simp only at h
  refine .later ⟨h1.2.1, h1.2.2, h1.1⟩ ?_
  obtain ⟨hp, _⟩ := readPath_some h2
  rw [hp]
  by_cases hv : pathValidate path .addressGe5
  case neg =>
    rw [if_pos hv] at h
    simp only [OpRes.err.injEq] at h
    rw [← h]
    exact .here (fun g => hv ((validate_address path).2 g))
  rw [if_neg (not_not.2 hv)] at h
  refine .later ((validate_address path).1 hv) ?_
  cases hg : env.genPublic path with
  | none =>
    rw [hg] at h
    simp only [OpRes.err.injEq] at h
    rw [← h]
    exact .here (by simp)
  | some r =>
    obtain ⟨pub, cc⟩ := r
    rw [hg] at h
    simp only at h
    refine .later (by simp) (ownScript_why hR hnf (addOutputChange_iff hR hnf hg) ?_ h)
    intro x o os hF hD hO hv
    exact ⟨(setScript_iff (s := .change path) (bytes := treeGenerateP2pk pub) (fun b => rfl) (by simp)
        hF hD hO hv).1,
      fun e he => setScript_why (s := .change path) (bytes := treeGenerateP2pk pub) (fun b => rfl)
        hF hD hv he⟩

theorem addOutputTokens_op_why (hR : PRel env h0 p D) (hnf : p.state ≠ .finalized) {c : UInt16}
    (h : p.addOutputTokens env data = .err c) :
    FirstUnmet ((∃ o ∈ D.outputs.head?, o.box.scriptDone = true ∧ o.box.tokens.length < o.box.nTokens,
        0xB0FF) ::
      match D.outputs with
      | [] => []
      | o :: _ => outTokDemands D o [] (pieces 12 data)) c := by
  rcases withOut_why (Q := fun o => o.box.scriptDone = true ∧ o.box.tokens.length < o.box.nTokens)
    (l := fun o => outTokDemands D o [] (pieces 12 data)) hR hnf (by
        rintro o ⟨_, h⟩
        simp only [BoxDesc.complete, Bool.and_eq_false_iff, decide_eq_false_iff_not]
        left; right; omega) (by
        intro x o os c hF hD hO hv hc
        rcases hc with ⟨e, he, rfl⟩ | ⟨hp, hg, rfl⟩
        · exact addBoxTokens_why hF hD hO he
        · cases hg) h with
    ⟨rfl, hno⟩ | ⟨o, os, hD, hw⟩
  · exact .here hno
  · rw [hD]
    simpa using hw

theorem addOutputRegisters_op_why (hR : PRel env h0 p D) (hnf : p.state ≠ .finalized) {c : UInt16}
    (h : p.addOutputRegisters env data = .err c) :
    FirstUnmet [(∃ o ∈ D.outputs.head?, o.box.scriptDone = true ∧
        o.box.tokens.length = o.box.nTokens ∧ o.box.regs.length < o.box.regsSize, 0xB0FF),
      (∀ o ∈ D.outputs.head?, o.box.regs.length + data.length ≤ o.box.regsSize, 0xE015)] c := by
  rcases withOut_why (Q := fun o => o.box.scriptDone = true ∧ o.box.tokens.length = o.box.nTokens ∧
      o.box.regs.length < o.box.regsSize)
    (l := fun o => [(o.box.regs.length + data.length ≤ o.box.regsSize, 0xE015)]) hR hnf (by
        rintro o ⟨_, _, h⟩
        simp only [BoxDesc.complete, Bool.and_eq_false_iff, decide_eq_false_iff_not]
        right; omega) (by
        intro x o os c hF hD hO hv hc
        rcases hc with ⟨e, he, rfl⟩ | ⟨hp, hg, rfl⟩
        · exact addBoxRegisters_why hF hD he
        · cases hg) h with
    ⟨rfl, hno⟩ | ⟨o, os, hD, hw⟩
  · exact .here hno
  · rw [hD]
    simpa using hw

/-- A refused command of a signing session says which demand is not met. -/
theorem signOp_why (hR : PRel env h0 p D) (hnf : p.state ≠ .finalized)
    (hgot : ∀ i ∈ D.inputs, 0 < i.got) (hl : data.length ≤ 255) (key : Bytes) {sub : UInt8}
    (h1 : 0x10 ≤ sub) (h2 : sub ≤ 0x1A) {c : UInt16} (h : signOp env key p sub data = .err c) :
    FirstUnmet (signDemands env key D sub data) c := by
  by_cases e : sub = 0x10
  · subst e; exact opStart_why hR hnf h
  by_cases e1 : sub = 0x11
  · subst e1; exact addTokens_op_why hR hnf h
  by_cases e2 : sub = 0x12
  · subst e2; exact opFrame_why hR hnf hgot hl key h
  by_cases e3 : sub = 0x13
  · subst e3; exact addExtension_op_why hR hnf hgot h
  by_cases e4 : sub = 0x14
  · subst e4; exact addDataInputs_op_why hR hnf hgot h
  by_cases e5 : sub = 0x15
  · subst e5; exact opOutput_why hR hnf hgot h
  by_cases e6 : sub = 0x16
  · subst e6; exact addOutputTree_op_why hR hnf h
  by_cases e7 : sub = 0x17
  · subst e7; exact opFee_why hR hnf h
  by_cases e8 : sub = 0x18
  · subst e8; exact opChange_why hR hnf h
  by_cases e9 : sub = 0x19
  · subst e9; exact addOutputTokens_op_why hR hnf h
  have ea : sub = 0x1A := by
    rw [UInt8.le_iff_toNat_le] at h1 h2
    simp only [← UInt8.toNat_inj] at *
    simp at *
    omega
  subst ea
  exact addOutputRegisters_op_why hR hnf h

end Ergo
