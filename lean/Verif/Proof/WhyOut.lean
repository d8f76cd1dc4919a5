import Verif.Proof.WhyIn
/-!
# The status word of a refused command: parts of an output
-/
namespace Ergo
open Spec

variable {env : Env} {keyOf : List UInt32 → Bytes} {h0 : Bytes} {x x' : FullSt} {D : TxDesc}
  {o : OutDesc} {os : List OutDesc}
variable {a : Amounts} {base table : List Bytes} {vin vch vfee : Nat} {tin tout : Bytes → Nat}

/-- An error of a box part is that of the serializer of the newest box, unless that box is complete. -/
theorem boxPart_why (hR : FullRel keyOf h0 x D) (hD : D.outputs = o :: os)
    {f : BoxSt Acc → BoxSt Acc × Res BoxErr} {e : FullErr} (h : (x.boxPart f).2 = .err e) :
    (o.box.complete = true ∧ e.sw = 0xB0FF) ∨
    (x.c.state = .outputsStarted ∧ ∃ b, BoxRel vlq keyOf
        (preBytes h0 D ++ os.reverse.flatMap (fun o => boxSoFar vlq keyOf o.box)) b x.h o.box ∧
      ∃ e', (f ⟨b, x.h, x.s⟩).2 = .err e' ∧ e = e'.toFull) := by
  unfold FullSt.boxPart at h
  rcases hR.outState (by rw [hD]; simp) with hst | hst
  · right
    refine ⟨hst, ?_⟩
    have hph := hR.phase
    unfold FullPhase at hph
    rw [hst] at hph
    simp only at hph
    obtain ⟨hpos, htab, hi, hn, hd, hcnt, hout⟩ := hph
    rw [hD] at hout
    simp only at hout
    obtain ⟨b, hsub, hb⟩ := hout
    refine ⟨b, hb, ?_⟩
    rw [if_neg (by simpa using hst), hsub] at h
    simp only at h
    obtain ⟨y, q, hy⟩ : ∃ y q, f ⟨b, x.h, x.s⟩ = (y, q) := ⟨_, _, rfl⟩
    rw [hy] at h ⊢
    cases q with
    | ok =>
      simp only at h
      split at h
      · unfold FullSt.outputFinished at h
        simp only at h
        split at h <;> cases h
      · cases h
    | more => cases h
    | ub => cases h
    | err e' =>
      simp only [FullSt.fail, Res.err.injEq] at h
      exact ⟨e', rfl, h.symm⟩
  · left
    have hph := hR.phase
    unfold FullPhase at hph
    rw [hst] at hph
    simp only at hph
    obtain ⟨_, _, o', os', hD', hc⟩ := hph
    rw [hD] at hD'
    simp only [List.cons.injEq] at hD'
    obtain ⟨rfl, rfl⟩ := hD'
    refine ⟨hc, ?_⟩
    rw [if_pos (by rw [hst]; simp)] at h
    simp only [FullSt.fail, Res.err.injEq] at h
    rw [← h]; rfl

theorem finish_noerr {x : BoxSt Acc} {e : BoxErr} : (x.finish (accCbs env)).2 ≠ .err e := by
  intro h
  unfold BoxSt.finish at h
  simp only [accCbs] at h
  unfold OutInfo.setBoxFinished at h
  split at h
  · simp [BoxSt.check] at h
  · simp [BoxSt.check] at h

theorem treeAdded_why {x : BoxSt Acc} {e : BoxErr} (h : (x.treeAdded (accCbs env)).2 = .err e) :
    (x.s.a.addOutput x.c.type x.c.value).2 = .err e := by
  unfold BoxSt.treeAdded at h
  simp only [show ∀ ty v s, (accCbs env).onType ty v s =
    ({ s with a := (s.a.addOutput ty v).1 }, (s.a.addOutput ty v).2) from fun _ _ _ => rfl] at h
  generalize hr : (x.s.a.addOutput x.c.type x.c.value).2 = r at h
  cases r with
  | ok =>
    simp only [BoxSt.check] at h
    split at h
    · split at h
      · exact absurd h finish_noerr
      · cases h
    · cases h
  | more =>
    simp only [BoxSt.check] at h
    split at h
    · split at h
      · exact absurd h finish_noerr
      · cases h
    · cases h
  | ub => simp [BoxSt.check] at h
  | err e' => simpa [BoxSt.check, BoxSt.fail] using h

theorem addOutput_err {a : Amounts} {ty : BoxType} {v : UInt64} {e : BoxErr}
    (h : (a.addOutput ty v).2 = .err e) : e = .u64Overflow := by
  unfold Amounts.addOutput at h
  repeat' split at h
  all_goals first | cases h; done | (simp only [Res.err.injEq] at h; exact h.symm)

theorem addBoxTree_why (hR : FullRel keyOf h0 x D) (hD : D.outputs = o :: os)
    (hO : OutRel env x.s.a.table D.table x.s.o o.box) (hv : D.sumIn < 2 ^ 64) {chunk : Bytes}
    {e : FullErr} (h : (x.addBoxTree env chunk).2 = .err e) :
    FirstUnmet [(o.box.scriptDone = false, 0xB0FF),
      (scriptLen o.box + chunk.length ≤ o.box.treeSize, 0xE015),
      (scriptLen o.box + chunk.length = o.box.treeSize ∨ 255 ≤ chunk.length, 0xE01A)] e.sw := by
  rcases boxPart_why hR hD h with ⟨hc, he⟩ | ⟨_, b, hB, e', hf, rfl⟩
  · rw [he]
    refine .here (fun hs => ?_)
    rw [not_complete hs] at hc; simp at hc
  have hin := init_of_scriptDone hB
  unfold BoxSt.addTree at hf
  simp only at hf
  by_cases hbs : b.state = .initialized
  case neg =>
    rw [if_pos hbs] at hf
    simp only [BoxSt.fail, Res.err.injEq] at hf
    rw [← hf]
    exact .here (fun hc => hbs (hin.2 hc))
  rw [if_neg (by simpa using hbs)] at hf
  have hsd := hin.1 hbs
  refine .later hsd ?_
  have hlen : scriptLen o.box + b.treeSize.toNat = o.box.treeSize := by
    have hph := hB.phase
    unfold BoxPhase at hph
    rw [hbs] at hph
    simp only at hph
    unfold scriptLen
    rcases hph.1 with ⟨h1, h2⟩ | ⟨bs, h1, h2, _⟩
    · rw [h1]; simpa using h2
    · rw [h1]; exact h2
  have h255 : maxChunk = 255 := rfl
  by_cases h1 : b.treeSize.toNat < chunk.length
  · rw [if_pos h1] at hf
    simp only [BoxSt.fail, Res.err.injEq] at hf
    rw [← hf]
    exact .here (by omega)
  rw [if_neg h1] at hf
  refine .later (by omega) ?_
  by_cases h2 : b.treeSize.toNat > chunk.length ∧ chunk.length < maxChunk
  · rw [if_pos h2] at hf
    simp only [BoxSt.fail, Res.err.injEq] at hf
    rw [← hf]
    exact .here (by omega)
  rw [if_neg h2] at hf
  exfalso
  split at hf
  · have := treeAdded_why hf
    simp [Amounts.addOutput] at this
  · cases hf

theorem setScript_why {f : BoxSt Acc → BoxSt Acc × Res BoxErr} {s : Script} {bytes : Bytes}
    (hf : ∀ b : BoxSt Acc, f b = if b.c.state ≠ .initialized then b.fail .badState else
      BoxSt.treeAdded (accCbs env)
        { b with h := b.h ++ bytes, c := { b.c with type := typeOf s } })
    (hR : FullRel keyOf h0 x D) (hD : D.outputs = o :: os) (hv : D.sumIn < 2 ^ 64)
    {e : FullErr} (h : (x.boxPart f).2 = .err e) {l : List Demand} :
    FirstUnmet ((o.box.scriptDone = false, 0xB0FF) :: (ValueFits D o, 0xE011) :: l) e.sw := by
  rcases boxPart_why hR hD h with ⟨hc, he⟩ | ⟨_, b, hB, e', hf', rfl⟩
  · rw [he]
    refine .here (fun hs => ?_)
    rw [not_complete hs] at hc; simp at hc
  rw [hf] at hf'
  have hin := init_of_scriptDone hB
  simp only at hf'
  by_cases hbs : b.state = .initialized
  case neg =>
    rw [if_pos hbs] at hf'
    simp only [BoxSt.fail, Res.err.injEq] at hf'
    rw [← hf']
    exact .here (fun hc => hbs (hin.2 hc))
  rw [if_neg (by simpa using hbs)] at hf'
  refine .later (hin.1 hbs) ?_
  have hA := treeAdded_why hf'
  have hiff := addOutput_iff hR.amt hv (typeOf s) b.value
  rw [addOutput_err hA]
  refine .here (fun hc => ?_)
  have hval : b.value.toNat = o.box.value := hB.value
  have := hiff.2 (fun _ => by rw [hval]; exact hc)
  simp only at hA
  rw [hA] at this
  simp [Res.passes] at this

theorem addBoxRegisters_why (hR : FullRel keyOf h0 x D) (hD : D.outputs = o :: os) {chunk : Bytes}
    {e : FullErr} (h : (x.addBoxRegisters env chunk).2 = .err e) :
    FirstUnmet [(o.box.scriptDone = true ∧ o.box.tokens.length = o.box.nTokens ∧
        o.box.regs.length < o.box.regsSize, 0xB0FF),
      (o.box.regs.length + chunk.length ≤ o.box.regsSize, 0xE015)] e.sw := by
  rcases boxPart_why hR hD h with ⟨hc, he⟩ | ⟨_, b, hB, e', hf, rfl⟩
  · rw [he]
    refine .here ?_
    rintro ⟨_, _, hs⟩
    simp only [BoxDesc.complete, Bool.and_eq_true, decide_eq_true_eq] at hc
    omega
  have hph := hB.phase
  unfold BoxSt.addRegisters at hf
  simp only at hf
  by_cases hbs : b.state = .tokensAdded
  · rw [if_neg (by simpa using hbs)] at hf
    unfold BoxPhase at hph
    rw [hbs] at hph
    simp only at hph
    obtain ⟨hsd, _, ht, hr, hpos⟩ := hph
    refine .later ⟨hsd, ht, by omega⟩ ?_
    by_cases h1 : b.regsSize.toNat < chunk.length
    · rw [if_pos h1] at hf
      simp only [BoxSt.fail, Res.err.injEq] at hf
      rw [← hf]
      exact .here (by omega)
    rw [if_neg h1] at hf
    exfalso
    split at hf
    · exact finish_noerr hf
    · cases hf
  · rw [if_pos hbs] at hf
    simp only [BoxSt.fail, Res.err.injEq] at hf
    rw [← hf]
    refine .here ?_
    rintro ⟨g1, g2, g3⟩
    unfold BoxPhase at hph
    split at hph
    · rename_i he
      rw [(init_of_scriptDone hB).1 he] at g1; simp at g1
    · omega
    · rename_i he; exact hbs he
    · simp only [BoxDesc.complete, Bool.and_eq_true, decide_eq_true_eq] at hph
      omega
    · simp only [BoxDesc.complete, Bool.and_eq_true, decide_eq_true_eq] at hph
      omega
    · exact hph.elim

/-! ## Tokens -/

theorem addToken_err {oi : OutInfo} {id : Bytes} {v : UInt64} {e : BoxErr} (hm : id ∈ table)
    (h : (oi.addToken table id v).2 = .err e) : e = .badTokenValue := by
  obtain ⟨i, hf⟩ := tableFind_mem hm
  unfold OutInfo.addToken at h
  rw [hf] at h
  simp only at h
  split at h
  · simp only [Res.err.injEq] at h; exact h.symm
  · cases h

theorem addOutputToken_err {id : Bytes} {v : UInt64} {e : BoxErr} (hm : id ∈ a.table)
    (h : (a.addOutputToken id v).2 = .err e) : e = .u64Overflow := by
  obtain ⟨i, hf⟩ := tableFind_mem hm
  unfold Amounts.addOutputToken at h
  rw [hf] at h
  simp only at h
  split at h
  · simp only [Res.err.injEq] at h; exact h.symm
  · cases h

theorem outTokensLoop_why {dn : UInt8} (hdn : dn.toNat = D.table.length) (hnt : D.table.length = D.nTok) :
    ∀ (n : Nat) (input : Bytes) (x : BoxSt Acc) (got : List (Nat × Nat)) (e : BoxErr),
    x.s.a.table = table →
    AmtRel x.s.a D.table vin vch vfee D.tokIn (fun j => D.tokOut j + tokRefs D.table got j) →
    TokRel table x.s.o.tokens (tokRefs D.table (o.box.tokens ++ got)) →
    o.box.tokens.length + got.length + x.c.tokensCount.toNat = o.box.nTokens →
    (BoxSt.tokensLoop (accCbs env) (some (dn, table)) n input x).2 = .err e →
    FirstUnmet (outTokDemands D o got (pieces 12 input)) e.toFull.sw := by
  intro n
  induction n with
  | zero =>
    intro input x got e ht hA hT hk h
    cases input <;> simp [BoxSt.tokensLoop] at h
  | succ n ih =>
    intro input x got e ht hA hT hk h
    cases input with
    | nil => simp [BoxSt.tokensLoop] at h
    | cons b bs =>
      obtain ⟨d, hd⟩ : ∃ d, b :: bs = d := ⟨_, rfl⟩
      have hne : d ≠ [] := by rw [← hd]; simp
      simp only [BoxSt.tokensLoop] at h
      rw [hd] at h ⊢
      rw [pieces_ne (by decide) hne, outTokDemands]
      by_cases hc0 : x.c.tokensCount = 0
      · rw [if_pos hc0] at h
        simp only [BoxSt.fail, Res.err.injEq] at h
        rw [← h]
        have := u8_eq_zero.1 hc0
        exact .here (by omega)
      rw [if_neg hc0] at h
      have hcnt := u8_ne_zero.1 hc0
      refine .later (by omega) ?_
      simp only [boxTokenId] at h
      rcases bufU32_cases d with ⟨h1, h2⟩ | ⟨h1, ix, h2⟩
      · rw [h2] at h
        simp only [Res.err.injEq] at h
        rw [← h]
        exact .here (by simp; omega)
      rw [h2] at h
      simp only at h
      refine .later (by simp; omega) ?_
      have hr1 := bufU32_some h2
      have htk1 : (tok12 (d.take 12)).1 = ix.toNat := by
        simp only [tok12, List.take_take]
        rw [hr1, show min 4 12 = (writeU32be ix).length from by rw [length_writeU32]; rfl,
          List.take_left, be_writeU32]
      rw [htk1]
      by_cases hix : ix.toNat ≥ dn.toNat
      · rw [if_pos hix] at h
        simp only [BoxSt.fail, Res.err.injEq] at h
        rw [← h]
        exact .here (by omega)
      rw [if_neg hix] at h
      refine .later (by omega) ?_
      rcases bufU64_cases (d.drop 4) with ⟨h3, h4⟩ | ⟨h3, v, h4⟩
      · simp only [h4, BoxSt.fail, Res.err.injEq] at h
        rw [← h]
        simp only [List.length_drop] at h3
        exact .here (by simp; omega)
      simp only [h4] at h
      simp only [List.length_drop] at h3
      refine .later (by simp; omega) ?_
      have hr2 := bufU64_some h4
      have hal : (writeU32be ix ++ writeU64be v).length = 12 := by
        simp [length_writeU32, length_writeU64]
      have hdd : d = (writeU32be ix ++ writeU64be v) ++ (d.drop 4).drop 8 := by
        rw [hr2] at hr1
        simpa using hr1
      have htk : d.take 12 = writeU32be ix ++ writeU64be v := by
        rw [hdd, List.take_left' hal]
      have htok : tok12 (d.take 12) = (ix.toNat, v.toNat) := by
        rw [htk]
        simp only [tok12]
        rw [← length_writeU32 ix, List.take_left, List.drop_left, be_writeU32, be_writeU64]
      have hdr : (d.drop 4).drop 8 = d.drop 12 := by rw [List.drop_drop]
      rw [hdr] at h
      rw [htok]
      simp only
      have hix' : ix.toNat < D.table.length := by omega
      have hent : D.table[ix.toNat]? = some (tableEntry table ix.toNat) :=
        prefix_getElem? (ht ▸ hA.pre) hix'
      rw [hent]
      generalize tableEntry table ix.toNat = id at *
      have hm : id ∈ table := by
        have : id ∈ D.table := List.mem_of_getElem? hent
        have hpre := hA.pre
        rw [ht] at hpre
        exact hpre.subset this
      simp only [Option.mem_def, Option.some.injEq, forall_eq']
      have k1 := addToken_iff (v := v) hT hm
      have k2 := addOutputToken_iff (v := v) hA (by rw [ht]; exact hm)
      have hone : ∀ j, tokRefs D.table [(ix.toNat, v.toNat)] j = if j = id then v.toNat else 0 := by
        intro j
        rw [tokRefs_cons, hent]
        by_cases hj : j = id
        · subst hj; simp [tokRefs]
        · have : ¬ id = j := fun e => hj e.symm
          simp [hj, this, tokRefs]
      simp only [accCbs, ht] at h
      obtain ⟨o1, r1, hr⟩ : ∃ o1 r1, x.s.o.addToken table id v = (o1, r1) := ⟨_, _, rfl⟩
      obtain ⟨a1, q1, hq⟩ : ∃ a1 q1, x.s.a.addOutputToken id v = (a1, q1) := ⟨_, _, rfl⟩
      rw [hr] at k1
      rw [hq] at k2
      simp only at k1 k2
      rw [hr] at h
      by_cases hp1 : r1.passes = true
      · obtain ⟨e1, ho1, hz, hT1⟩ := addToken_rel (by rw [← ht]; exact hA.tlen) hT hr hp1
        subst e1
        refine .later (k1.1 rfl) ?_
        simp only [hq] at h
        by_cases hp2 : q1.passes = true
        · obtain ⟨e2, ht1, hA1⟩ := hA.addOutputToken hq hp2
          refine .later (k2.1 hp2) ?_
          have hc1 : (x.c.tokensCount - 1).toNat = x.c.tokensCount.toNat - 1 :=
            u8_sub_ofNat x.c.tokensCount (k := 1) hcnt
          refine ih (d.drop 12)
            { c := { x.c with tokensCount := x.c.tokensCount - 1 }
              h := x.h ++ gvePutU32 ix ++ gvePutU64 v, s := ⟨a1, o1⟩ } _ _
            (by simpa [ht] using ht1) ?_ ?_ ?_ ?_
          · have : (fun j => D.tokOut j + tokRefs D.table (got ++ [(ix.toNat, v.toNat)]) j) =
                fun j => D.tokOut j + tokRefs D.table got j + if j = id then v.toNat else 0 := by
              funext j; rw [tokRefs_append, hone]; omega
            rw [this]; exact hA1
          · have : tokRefs D.table (o.box.tokens ++ (got ++ [(ix.toNat, v.toNat)])) =
                fun j => tokRefs D.table (o.box.tokens ++ got) j + if j = id then v.toNat else 0 := by
              funext j; rw [← List.append_assoc, tokRefs_append _ (o.box.tokens ++ got), hone]
            rw [this]; exact hT1
          · simp only [List.length_append, List.length_cons, List.length_nil, hc1]
            omega
          · rcases passes_iff.1 hp2 with rfl | rfl
            · simpa [BoxSt.check, accCbs] using h
            · simpa [BoxSt.check, accCbs] using h
        · refine (?_ : e = .u64Overflow) ▸ .here (fun hc => hp2 (k2.2 hc))
          cases q1 with
          | ok => exact absurd rfl hp2
          | more => exact absurd rfl hp2
          | ub => simp [BoxSt.check] at h
          | err e' =>
            simp only [BoxSt.check, BoxSt.fail, Res.err.injEq] at h
            rw [← h]
            exact addOutputToken_err (by rw [ht]; exact hm) (congrArg Prod.snd hq)
      · refine (?_ : e = .badTokenValue) ▸ .here (fun hc => hp1 (k1.2 hc))
        cases r1 with
        | ok => exact absurd rfl hp1
        | more => exact absurd rfl hp1
        | ub => simp [BoxSt.check] at h
        | err e' =>
          simp only [BoxSt.check, BoxSt.fail, Res.err.injEq] at h
          rw [← h]
          exact addToken_err hm (congrArg Prod.snd hr)

theorem addBoxTokens_why (hR : FullRel keyOf h0 x D) (hD : D.outputs = o :: os)
    (hO : OutRel env x.s.a.table D.table x.s.o o.box) {input : Bytes} {e : FullErr}
    (h : (x.addBoxTokens env input).2 = .err e) :
    FirstUnmet ((o.box.scriptDone = true ∧ o.box.tokens.length < o.box.nTokens, 0xB0FF) ::
      outTokDemands D o [] (pieces 12 input)) e.sw := by
  rcases boxPart_why hR hD h with ⟨hc, he⟩ | ⟨hst, b, hB, e', hf, rfl⟩
  · rw [he]
    refine .here ?_
    rintro ⟨_, hs⟩
    simp only [BoxDesc.complete, Bool.and_eq_true, decide_eq_true_eq] at hc
    omega
  have htab : D.table.length = D.nTok := by
    have hph := hR.phase
    unfold FullPhase at hph
    rw [hst] at hph
    exact hph.2.1
  have hdn : x.c.distinct.toNat = D.table.length := by rw [hR.distinct, htab]
  have hph := hB.phase
  unfold BoxSt.addTokens at hf
  simp only at hf
  by_cases hbs : b.state = .treeAdded
  · rw [if_neg (by simpa using hbs)] at hf
    unfold BoxPhase at hph
    rw [hbs] at hph
    simp only at hph
    obtain ⟨hsd, _, ht, hpos, _, _⟩ := hph
    refine .later ⟨hsd, by omega⟩ ?_
    obtain ⟨y, q, hy⟩ : ∃ y q, BoxSt.tokensLoop (accCbs env)
      (some (x.c.distinct, x.s.a.table)) input.length input ⟨b, x.h, x.s⟩ = (y, q) := ⟨_, _, rfl⟩
    rw [hy] at hf
    have hq : q = .err e' := by
      cases q with
      | ok =>
        simp only at hf
        split at hf
        · split at hf
          · exact absurd hf finish_noerr
          · cases hf
        · cases hf
      | more => cases hf
      | ub => cases hf
      | err e => exact hf
    have hA := hR.amt
    have e1 : D.tokOut = fun j => D.tokOut j + tokRefs D.table [] j := by
      funext j; simp [tokRefs]
    rw [e1] at hA
    have hT := hO.toks
    rw [← List.append_nil o.box.tokens] at hT
    exact outTokensLoop_why (env := env) (o := o) hdn htab input.length input ⟨b, x.h, x.s⟩ [] e' rfl
      hA hT (by simp; omega) (by rw [hy]; exact hq)
  · rw [if_pos hbs] at hf
    simp only [BoxSt.fail, Res.err.injEq] at hf
    rw [← hf]
    refine .here ?_
    rintro ⟨g1, g2⟩
    unfold BoxPhase at hph
    split at hph
    · rename_i he
      rw [(init_of_scriptDone hB).1 he] at g1; simp at g1
    · rename_i he; exact hbs he
    · omega
    · simp only [BoxDesc.complete, Bool.and_eq_true, decide_eq_true_eq] at hph
      omega
    · simp only [BoxDesc.complete, Bool.and_eq_true, decide_eq_true_eq] at hph
      omega
    · exact hph.elim

end Ergo
