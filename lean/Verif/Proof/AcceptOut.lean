import Verif.Proof.AcceptIn
/-!
# When parts of an output are accepted
-/
namespace Ergo
open Spec

variable {env : Env} {keyOf : List UInt32 → Bytes} {h0 : Bytes} {x x' : FullSt} {D : TxDesc}
  {o : OutDesc} {os : List OutDesc}
variable {a : Amounts} {base table : List Bytes} {vin vch vfee : Nat} {tin tout : Bytes → Nat}

/-! ## The newest box -/

/-- A box part reaches the serializer of the newest box unless that box is complete. -/
theorem boxPart_iff (hR : FullRel keyOf h0 x D) (hD : D.outputs = o :: os)
    (f : BoxSt Acc → BoxSt Acc × Res BoxErr) :
    (o.box.complete = true ∧ ¬ (x.boxPart f).2.passes) ∨
    (x.c.state = .outputsStarted ∧ ∃ b, BoxRel vlq keyOf
        (preBytes h0 D ++ os.reverse.flatMap (fun o => boxSoFar vlq keyOf o.box)) b x.h o.box ∧
      ((x.boxPart f).2.passes ↔ (f ⟨b, x.h, x.s⟩).2.passes)) := by
  rcases hR.outState (by rw [hD]; simp) with hst | hst
  · right
    refine ⟨hst, ?_⟩
    have hph := hR.phase
    unfold FullPhase at hph
    rw [hst] at hph
    simp only at hph
    obtain ⟨hpos, htab, hi, hn, hd, hcnt, hout⟩ := hph
    rw [hD] at hout
    simp only at hout
    obtain ⟨b, hsub, hb⟩ := hout
    refine ⟨b, hb, ?_⟩
    unfold FullSt.boxPart
    rw [if_neg (by simpa using hst), hsub]
    simp only
    obtain ⟨y, q, hy⟩ : ∃ y q, f ⟨b, x.h, x.s⟩ = (y, q) := ⟨_, _, rfl⟩
    rw [hy]
    cases q with
    | ok =>
      simp only
      split
      · unfold FullSt.outputFinished
        simp only
        split <;> simp [Res.passes]
      · simp [Res.passes]
    | more => rfl
    | err e => simp [FullSt.fail, Res.passes]
    | ub => rfl
  · left
    have hph := hR.phase
    unfold FullPhase at hph
    rw [hst] at hph
    simp only at hph
    obtain ⟨_, _, o', os', hD', hc⟩ := hph
    rw [hD] at hD'
    simp only [List.cons.injEq] at hD'
    obtain ⟨rfl, rfl⟩ := hD'
    refine ⟨hc, ?_⟩
    unfold FullSt.boxPart
    rw [if_pos (by rw [hst]; simp)]
    simp [FullSt.fail, Res.passes]

theorem init_of_scriptDone {α : Type} {enc : α → Bytes} {bs : Bytes} {b : BoxCtx} {h : Bytes}
    {o : BoxDesc α} (hB : BoxRel enc keyOf bs b h o) :
    b.state = .initialized ↔ o.scriptDone = false := by
  constructor
  · exact scriptDone_of_init hB
  · intro hs
    have hph := hB.phase
    unfold BoxPhase at hph
    split at hph
    · assumption
    · rw [hs] at hph; simp at hph
    · rw [hs] at hph; simp at hph
    · simp [BoxDesc.complete, hs] at hph
    · simp [BoxDesc.complete, hs] at hph
    · exact hph.elim

theorem check_passes_iff {σ : Type} {x : BoxSt σ} {q : Res BoxErr} {k : BoxSt σ × Res BoxErr} :
    (x.check q k).2.passes ↔ q.passes ∧ k.2.passes := by
  cases q <;> simp [BoxSt.check, Res.passes, BoxSt.fail]

theorem treeAdded_iff {x : BoxSt Acc} (h : x.s.o.treeSet = false) :
    (x.treeAdded (accCbs env)).2.passes ↔ (x.s.a.addOutput x.c.type x.c.value).2.passes := by
  unfold BoxSt.treeAdded
  rw [check_passes_iff]
  simp only [accCbs]
  refine and_iff_left ?_
  split
  · split
    · unfold BoxSt.finish
      rw [check_passes_iff]
      simp only
      rw [setBoxFinished_unset (by exact h)]
      exact ⟨rfl, rfl⟩
    · rfl
  · rfl

theorem addOutput_iff (hA : AmtRel a base vin vch vfee tin tout) (hv : vin < 2 ^ 64)
    (ty : BoxType) (v : UInt64) :
    (a.addOutput ty v).2.passes ↔ (ty ≠ .tree → v.toNat + vfee + vch ≤ vin) := by
  have h1 := C05_sub_u64 a.value v
  have h2 := C05_add_u64 a.fee v
  have hval := hA.value
  have hfee := hA.fee
  unfold Amounts.addOutput
  cases ty with
  | tree => simp [Res.passes]
  | change =>
    simp only
    split
    · rename_i hn
      rw [hn] at h1
      split at h1
      · simp at h1
      · exact iff_of_false (by simp [Res.passes]) (fun hc => by have := hc (by simp); omega)
    · rename_i s hs
      rw [hs] at h1
      split at h1
      · exact iff_of_true rfl (fun _ => by omega)
      · simp at h1
  | fee =>
    simp only
    split
    · rename_i hn
      rw [hn] at h1
      split at h1
      · simp at h1
      · exact iff_of_false (by simp [Res.passes]) (fun hc => by have := hc (by simp); omega)
    · rename_i s hs
      rw [hs] at h1
      split at h1
      · rename_i hle
        split
        · rename_i hn
          rw [hn] at h2
          split at h2
          · simp at h2
          · omega
        · exact iff_of_true rfl (fun _ => by omega)
      · simp at h1

theorem scriptDone_cases {o : BoxDesc Nat} (h : o.scriptDone = false) :
    o.script = none ∨ ∃ bs, o.script = some (.raw bs) ∧ bs.length ≠ o.treeSize := by
  unfold BoxDesc.scriptDone at h
  cases hsc : o.script with
  | none => left; rfl
  | some s =>
    rw [hsc] at h
    cases s with
    | raw bs => right; exact ⟨bs, rfl, by simpa using h⟩
    | fee => simp at h
    | change p => simp at h

theorem addBoxTree_iff (hR : FullRel keyOf h0 x D) (hD : D.outputs = o :: os)
    (hO : OutRel env x.s.a.table D.table x.s.o o.box) (hv : D.sumIn < 2 ^ 64) (chunk : Bytes) :
    (x.addBoxTree env chunk).2.passes ↔ o.box.scriptDone = false ∧
      scriptLen o.box + chunk.length ≤ o.box.treeSize ∧
      (scriptLen o.box + chunk.length = o.box.treeSize ∨ 255 ≤ chunk.length) := by
  unfold FullSt.addBoxTree
  rcases boxPart_iff hR hD (fun b => b.addTree (accCbs env) chunk) with ⟨hc, hn⟩ | ⟨_, b, hB, hiff⟩
  · refine iff_of_false hn ?_
    rintro ⟨hs, _⟩
    rw [not_complete hs] at hc; simp at hc
  rw [hiff]
  have hin := init_of_scriptDone hB
  unfold BoxSt.addTree
  simp only
  by_cases hbs : b.state = .initialized
  · rw [if_neg (by simpa using hbs)]
    have hsd := hin.1 hbs
    have hts : x.s.o.treeSet = false := by rw [hO.treeSet]; exact hsd
    have hlen : scriptLen o.box + b.treeSize.toNat = o.box.treeSize := by
      have hph := hB.phase
      unfold BoxPhase at hph
      rw [hbs] at hph
      simp only at hph
      unfold scriptLen
      rcases hph.1 with ⟨h1, h2⟩ | ⟨bs, h1, h2, _⟩
      · rw [h1]; simpa using h2
      · rw [h1]; exact h2
    have h255 : maxChunk = 255 := rfl
    by_cases h1 : b.treeSize.toNat < chunk.length
    · rw [if_pos h1]
      exact iff_of_false (by simp [BoxSt.fail, Res.passes]) (by omega)
    rw [if_neg h1]
    by_cases h2 : b.treeSize.toNat > chunk.length ∧ chunk.length < maxChunk
    · rw [if_pos h2]
      exact iff_of_false (by simp [BoxSt.fail, Res.passes]) (by omega)
    rw [if_neg h2]
    refine iff_of_true ?_ ⟨hsd, by omega, by omega⟩
    split
    · rw [treeAdded_iff (by exact hts), addOutput_iff hR.amt hv]
      simp
    · rfl
  · rw [if_pos hbs]
    exact iff_of_false (by simp [BoxSt.fail, Res.passes]) (fun hc => hbs (hin.2 hc.1))

theorem setScript_iff {f : BoxSt Acc → BoxSt Acc × Res BoxErr} {s : Script} {bytes : Bytes}
    (hf : ∀ b : BoxSt Acc, f b = if b.c.state ≠ .initialized then b.fail .badState else
      BoxSt.treeAdded (accCbs env)
        { b with h := b.h ++ bytes, c := { b.c with type := typeOf s } })
    (hraw : ∀ b, s ≠ .raw b)
    (hR : FullRel keyOf h0 x D) (hD : D.outputs = o :: os)
    (hO : OutRel env x.s.a.table D.table x.s.o o.box) (hv : D.sumIn < 2 ^ 64) :
    (x.boxPart f).2.passes ↔ o.box.scriptDone = false ∧ ValueFits D o := by
  rcases boxPart_iff hR hD f with ⟨hc, hn⟩ | ⟨_, b, hB, hiff⟩
  · refine iff_of_false hn ?_
    rintro ⟨hs, _⟩
    rw [not_complete hs] at hc; simp at hc
  rw [hiff, hf]
  have hin := init_of_scriptDone hB
  simp only
  by_cases hbs : b.state = .initialized
  · rw [if_neg (by simpa using hbs)]
    have hsd := hin.1 hbs
    have hts : x.s.o.treeSet = false := by rw [hO.treeSet]; exact hsd
    rw [treeAdded_iff (by exact hts), addOutput_iff hR.amt hv]
    have hty : typeOf s ≠ .tree := by
      cases s with
      | raw b => exact absurd rfl (hraw b)
      | fee => simp [typeOf]
      | change p => simp [typeOf]
    have hval : b.value.toNat = o.box.value := hB.value
    simp only [hval, hsd, true_and, ValueFits]
    exact ⟨fun h => h hty, fun h _ => h⟩
  · rw [if_pos hbs]
    exact iff_of_false (by simp [BoxSt.fail, Res.passes]) (fun hc => hbs (hin.2 hc.1))

theorem addBoxRegisters_iff (hR : FullRel keyOf h0 x D) (hD : D.outputs = o :: os)
    (hO : OutRel env x.s.a.table D.table x.s.o o.box) (chunk : Bytes) :
    (x.addBoxRegisters env chunk).2.passes ↔ o.box.scriptDone = true ∧
      o.box.tokens.length = o.box.nTokens ∧ o.box.regs.length < o.box.regsSize ∧
      o.box.regs.length + chunk.length ≤ o.box.regsSize := by
  have hnoub := addBoxRegisters_noub hR hD hO chunk
  unfold FullSt.addBoxRegisters at hnoub ⊢
  rcases boxPart_iff hR hD (fun b => b.addRegisters (accCbs env) chunk) with
    ⟨hc, hn⟩ | ⟨_, b, hB, hiff⟩
  · refine iff_of_false hn ?_
    rintro ⟨_, _, hs, _⟩
    simp only [BoxDesc.complete, Bool.and_eq_true, decide_eq_true_eq] at hc
    omega
  rw [hiff]
  have hph := hB.phase
  unfold BoxSt.addRegisters
  simp only
  by_cases hbs : b.state = .tokensAdded
  · rw [if_neg (by simpa using hbs)]
    have hnc := incomplete_of_state hB (by rw [hbs]; simp) (by rw [hbs]; simp)
    unfold BoxPhase at hph
    rw [hbs] at hph
    simp only at hph
    obtain ⟨hsd, _, ht, hr, hpos⟩ := hph
    by_cases h1 : b.regsSize.toNat < chunk.length
    · rw [if_pos h1]
      exact iff_of_false (by simp [BoxSt.fail, Res.passes]) (by omega)
    rw [if_neg h1]
    refine iff_of_true ?_ ⟨hsd, ht, by omega, by omega⟩
    split
    · have hts : x.s.o.treeSet = true := by rw [hO.treeSet]; exact hsd
      have hsc := hO.script
      rw [hnc] at hsc
      obtain ⟨q, e, _⟩ := setBoxFinished_set hsc hts
      unfold BoxSt.finish
      rw [check_passes_iff]
      simp only [accCbs]
      rw [e]
      exact ⟨rfl, rfl⟩
    · rfl
  · rw [if_pos hbs]
    refine iff_of_false (by simp [BoxSt.fail, Res.passes]) ?_
    rintro ⟨g1, g2, g3, _⟩
    unfold BoxPhase at hph
    split at hph
    · rename_i he
      rw [(init_of_scriptDone hB).1 he] at g1; simp at g1
    · omega
    · rename_i he; exact hbs he
    · simp only [BoxDesc.complete, Bool.and_eq_true, decide_eq_true_eq] at hph
      omega
    · simp only [BoxDesc.complete, Bool.and_eq_true, decide_eq_true_eq] at hph
      omega
    · exact hph.elim

/-! ## Tokens -/

theorem freshToks_iff : ∀ (l : List (Nat × Nat)) (f : Bytes → Nat), FreshToks base f l ↔
    ∀ p t q, l = p ++ t :: q → ∀ id, base[t.1]? = some id → f id + tokRefs base p id = 0 := by
  intro l
  induction l with
  | nil => intro f; simp [FreshToks]
  | cons t l ih =>
    intro f
    rw [FreshToks, ih]
    have e1 : ∀ j, tokRefs base [t] j = if base[t.1]? = some j then t.2 else 0 := by
      intro j; rw [tokRefs_cons]; simp [tokRefs]
    constructor
    · rintro ⟨h1, h2⟩ p u q hl id hid
      cases p with
      | nil =>
        simp only [List.nil_append, List.cons.injEq] at hl
        obtain ⟨rfl, rfl⟩ := hl
        simpa [tokRefs] using h1 id hid
      | cons v p =>
        simp only [List.cons_append, List.cons.injEq] at hl
        obtain ⟨rfl, hl⟩ := hl
        have := h2 p u q hl id hid
        rw [tokRefs_cons]
        rw [e1] at this
        omega
    · intro h
      refine ⟨fun id hid => ?_, fun p u q hl id hid => ?_⟩
      · simpa [tokRefs] using h [] t l rfl id hid
      · have := h (t :: p) u q (by rw [hl]; rfl) id hid
        rw [tokRefs_cons] at this
        rw [e1]
        omega

theorem freshToks_append {l m : List (Nat × Nat)} {f : Bytes → Nat} (h : FreshToks base f (l ++ m)) :
    FreshToks base (fun j => f j + tokRefs base l j) m := by
  rw [freshToks_iff] at h ⊢
  intro p t q hm id hid
  have := h (l ++ p) t q (by rw [hm]; simp) id hid
  rw [tokRefs_append] at this
  omega

theorem noRepeat_iff (l : List (Nat × Nat)) : NoRepeat base l ↔ FreshToks base (fun _ => 0) l := by
  rw [freshToks_iff]
  unfold NoRepeat
  simp

theorem addToken_iff {oi : OutInfo} {f : Bytes → Nat} {id : Bytes} {v : UInt64}
    (hT : TokRel table oi.tokens f) (hm : id ∈ table) :
    (oi.addToken table id v).2.passes ↔ f id = 0 := by
  obtain ⟨i, hf⟩ := tableFind_mem hm
  have := hT.amt id i hf
  unfold OutInfo.addToken
  rw [hf]
  simp only
  by_cases h0 : oi.tokens.getD i 0 ≠ 0
  · rw [if_pos h0]
    refine iff_of_false (by simp [Res.passes]) (fun hc => h0 ?_)
    rw [hc] at this
    rw [← UInt64.toNat_inj]
    exact this
  · rw [if_neg h0]
    simp only [ne_eq, Decidable.not_not] at h0
    rw [h0] at this
    exact iff_of_true rfl this.symm

theorem addOutputToken_iff (hA : AmtRel a base vin vch vfee tin tout) {id : Bytes} {v : UInt64}
    (hm : id ∈ a.table) :
    (a.addOutputToken id v).2.passes ↔ tout id + v.toNat ≤ tin id + 2 ^ 63 := by
  obtain ⟨i, hf⟩ := tableFind_mem hm
  have hb := hA.bal id i hf
  have hc := C05_sub_i64 (a.tokens.getD i 0) v
  rw [hb] at hc
  unfold Amounts.addOutputToken
  rw [hf]
  simp only
  split
  · rename_i hn
    rw [hn] at hc
    split at hc
    · simp at hc
    · exact iff_of_false (by simp [Res.passes]) (by omega)
  · rename_i s hs
    rw [hs] at hc
    split at hc
    · exact iff_of_true rfl (by omega)
    · simp at hc

theorem AmtRel.tout_le (hA : AmtRel a base vin vch vfee tin tout) (id : Bytes) :
    tout id ≤ tin id + 2 ^ 63 := by
  by_cases hm : id ∈ a.table
  · obtain ⟨i, hf⟩ := tableFind_mem hm
    have h1 := hA.bal id i hf
    have h2 := Int64.le_toInt (a.tokens.getD i 0)
    rw [h1] at h2
    omega
  · rw [hA.tout0 id hm]; omega

theorem outTokensLoop_iff {dn : UInt8} (hdn : dn.toNat = base.length) :
    ∀ (n : Nat) (input : Bytes) (x : BoxSt Acc) (tout f : Bytes → Nat), input.length ≤ n →
    x.s.a.table = table → AmtRel x.s.a base vin vch vfee tin tout → TokRel table x.s.o.tokens f →
    ((BoxSt.tokensLoop (accCbs env) (some (dn, table)) n input x).2.passes ↔
      input.length % 12 = 0 ∧ input.length / 12 ≤ x.c.tokensCount.toNat ∧
      (∀ t ∈ (pieces 12 input).map tok12, t.1 < base.length) ∧
      FreshToks base f ((pieces 12 input).map tok12) ∧
      ∀ id, tout id + tokRefs base ((pieces 12 input).map tok12) id ≤ tin id + 2 ^ 63) := by
  intro n
  induction n with
  | zero =>
    intro input x tout f h ht hA hT
    have : input = [] := by simpa using h
    subst this
    simp only [BoxSt.tokensLoop, pieces_nil, List.map_nil]
    refine iff_of_true rfl ⟨by simp, by simp, by simp, trivial, ?_⟩
    simpa [tokRefs] using hA.tout_le
  | succ n ih =>
    intro input x tout f h ht hA hT
    cases input with
    | nil =>
      simp only [BoxSt.tokensLoop, pieces_nil, List.map_nil]
      refine iff_of_true rfl ⟨by simp, by simp, by simp, trivial, ?_⟩
      simpa [tokRefs] using hA.tout_le
    | cons b bs =>
      obtain ⟨d, hd⟩ : ∃ d, b :: bs = d := ⟨_, rfl⟩
      have hpos : 0 < d.length := by rw [← hd]; simp
      simp only [BoxSt.tokensLoop]
      rw [hd] at h ⊢
      by_cases hc0 : x.c.tokensCount = 0
      · rw [if_pos hc0]
        refine iff_of_false (by simp [BoxSt.fail, Res.passes]) ?_
        rintro ⟨g1, g2, _⟩
        rw [u8_eq_zero.1 hc0] at g2
        omega
      rw [if_neg hc0]
      have hcnt := u8_ne_zero.1 hc0
      simp only [boxTokenId]
      rcases bufU32_cases d with ⟨h1, h2⟩ | ⟨h1, ix, h2⟩
      · rw [h2]
        exact iff_of_false (by simp [Res.passes]) (fun hc => by omega)
      rw [h2]
      simp only
      have hr1 := bufU32_some h2
      by_cases hlt : d.length < 12
      · refine iff_of_false ?_ (fun hc => by omega)
        by_cases hix : ix.toNat ≥ dn.toNat
        · rw [if_pos hix]; simp [BoxSt.fail, Res.passes]
        · rw [if_neg hix]
          rcases bufU64_cases (d.drop 4) with ⟨h3, h4⟩ | ⟨h3, v, h4⟩
          · simp only [h4]; simp [BoxSt.fail, Res.passes]
          · simp only [List.length_drop] at h3; omega
      rcases bufU64_cases (d.drop 4) with ⟨h3, h4⟩ | ⟨h3, v, h4⟩
      · simp only [List.length_drop] at h3; omega
      have hr2 := bufU64_some h4
      have hal : (writeU32be ix ++ writeU64be v).length = 12 := by
        simp [length_writeU32, length_writeU64]
      have hdd : d = (writeU32be ix ++ writeU64be v) ++ (d.drop 4).drop 8 := by
        rw [hr2] at hr1
        simpa using hr1
      have htok : tok12 (writeU32be ix ++ writeU64be v) = (ix.toNat, v.toNat) := by
        simp only [tok12]
        rw [← length_writeU32 ix, List.take_left, List.drop_left, be_writeU32, be_writeU64]
      have hpc : pieces 12 d = (writeU32be ix ++ writeU64be v) :: pieces 12 ((d.drop 4).drop 8) := by
        conv_lhs => rw [hdd]
        exact pieces_append _ hal (by omega)
      have hlen : d.length = 12 + ((d.drop 4).drop 8).length := by
        conv_lhs => rw [hdd]
        rw [List.length_append, hal]
      generalize (d.drop 4).drop 8 = rest at *
      by_cases hix : ix.toNat ≥ dn.toNat
      · rw [if_pos hix]
        refine iff_of_false (by simp [BoxSt.fail, Res.passes]) ?_
        rintro ⟨_, _, g, _⟩
        have := g (ix.toNat, v.toNat) (by rw [hpc]; simp [htok])
        simp only at this
        omega
      rw [if_neg hix]
      simp only [h4]
      have hix' : ix.toNat < base.length := by omega
      have hent : base[ix.toNat]? = some (tableEntry table ix.toNat) :=
        prefix_getElem? (ht ▸ hA.pre) hix'
      generalize tableEntry table ix.toNat = id at *
      have hm : id ∈ table := by
        have : id ∈ base := List.mem_of_getElem? hent
        have hpre := hA.pre
        rw [ht] at hpre
        exact hpre.subset this
      have k1 := addToken_iff (v := v) hT hm
      have k2 := addOutputToken_iff (v := v) hA (by rw [ht]; exact hm)
      have href : ∀ l j, tokRefs base ((ix.toNat, v.toNat) :: l) j =
          (if j = id then v.toNat else 0) + tokRefs base l j := by
        intro l j
        rw [tokRefs_cons, hent]
        by_cases hj : j = id
        · subst hj; simp
        · have : ¬ id = j := fun e => hj e.symm
          simp [hj, this]
      have hnil : ∀ j, tokRefs base [] j = 0 := fun _ => rfl
      have hone : ∀ j, tokRefs base [(ix.toNat, v.toNat)] j = if j = id then v.toNat else 0 := by
        intro j; rw [href]; simp [tokRefs]
      rw [check_passes_iff]
      simp only [hpc, List.map_cons, htok, List.forall_mem_cons, href, FreshToks, hent]
      simp only [accCbs, ht]
      obtain ⟨o1, r1, hr⟩ : ∃ o1 r1, x.s.o.addToken table id v = (o1, r1) := ⟨_, _, rfl⟩
      obtain ⟨a1, q1, hq⟩ : ∃ a1 q1, x.s.a.addOutputToken id v = (a1, q1) := ⟨_, _, rfl⟩
      rw [hr] at k1
      rw [hq] at k2
      simp only at k1 k2
      rw [hr]
      by_cases hp1 : r1.passes = true
      · obtain ⟨e1, ho1, hz, hT1⟩ := addToken_rel (by rw [← ht]; exact hA.tlen) hT hr hp1
        subst e1
        simp only [hq]
        by_cases hp2 : q1.passes = true
        · obtain ⟨_, ht1, hA1⟩ := hA.addOutputToken hq hp2
          have hrec := ih rest
            { c := { x.c with tokensCount := x.c.tokensCount - 1 }
              h := x.h ++ gvePutU32 ix ++ gvePutU64 v, s := ⟨a1, o1⟩ } _ _ (by omega)
            (by simpa [ht] using ht1) hA1 hT1
          have hcb : (accCbs env).onToken = (accCbs env).onToken := rfl
          simp only [accCbs] at hrec
          rw [hrec]
          have hc1 : (x.c.tokensCount - 1).toNat = x.c.tokensCount.toNat - 1 :=
            u8_sub_ofNat x.c.tokensCount (k := 1) hcnt
          simp only [hc1, hp2, true_and]
          constructor
          · rintro ⟨g1, g2, g3, g4, g5⟩
            refine ⟨by omega, by omega, ⟨hix', g3⟩, ⟨?_, ?_⟩, ?_⟩
            · intro j hj
              simp only [Option.some.injEq] at hj
              subst hj
              exact hz
            · simpa only [hnil, Nat.add_zero] using g4
            · intro j
              have := g5 j
              omega
          · rintro ⟨g1, g2, ⟨_, g3⟩, ⟨_, g4⟩, g5⟩
            refine ⟨by omega, by omega, g3, by simpa only [hnil, Nat.add_zero] using g4, ?_⟩
            intro j
            have := g5 j
            omega
        · refine iff_of_false (fun hc => hp2 hc.1) ?_
          rintro ⟨_, _, _, _, g5⟩
          refine hp2 (k2.2 ?_)
          have := g5 id
          simp only [if_true] at this
          omega
      · refine iff_of_false ?_ ?_
        · rintro ⟨hc, _⟩
          cases r1 with
          | ok => exact hp1 rfl
          | more => exact hp1 rfl
          | err e => simp [Res.passes] at hc
          | ub => simp [Res.passes] at hc
        · rintro ⟨_, _, _, ⟨g4, _⟩, _⟩
          exact hp1 (k1.2 (g4 id rfl))

theorem addBoxTokens_iff (hR : FullRel keyOf h0 x D) (hD : D.outputs = o :: os)
    (hO : OutRel env x.s.a.table D.table x.s.o o.box) (input : Bytes) :
    (x.addBoxTokens env input).2.passes ↔ o.box.scriptDone = true ∧
      o.box.tokens.length < o.box.nTokens ∧ input.length % 12 = 0 ∧
      o.box.tokens.length + input.length / 12 ≤ o.box.nTokens ∧
      (∀ t ∈ (pieces 12 input).map tok12, t.1 < D.nTok) ∧
      NoRepeat D.table (o.box.tokens ++ (pieces 12 input).map tok12) ∧
      ∀ id, D.tokOut id + tokRefs D.table ((pieces 12 input).map tok12) id ≤ D.tokIn id + 2 ^ 63 := by
  unfold FullSt.addBoxTokens
  rcases boxPart_iff hR hD
    (fun b => b.addTokens (accCbs env) (some (x.c.distinct, x.s.a.table)) input) with
    ⟨hc, hn⟩ | ⟨hst, b, hB, hiff⟩
  · refine iff_of_false hn ?_
    rintro ⟨_, hs, _⟩
    simp only [BoxDesc.complete, Bool.and_eq_true, decide_eq_true_eq] at hc
    omega
  rw [hiff]
  have htab : D.table.length = D.nTok := by
    have hph := hR.phase
    unfold FullPhase at hph
    rw [hst] at hph
    exact hph.2.1
  have hdn : x.c.distinct.toNat = D.table.length := by rw [hR.distinct, htab]
  have hph := hB.phase
  unfold BoxSt.addTokens
  simp only
  by_cases hbs : b.state = .treeAdded
  · rw [if_neg (by simpa using hbs)]
    have hnc := incomplete_of_state hB (by rw [hbs]; simp) (by rw [hbs]; simp)
    unfold BoxPhase at hph
    rw [hbs] at hph
    simp only at hph
    obtain ⟨hsd, _, ht, hpos, _, _⟩ := hph
    have hts : x.s.o.treeSet = true := by rw [hO.treeSet]; exact hsd
    have hloop := outTokensLoop_iff (env := env) hdn input.length input ⟨b, x.h, x.s⟩ _ _
      (le_refl _) rfl hR.amt hO.toks
    have hfresh : NoRepeat D.table (o.box.tokens ++ (pieces 12 input).map tok12) ↔
        FreshToks D.table (tokRefs D.table o.box.tokens) ((pieces 12 input).map tok12) := by
      rw [noRepeat_iff]
      constructor
      · intro h; simpa using freshToks_append h
      · intro h; exact hO.uniq.append (by simpa using h)
    have hcond : (o.box.scriptDone = true ∧
        o.box.tokens.length < o.box.nTokens ∧ input.length % 12 = 0 ∧
        o.box.tokens.length + input.length / 12 ≤ o.box.nTokens ∧
        (∀ t ∈ (pieces 12 input).map tok12, t.1 < D.nTok) ∧
        NoRepeat D.table (o.box.tokens ++ (pieces 12 input).map tok12) ∧
        ∀ id, D.tokOut id + tokRefs D.table ((pieces 12 input).map tok12) id ≤
          D.tokIn id + 2 ^ 63) ↔
        input.length % 12 = 0 ∧ input.length / 12 ≤ b.tokensCount.toNat ∧
        (∀ t ∈ (pieces 12 input).map tok12, t.1 < D.table.length) ∧
        FreshToks D.table (tokRefs D.table o.box.tokens) ((pieces 12 input).map tok12) ∧
        ∀ id, D.tokOut id + tokRefs D.table ((pieces 12 input).map tok12) id ≤
          D.tokIn id + 2 ^ 63 := by
      rw [hfresh, htab]
      constructor
      · rintro ⟨_, _, g1, g2, g3⟩
        exact ⟨g1, by omega, g3⟩
      · rintro ⟨g1, g2, g3⟩
        exact ⟨hsd, by omega, g1, by omega, g3⟩
    rw [hcond, ← hloop]
    obtain ⟨y, q, hy⟩ : ∃ y q, BoxSt.tokensLoop (accCbs env)
      (some (x.c.distinct, x.s.a.table)) input.length input ⟨b, x.h, x.s⟩ = (y, q) := ⟨_, _, rfl⟩
    rw [hy]
    cases q with
    | ok =>
      obtain ⟨_, k, hk, _, _, _, hfold, hok⟩ := tokensLoop_passes _ _ _ _ _ _ _ hy rfl
      simp only [itemWidth] at hk hfold hok
      obtain ⟨_, _, g3, _⟩ := foldToks_acc hdn (pieces 12 input) (fun b hb =>
        ⟨pieces_width (by omega) k input hk b hb, hok b hb⟩) _ _ _ _ hfold rfl hR.amt hO.toks
      refine iff_of_true ?_ rfl
      simp only
      split
      · split
        · unfold BoxSt.finish
          rw [check_passes_iff]
          simp only [accCbs]
          have hsc := hO.script
          rw [hnc] at hsc
          obtain ⟨q, e, _⟩ := setBoxFinished_set (env := env) (oi := y.s.o) (ts := o.box.treeSize)
            (sc := o.box.script) (by
              rw [g3]
              cases hsr : o.box.script with
              | none => rw [hsr] at hsc; exact hsc
              | some s =>
                rw [hsr] at hsc
                cases s <;> exact hsc) (by rw [g3]; exact hts)
          rw [e]
          exact ⟨rfl, rfl⟩
        · rfl
      · rfl
    | more => rfl
    | err e => rfl
    | ub => rfl
  · rw [if_pos hbs]
    refine iff_of_false (by simp [BoxSt.fail, Res.passes]) ?_
    rintro ⟨g1, g2, _⟩
    unfold BoxPhase at hph
    split at hph
    · rename_i he
      rw [(init_of_scriptDone hB).1 he] at g1; simp at g1
    · rename_i he; exact hbs he
    · omega
    · simp only [BoxDesc.complete, Bool.and_eq_true, decide_eq_true_eq] at hph
      omega
    · simp only [BoxDesc.complete, Bool.and_eq_true, decide_eq_true_eq] at hph
      omega
    · exact hph.elim

end Ergo
