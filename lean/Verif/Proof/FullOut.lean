import Verif.Proof.FullIn
/-!
# Outputs of the transaction serializer
-/
namespace Ergo
open Spec

variable {σ : Type}

/-! ## States after the box operations -/

theorem treeAdded_state {cbs : BoxCbs σ} {x y : BoxSt σ} {q : Res BoxErr}
    (h : x.treeAdded cbs = (y, q)) (hq : q.passes) :
    q = .ok ∧ y.c.state ≠ .hashFinalized := by
  unfold BoxSt.treeAdded at h
  obtain ⟨_, h2⟩ := check_passes h hq
  simp only at h2
  split at h2
  · split at h2
    · obtain ⟨e1, e2, _⟩ := finish_passes h2 hq
      exact ⟨e1, by rw [e2]; simp⟩
    · simp only [Prod.mk.injEq] at h2
      obtain ⟨rfl, rfl⟩ := h2
      exact ⟨rfl, by simp⟩
  · simp only [Prod.mk.injEq] at h2
    obtain ⟨rfl, rfl⟩ := h2
    exact ⟨rfl, by simp⟩

/-- What every box operation guarantees about the state. -/
def BoxOpState (y : BoxSt σ) (q : Res BoxErr) : Prop :=
  y.c.state ≠ .hashFinalized ∧ (q = .more → y.c.state ≠ .finished)

theorem addTree_state {cbs : BoxCbs σ} {x y : BoxSt σ} {q : Res BoxErr} {c : Bytes}
    (h : x.addTree cbs c = (y, q)) (hq : q.passes) :
    BoxOpState y q ∧ (q = .more → 255 ≤ c.length) := by
  unfold BoxSt.addTree at h
  split at h
  · exact (fail_not_passes h hq).elim
  rename_i hs
  simp only [ne_eq, Decidable.not_not] at hs
  split at h
  · exact (fail_not_passes h hq).elim
  rename_i hle
  split at h
  · exact (fail_not_passes h hq).elim
  rename_i hsm
  simp only at h
  split at h
  · obtain ⟨e1, e2⟩ := treeAdded_state h hq
    subst e1
    exact ⟨⟨e2, by simp⟩, by simp⟩
  · rename_i hz
    simp only [Prod.mk.injEq] at h
    obtain ⟨rfl, rfl⟩ := h
    refine ⟨⟨by simp [hs], by simp [hs]⟩, ?_⟩
    intro _
    have := u32_ne_zero.1 hz
    rw [u32_sub_ofNat _ (by omega)] at this
    simp only [maxChunk] at hsm
    omega

theorem addTokens_state {cbs : BoxCbs σ} {table : Option TableArg} {x y : BoxSt σ}
    {q : Res BoxErr} {c : Bytes} (h : x.addTokens cbs table c = (y, q)) (hq : q.passes) :
    BoxOpState y q := by
  unfold BoxSt.addTokens at h
  split at h
  · exact (fail_not_passes h hq).elim
  rename_i hs
  simp only [ne_eq, Decidable.not_not] at hs
  obtain ⟨z, p, hz⟩ : ∃ z p, BoxSt.tokensLoop cbs table c.length c x = (z, p) := ⟨_, _, rfl⟩
  rw [hz] at h
  cases p with
  | err e =>
    simp only [Prod.mk.injEq] at h
    obtain ⟨_, rfl⟩ := h
    simp [Res.passes] at hq
  | ub =>
    simp only [Prod.mk.injEq] at h
    obtain ⟨_, rfl⟩ := h
    simp [Res.passes] at hq
  | more =>
    have := (tokensLoop_passes _ _ _ _ _ _ _ hz rfl).1
    simp at this
  | ok =>
    obtain ⟨_, k, _, _, hc, _⟩ := tokensLoop_passes _ _ _ _ _ _ _ hz rfl
    simp only at h
    split at h
    · split at h
      · obtain ⟨e1, e2, _⟩ := finish_passes h hq
        subst e1
        exact ⟨by rw [e2]; simp, by simp⟩
      · simp only [Prod.mk.injEq] at h
        obtain ⟨rfl, rfl⟩ := h
        exact ⟨by simp, by simp⟩
    · simp only [Prod.mk.injEq] at h
      obtain ⟨rfl, rfl⟩ := h
      exact ⟨by rw [hc]; simp [hs], by rw [hc]; simp [hs]⟩

theorem addRegisters_state {cbs : BoxCbs σ} {x y : BoxSt σ}
    {q : Res BoxErr} {c : Bytes} (h : x.addRegisters cbs c = (y, q)) (hq : q.passes) :
    BoxOpState y q := by
  unfold BoxSt.addRegisters at h
  split at h
  · exact (fail_not_passes h hq).elim
  rename_i hs
  simp only [ne_eq, Decidable.not_not] at hs
  split at h
  · exact (fail_not_passes h hq).elim
  simp only at h
  split at h
  · obtain ⟨e1, e2, _⟩ := finish_passes h hq
    subst e1
    exact ⟨by rw [e2]; simp, by simp⟩
  · simp only [Prod.mk.injEq] at h
    obtain ⟨rfl, rfl⟩ := h
    exact ⟨by simp [hs], by simp [hs]⟩

/-! ## A new output -/

variable {env : Env} {keyOf : List UInt32 → Bytes} {h0 : Bytes} {x x' : FullSt} {D : TxDesc}
  {r : Res FullErr}

theorem tokOut_cons (o : OutDesc) (os : List OutDesc) (id : Bytes) (h : D.outputs = o :: os) :
    D.tokOut id = tokRefs D.table o.box.tokens id + TxDesc.tokOut { D with outputs := os } id := by
  simp [TxDesc.tokOut, h]

/-- The value of an output counted if its script satisfies `p`. -/
def outVal (p : Script → Bool) (o : BoxDesc Nat) : Nat :=
  match o.script with
  | some s => if p s then o.value else 0
  | none => 0

theorem sumOut_cons (p : Script → Bool) (o : OutDesc) (os : List OutDesc) (h : D.outputs = o :: os) :
    D.sumOut p = outVal p o.box + TxDesc.sumOut p { D with outputs := os } := by
  simp only [TxDesc.sumOut, h, outVal, List.map_cons, List.sum_cons]
  rfl

theorem addBox_full {value : UInt64} {ts ht rg : UInt32} {nt : UInt8} (hR : FullRel keyOf h0 x D)
    (h : x.addBox value ts ht nt rg = (x', r)) (hp : r.passes) :
    x'.s = x.s ∧ x'.c.state = .outputsStarted ∧ FullRel keyOf h0 x' { D with
      outputs := ⟨⟨value.toNat, ts.toNat, ht.toNat, nt.toNat, rg.toNat, none, [], []⟩, false⟩ ::
        D.outputs } := by
  unfold FullSt.addBox at h
  split at h
  · exact fullFail_passes h hp
  rename_i hst
  simp only [ne_eq, Decidable.not_not] at hst
  split at h
  · exact fullFail_passes h hp
  have hph := hR.phase
  unfold FullPhase at hph
  rw [hst] at hph
  simp only at hph
  obtain ⟨hpos, htab, hi, hn, hd, hcnt, hout⟩ := hph
  obtain ⟨c2, h2, q2, hq⟩ : ∃ c2 h2 q2, boxInit value ts ht nt rg x.h = (c2, h2, q2) :=
    ⟨_, _, _, rfl⟩
  rw [hq] at h
  have hq2 : q2.passes := by
    cases q2 with
    | ok => rfl
    | more => rfl
    | err e => exact fullFail_passes h hp
    | ub =>
      simp only [Prod.mk.injEq] at h
      obtain ⟨_, rfl⟩ := h
      simp [Res.passes] at hp
  obtain ⟨e1, e2, hB⟩ := boxInit_rel (α := Nat) (enc := vlq) (keyOf := keyOf) hq hq2
  subst e1
  simp only [Prod.mk.injEq] at h
  obtain ⟨rfl, rfl⟩ := h
  have hh : x.h = preBytes h0 D ++
      D.outputs.reverse.flatMap (fun o => boxSoFar vlq keyOf o.box) := by
    cases ho : D.outputs with
    | nil => rw [ho] at hout; simp only at hout; rw [hout]; simp
    | cons o os =>
      rw [ho] at hout
      simp only at hout
      obtain ⟨b, _, hb⟩ := hout
      rw [hb.hash]
      simp
  refine ⟨rfl, hst, hR.nIn, hR.nOut, hR.nTok, hR.distinct, ?_, ?_⟩
  · have s1 : ∀ p, TxDesc.sumOut p { D with
      outputs := ⟨⟨value.toNat, ts.toNat, ht.toNat, nt.toNat, rg.toNat, none, [], []⟩, false⟩ ::
        D.outputs } = D.sumOut p := by
      intro p; simp [TxDesc.sumOut]
    have s2 : TxDesc.tokOut { D with
      outputs := ⟨⟨value.toNat, ts.toNat, ht.toNat, nt.toNat, rg.toNat, none, [], []⟩, false⟩ ::
        D.outputs } = D.tokOut := by
      funext j; simp [TxDesc.tokOut, tokRefs]
    rw [s1, s1, s2]
    exact hR.amt
  · simp only [FullPhase, hst, OutPhase]
    refine ⟨hpos, htab, hi, hn, hd, ?_, c2, rfl, ?_⟩
    · rw [List.countP_cons_of_neg (by simp [BoxDesc.complete, BoxDesc.scriptDone])]
      exact hcnt
    · rw [hh] at hB
      exact hB

theorem addBox_noub (x : FullSt) (value : UInt64) (ts ht rg : UInt32) (nt : UInt8) :
    (x.addBox value ts ht nt rg).2 ≠ .ub := by
  unfold FullSt.addBox
  split
  · simp [FullSt.fail]
  split
  · simp [FullSt.fail]
  have : (boxInit value ts ht nt rg x.h).2.2 ≠ .ub := by
    unfold boxInit
    simp only
    split
    · simp
    split
    · simp
    split <;> simp
  simp only
  split
  · simp [FullSt.fail]
  · rename_i he; exact absurd he this
  · simp

/-! ## Parts of the newest output -/

/-- The frame of every box part operation. -/
theorem boxPart_full {f : BoxSt Acc → BoxSt Acc × Res BoxErr} {o : OutDesc} {os : List OutDesc}
    (hR : FullRel keyOf h0 x D) (hD : D.outputs = o :: os) (h : x.boxPart f = (x', r))
    (hp : r.passes) :
    ∃ b y q, x.c.state = .outputsStarted ∧ BoxRel vlq keyOf
        (preBytes h0 D ++ os.reverse.flatMap (fun o => boxSoFar vlq keyOf o.box)) b x.h o.box ∧
      f ⟨b, x.h, x.s⟩ = (y, q) ∧ q.passes ∧ x'.s = y.s ∧ r = q.map BoxErr.toFull ∧
      ∀ o', BoxRel vlq keyOf
        (preBytes h0 D ++ os.reverse.flatMap (fun o => boxSoFar vlq keyOf o.box)) y.c y.h o' →
        o.box.complete = false → BoxOpState y q →
        AmtRel y.s.a D.table D.sumIn
          (TxDesc.sumOut Script.isChange { D with outputs := { o with box := o' } :: os })
          (TxDesc.sumOut Script.isFee { D with outputs := { o with box := o' } :: os }) D.tokIn
          (TxDesc.tokOut { D with outputs := { o with box := o' } :: os }) →
        FullRel keyOf h0 x' { D with outputs := { o with box := o' } :: os } := by
  unfold FullSt.boxPart at h
  split at h
  · exact fullFail_passes h hp
  rename_i hst
  simp only [ne_eq, Decidable.not_not] at hst
  have hph := hR.phase
  unfold FullPhase at hph
  rw [hst] at hph
  simp only at hph
  obtain ⟨hpos, htab, hi, hn, hd, hcnt, hout⟩ := hph
  rw [hD] at hout hcnt
  simp only at hout
  obtain ⟨b, hsub, hb⟩ := hout
  rw [hsub] at h
  simp only at h
  obtain ⟨y, q, hy⟩ : ∃ y q, f ⟨b, x.h, x.s⟩ = (y, q) := ⟨_, _, rfl⟩
  rw [hy] at h
  simp only at h
  refine ⟨b, y, q, hst, hb, hy, ?_⟩
  cases q with
  | err e => exact fullFail_passes h hp
  | ub =>
    simp only [Prod.mk.injEq] at h
    obtain ⟨_, rfl⟩ := h
    simp [Res.passes] at hp
  | more =>
    simp only [Prod.mk.injEq] at h
    obtain ⟨rfl, rfl⟩ := h
    refine ⟨rfl, rfl, rfl, ?_⟩
    intro o' hB hnc hop hA
    have hnc' : o'.complete = false := by
      by_contra hc
      simp only [Bool.not_eq_false] at hc
      rcases hB.phase.finished_iff.2 hc with hf | hf
      · exact hop.2 rfl hf
      · exact hop.1 hf
    refine ⟨hR.nIn, hR.nOut, hR.nTok, hR.distinct, hA, ?_⟩
    simp only [FullPhase, hst, OutPhase]
    refine ⟨hpos, htab, hi, hn, hd, ?_, y.c, rfl, hB⟩
    rw [List.countP_cons_of_neg (by simp [hnc])] at hcnt
    rw [List.countP_cons_of_neg (by simp [hnc'])]
    exact hcnt
  | ok =>
    simp only at h
    split at h
    · rename_i hfin
      unfold FullSt.outputFinished at h
      simp only at h
      have hs1 : (x.c.outputs - 1).toNat = x.c.outputs.toNat - 1 := u16_sub_ofNat _ (k := 1) hpos
      split at h
      · rename_i hz
        have hz' := u16_eq_zero.1 hz
        simp only [Prod.mk.injEq] at h
        obtain ⟨rfl, rfl⟩ := h
        refine ⟨rfl, rfl, rfl, ?_⟩
        intro o' hB hnc hop hA
        have hc' : o'.complete := hB.phase.finished_iff.1 (.inl hfin)
        refine ⟨hR.nIn, hR.nOut, hR.nTok, hR.distinct, hA, ?_⟩
        simp only [FullPhase, OutPhase]
        refine ⟨hz', ⟨htab, hi, hn, hd, ?_, y.c, rfl, hB⟩, _, _, rfl, hc'⟩
        rw [List.countP_cons_of_neg (by simp [hnc])] at hcnt
        rw [List.countP_cons_of_pos (by simp [hc'])]
        omega
      · rename_i hz
        have hz' := u16_ne_zero.1 hz
        simp only [Prod.mk.injEq] at h
        obtain ⟨rfl, rfl⟩ := h
        refine ⟨rfl, rfl, rfl, ?_⟩
        intro o' hB hnc hop hA
        have hc' : o'.complete := hB.phase.finished_iff.1 (.inl hfin)
        refine ⟨hR.nIn, hR.nOut, hR.nTok, hR.distinct, hA, ?_⟩
        simp only [FullPhase, hst, OutPhase]
        refine ⟨hz', htab, hi, hn, hd, ?_, y.c, rfl, hB⟩
        rw [List.countP_cons_of_neg (by simp [hnc])] at hcnt
        rw [List.countP_cons_of_pos (by simp [hc'])]
        omega
    · rename_i hfin
      simp only [Prod.mk.injEq] at h
      obtain ⟨rfl, rfl⟩ := h
      refine ⟨rfl, rfl, rfl, ?_⟩
      intro o' hB hnc hop hA
      have hnc' : o'.complete = false := by
        by_contra hc
        simp only [Bool.not_eq_false] at hc
        rcases hB.phase.finished_iff.2 hc with hf | hf
        · exact hfin hf
        · exact hop.1 hf
      refine ⟨hR.nIn, hR.nOut, hR.nTok, hR.distinct, hA, ?_⟩
      simp only [FullPhase, hst, OutPhase]
      refine ⟨hpos, htab, hi, hn, hd, ?_, y.c, rfl, hB⟩
      rw [List.countP_cons_of_neg (by simp [hnc])] at hcnt
      rw [List.countP_cons_of_neg (by simp [hnc'])]
      exact hcnt

theorem incomplete_of_state {α : Type} {enc : α → Bytes} {base : Bytes} {b : BoxCtx} {h : Bytes}
    {o : BoxDesc α} (hB : BoxRel enc keyOf base b h o) (hs : b.state ≠ .finished)
    (hs' : b.state ≠ .hashFinalized) : o.complete = false := by
  by_contra hc
  simp only [Bool.not_eq_false] at hc
  rcases hB.phase.finished_iff.2 hc with hf | hf
  · exact hs hf
  · exact hs' hf

theorem scriptDone_of_init {α : Type} {enc : α → Bytes} {base : Bytes} {b : BoxCtx} {h : Bytes}
    {o : BoxDesc α} (hB : BoxRel enc keyOf base b h o) (hs : b.state = .initialized) :
    o.scriptDone = false := by
  have hph := hB.phase
  unfold BoxPhase at hph
  rw [hs] at hph
  simp only at hph
  unfold BoxDesc.scriptDone
  rcases hph.1 with ⟨h1, _⟩ | ⟨bs, h1, h2, h3⟩
  · rw [h1]
  · rw [h1]; simp; omega

/-- The type callback keeps the output info. -/
theorem typeEff_acc {ty : BoxType} {v : UInt64} {fin : Bool} {s s' : Acc}
    (hts : s.o.treeSet = false) (hb : s.o.boxFinished = false)
    (he : typeEff (accCbs env) ty v fin s s') :
    (∃ r, s.a.addOutput ty v = (s'.a, r) ∧ r.passes) ∧
      s'.o = { s.o with boxFinished := fin } := by
  obtain ⟨s1, r1, h1, h2, h3⟩ := he
  simp only [accCbs, Prod.mk.injEq] at h1
  obtain ⟨rfl, rfl⟩ := h1
  obtain ⟨g1, g2⟩ := finEff_unset (by exact hts) (by exact hb) h3
  refine ⟨⟨_, ?_, h2⟩, g2⟩
  rw [g1]

theorem addOutput_table {a a' : Amounts} {ty : BoxType} {v : UInt64} {r : Res BoxErr}
    (h : a.addOutput ty v = (a', r)) : a'.table = a.table := by
  unfold Amounts.addOutput at h
  cases ty <;> simp only at h
  · split at h
    · simp only [Prod.mk.injEq] at h; rw [← h.1]
    · split at h
      · simp only [Prod.mk.injEq] at h; rw [← h.1]
      · simp only [Prod.mk.injEq] at h; rw [← h.1]
  · split at h
    · simp only [Prod.mk.injEq] at h; rw [← h.1]
    · simp only [Prod.mk.injEq] at h; rw [← h.1]
  · simp only [Prod.mk.injEq] at h; rw [← h.1]

theorem addTree_script (o : BoxDesc Nat) (c : Bytes) :
    ∃ bs, (o.addTree c).script = some (.raw bs) := by
  unfold BoxDesc.addTree
  split <;> exact ⟨_, rfl⟩

theorem addBoxTree_full {chunk : Bytes} {o : OutDesc} {os : List OutDesc}
    (hR : FullRel keyOf h0 x D) (hD : D.outputs = o :: os)
    (hO : OutRel env x.s.a.table D.table x.s.o o.box) (h : x.addBoxTree env chunk = (x', r))
    (hp : r.passes) :
    o.box.scriptDone = false ∧
    FullRel keyOf h0 x' { D with outputs := { o with box := o.box.addTree chunk } :: os } ∧
    x'.s.a.table = x.s.a.table ∧
    x'.s.o = { x.s.o with boxFinished := (o.box.addTree chunk).complete } ∧
    (r = .ok ↔ (o.box.addTree chunk).scriptDone) ∧
    ((o.box.addTree chunk).scriptDone = false → 255 ≤ chunk.length) := by
  obtain ⟨b, y, q, hst, hB, hy, hq, hs, hr, hfin⟩ := boxPart_full hR hD h hp
  obtain ⟨hbs, hB', hv, hcase⟩ := addTree_rel hB hy hq
  simp only at hbs hcase hv
  obtain ⟨hos, h255⟩ := addTree_state hy hq
  have hnc := incomplete_of_state hB (by rw [hbs]; simp) (by rw [hbs]; simp)
  have hsd := scriptDone_of_init hB hbs
  have hts : x.s.o.treeSet = false := by rw [hO.treeSet]; exact hsd
  have hbf : x.s.o.boxFinished = false := by rw [hO.fin]; exact hnc
  have hscr : o.box.script = none ∨ ∃ bs, o.box.script = some (.raw bs) := by
    unfold BoxDesc.scriptDone at hsd
    cases hsc : o.box.script with
    | none => left; rfl
    | some s =>
      cases s with
      | raw bs => right; exact ⟨bs, rfl⟩
      | fee => rw [hsc] at hsd; simp at hsd
      | change p => rw [hsc] at hsd; simp at hsd
  obtain ⟨bs', hscr'⟩ := addTree_script o.box chunk
  have hval : ∀ p : Script → Bool, (∀ b, p (.raw b) = false) →
      TxDesc.sumOut p { D with outputs := { o with box := o.box.addTree chunk } :: os } =
      D.sumOut p := by
    intro p hpr
    rw [sumOut_cons p _ os rfl, sumOut_cons p o os hD]
    congr 1
    unfold outVal
    rw [hscr']
    simp only [hpr, Bool.false_eq_true, if_false]
    rcases hscr with e | ⟨bs, e⟩ <;> rw [e]
    simp [hpr]
  have htok : TxDesc.tokOut { D with outputs := { o with box := o.box.addTree chunk } :: os } =
      D.tokOut := by
    funext j
    rw [tokOut_cons _ os j rfl, tokOut_cons o os j hD]
    simp only
    rw [(addTree_fields o.box chunk).2.2.1]
  have hA : ∀ a : Amounts, AmtRel a D.table D.sumIn (D.sumOut Script.isChange)
      (D.sumOut Script.isFee) D.tokIn D.tokOut → AmtRel a D.table D.sumIn
      (TxDesc.sumOut Script.isChange { D with outputs := { o with box := o.box.addTree chunk } :: os })
      (TxDesc.sumOut Script.isFee { D with outputs := { o with box := o.box.addTree chunk } :: os })
      D.tokIn (TxDesc.tokOut { D with outputs := { o with box := o.box.addTree chunk } :: os }) := by
    intro a ha
    rw [hval _ (fun _ => rfl), hval _ (fun _ => rfl), htok]
    exact ha
  split at hcase
  · rename_i hdone
    obtain ⟨rfl, _, _, he⟩ := hcase
    obtain ⟨⟨r1, ha, hr1⟩, ho'⟩ := typeEff_acc hts hbf he
    obtain ⟨_, hAm⟩ := hR.amt.addOutput ha hr1
    simp only [reduceCtorEq, if_false, Nat.add_zero] at hAm
    refine ⟨hsd, hfin _ hB' hnc hos (hA _ hAm), ?_, ?_, ?_, ?_⟩
    · rw [hs]; exact addOutput_table ha
    · rw [hs]; exact ho'
    · rw [hr]; simp [Res.map, hdone]
    · intro hc; rw [hdone] at hc; simp at hc
  · rename_i hdone
    obtain ⟨rfl, hs2, _⟩ := hcase
    have hnd : (o.box.addTree chunk).scriptDone = false := by simpa using hdone
    have hncc : (o.box.addTree chunk).complete = false := by simp [BoxDesc.complete, hnd]
    refine ⟨hsd, hfin _ hB' hnc hos (hA _ (by rw [hs2]; exact hR.amt)), ?_, ?_, ?_, ?_⟩
    · rw [hs, hs2]
    · rw [hs, hs2, hncc, ← hbf]
    · rw [hr]; simp [Res.map, hdone]
    · intro _; exact h255 rfl

theorem setScript_full {f : BoxSt Acc → BoxSt Acc × Res BoxErr} {o : OutDesc} {os : List OutDesc}
    {s : Script} {bytes : Bytes}
    (hf : ∀ b : BoxSt Acc, f b = if b.c.state ≠ .initialized then b.fail .badState else
      BoxSt.treeAdded (accCbs env)
        { b with h := b.h ++ bytes, c := { b.c with type := typeOf s } })
    (hraw : ∀ b, s ≠ .raw b) (hbytes : scriptBytes keyOf s = bytes)
    (hR : FullRel keyOf h0 x D) (hD : D.outputs = o :: os)
    (hO : OutRel env x.s.a.table D.table x.s.o o.box) (h : x.boxPart f = (x', r))
    (hp : r.passes) :
    o.box.scriptDone = false ∧ (∃ fin, x'.s.o = { x.s.o with boxFinished := fin }) ∧
    (o.box.script = none →
      FullRel keyOf h0 x' { D with outputs := { o with box := { o.box with script := some s } } :: os } ∧
      x'.s.a.table = x.s.a.table ∧
      x'.s.o = { x.s.o with
        boxFinished := BoxDesc.complete { o.box with script := some s } }) := by
  obtain ⟨b, y, q, hst, hB, hy, hq, hs, hr, hfin⟩ := boxPart_full hR hD h hp
  rw [hf] at hy
  split at hy
  · exact (fail_not_passes hy hq).elim
  rename_i hbs
  simp only [ne_eq, Decidable.not_not] at hbs
  have hnc := incomplete_of_state hB (by rw [hbs]; simp) (by rw [hbs]; simp)
  have hsd := scriptDone_of_init hB hbs
  have hts : x.s.o.treeSet = false := by rw [hO.treeSet]; exact hsd
  have hbf : x.s.o.boxFinished = false := by rw [hO.fin]; exact hnc
  obtain ⟨e1, e2⟩ := treeAdded_state hy hq
  subst e1
  refine ⟨hsd, ?_, ?_⟩
  · unfold BoxSt.treeAdded at hy
    obtain ⟨_, h2⟩ := check_passes hy hq
    simp only at h2
    rw [hs]
    split at h2
    · split at h2
      · obtain ⟨_, _, _, q, e4, _⟩ := finish_passes h2 hq
        simp only [accCbs] at e4
        rw [setBoxFinished_unset (by exact hts)] at e4
        simp only [Prod.mk.injEq] at e4
        refine ⟨true, ?_⟩
        rw [← e4.1]
      · simp only [Prod.mk.injEq] at h2
        obtain ⟨rfl, _⟩ := h2
        exact ⟨false, by rw [← hbf]; rfl⟩
    · simp only [Prod.mk.injEq] at h2
      obtain ⟨rfl, _⟩ := h2
      exact ⟨false, by rw [← hbf]; rfl⟩
  · intro hno
    obtain ⟨_, hB', hv, _, _, he⟩ := setScript_rel (x := ⟨b, x.h, x.s⟩) hB hbs hno hraw hbytes hy rfl
    obtain ⟨⟨r1, ha, hr1⟩, ho'⟩ := typeEff_acc hts hbf he
    obtain ⟨_, hAm⟩ := hR.amt.addOutput ha hr1
    have hbv : b.value.toNat = o.box.value := hB.value
    simp only [hbv] at hAm
    have hval : ∀ p : Script → Bool,
        TxDesc.sumOut p { D with outputs := { o with box := { o.box with script := some s } } :: os } =
        D.sumOut p + if p s then o.box.value else 0 := by
      intro p
      rw [sumOut_cons p _ os rfl, sumOut_cons p o os hD]
      simp only [outVal, hno]
      omega
    have htok : TxDesc.tokOut { D with outputs := { o with box := { o.box with script := some s } } :: os } =
        D.tokOut := by
      funext j
      rw [tokOut_cons _ os j rfl, tokOut_cons o os j hD]
    refine ⟨hfin _ hB' hnc ⟨e2, by simp⟩ ?_, ?_, ?_⟩
    · rw [hval, hval, htok]
      have i1 : (if s.isChange then o.box.value else 0) =
          (if typeOf s = .change then o.box.value else 0) := by
        cases s <;> simp [typeOf, Script.isChange]
      have i2 : (if s.isFee then o.box.value else 0) =
          (if typeOf s = .fee then o.box.value else 0) := by
        cases s <;> simp [typeOf, Script.isFee]
      rw [i1, i2]
      exact hAm
    · rw [hs]; exact addOutput_table ha
    · rw [hs]; exact ho'

theorem feeTree_eq : scriptBytes keyOf .fee = minersFeeTree := by
  simp only [scriptBytes]
  decide +kernel

theorem addBoxTokens_full {input : Bytes} {o : OutDesc} {os : List OutDesc}
    (hR : FullRel keyOf h0 x D) (hD : D.outputs = o :: os)
    (hO : OutRel env x.s.a.table D.table x.s.o o.box) (h : x.addBoxTokens env input = (x', r))
    (hp : r.passes) :
    o.box.complete = false ∧ (∃ k, input.length = k * 12) ∧
    (∀ t ∈ (pieces 12 input).map tok12, t.1 < D.table.length) ∧
    FullRel keyOf h0 x' { D with outputs := { o with box :=
      { o.box with tokens := o.box.tokens ++ (pieces 12 input).map tok12 } } :: os } ∧
    x'.s.a.table = x.s.a.table ∧
    OutRel env x.s.a.table D.table x'.s.o
      { o.box with tokens := o.box.tokens ++ (pieces 12 input).map tok12 } := by
  obtain ⟨b, y, q, hst, hB, hy, hq, hs, hr, hfin⟩ := boxPart_full hR hD h hp
  have htab : D.table.length = D.nTok := by
    have hph := hR.phase
    unfold FullPhase at hph
    rw [hst] at hph
    exact hph.2.1
  obtain ⟨hbs, hB', hv, hty, _, hk, hok, s1, hfold, he⟩ := addTokens_rel tok12 (by
      intro b hb
      simp only [itemWidth] at hb
      refine ⟨rfl, ?_⟩
      exact be_ofNat64 (by simp [hb])) hB hy hq
  simp only [itemWidth] at hbs hB' hk hok hfold he
  have hop := addTokens_state hy hq
  have hnc := incomplete_of_state hB (by rw [hbs]; simp) (by rw [hbs]; simp)
  have hsd : o.box.scriptDone := by
    have hph := hB.phase
    unfold BoxPhase at hph
    rw [hbs] at hph
    exact hph.1
  have hts : x.s.o.treeSet = true := by rw [hO.treeSet]; exact hsd
  have hbf : x.s.o.boxFinished = false := by rw [hO.fin]; exact hnc
  obtain ⟨k, hk⟩ := hk
  have hdn : x.c.distinct.toNat = D.table.length := by rw [hR.distinct, htab]
  obtain ⟨g1, g2, g3, g4, g5⟩ := foldToks_acc hdn (pieces 12 input) (fun b hb =>
    ⟨pieces_width (by omega) k input hk b hb, hok b hb⟩) _ _ _ _ hfold rfl hR.amt hO.toks
  have hTok : TokRel x.s.a.table s1.o.tokens
      (tokRefs D.table (o.box.tokens ++ (pieces 12 input).map tok12)) := by
    have : tokRefs D.table (o.box.tokens ++ (pieces 12 input).map tok12) =
        fun j => tokRefs D.table o.box.tokens j + tokRefs D.table ((pieces 12 input).map tok12) j := by
      funext j; exact tokRefs_append _ _ _ _
    rw [this]; exact g4
  obtain ⟨f1, f2⟩ := finEff_set (env := env) (table := x.s.a.table) (base := D.table)
    (o := { o.box with tokens := o.box.tokens ++ (pieces 12 input).map tok12 })
    (s1 := s1) (s' := y.s) (by rw [g3]; exact hO.value) hTok (by rw [g3]; exact hbf)
    (by rw [g3]; exact hts) (by
      have hsc := hO.script
      rw [hnc] at hsc
      rw [g3]
      cases hsr : o.box.script with
      | none => rw [hsr] at hsc; exact hsc
      | some s =>
        rw [hsr] at hsc
        cases s <;> exact hsc)
    (hO.uniq.append (by simpa using g5)) he
  refine ⟨hnc, ⟨k, hk⟩, ?_, hfin _ hB' hnc hop ?_, ?_, ?_⟩
  · intro t ht
    obtain ⟨b, hb, rfl⟩ := List.mem_map.1 ht
    have := hok b hb
    simp only [ItemOk] at this
    rw [← hdn]
    exact this
  · rw [f1]
    have hval : ∀ p : Script → Bool,
        TxDesc.sumOut p { D with outputs := { o with box :=
          { o.box with tokens := o.box.tokens ++ (pieces 12 input).map tok12 } } :: os } =
        D.sumOut p := by
      intro p
      rw [sumOut_cons p _ os rfl, sumOut_cons p o os hD]
      rfl
    have htok : TxDesc.tokOut { D with outputs := { o with box :=
          { o.box with tokens := o.box.tokens ++ (pieces 12 input).map tok12 } } :: os } =
        fun j => D.tokOut j + tokRefs D.table ((pieces 12 input).map tok12) j := by
      funext j
      rw [tokOut_cons _ os j rfl, tokOut_cons o os j hD]
      simp only [tokRefs_append]
      omega
    rw [hval, hval, htok]
    exact g2
  · rw [hs, f1, g1]
  · rw [hs]; exact f2

theorem addBoxRegisters_full {chunk : Bytes} {o : OutDesc} {os : List OutDesc}
    (hR : FullRel keyOf h0 x D) (hD : D.outputs = o :: os)
    (hO : OutRel env x.s.a.table D.table x.s.o o.box) (h : x.addBoxRegisters env chunk = (x', r))
    (hp : r.passes) :
    o.box.complete = false ∧
    FullRel keyOf h0 x' { D with outputs := { o with box :=
      { o.box with regs := o.box.regs ++ chunk } } :: os } ∧
    x'.s.a.table = x.s.a.table ∧
    OutRel env x.s.a.table D.table x'.s.o { o.box with regs := o.box.regs ++ chunk } := by
  obtain ⟨b, y, q, hst, hB, hy, hq, hs, hr, hfin⟩ := boxPart_full hR hD h hp
  obtain ⟨hbs, hB', hv, hty, _, _, he⟩ := addRegisters_rel hB hy hq
  simp only at hbs he
  have hop := addRegisters_state hy hq
  have hnc := incomplete_of_state hB (by rw [hbs]; simp) (by rw [hbs]; simp)
  have hsd : o.box.scriptDone := by
    have hph := hB.phase
    unfold BoxPhase at hph
    rw [hbs] at hph
    exact hph.1
  have hts : x.s.o.treeSet = true := by rw [hO.treeSet]; exact hsd
  have hbf : x.s.o.boxFinished = false := by rw [hO.fin]; exact hnc
  obtain ⟨f1, f2⟩ := finEff_set (env := env) (table := x.s.a.table) (base := D.table)
    (o := { o.box with regs := o.box.regs ++ chunk })
    (s1 := x.s) (s' := y.s) (by exact hO.value) (by exact hO.toks) (by exact hbf)
    (by exact hts) (by
      have hsc := hO.script
      rw [hnc] at hsc
      exact hsc) (by exact hO.uniq) he
  refine ⟨hnc, hfin _ hB' hnc hop ?_, ?_, ?_⟩
  · rw [f1]
    have hval : ∀ p : Script → Bool,
        TxDesc.sumOut p { D with outputs := { o with box :=
          { o.box with regs := o.box.regs ++ chunk } } :: os } = D.sumOut p := by
      intro p
      rw [sumOut_cons p _ os rfl, sumOut_cons p o os hD]
      rfl
    have htok : TxDesc.tokOut { D with outputs := { o with box :=
          { o.box with regs := o.box.regs ++ chunk } } :: os } = D.tokOut := by
      funext j
      rw [tokOut_cons _ os j rfl, tokOut_cons o os j hD]
    rw [hval, hval, htok]
    exact hR.amt
  · rw [hs, f1]
  · rw [hs]; exact f2

/-! ## No undefined behaviour -/

theorem check_noub {x : BoxSt σ} {q : Res BoxErr} {k : BoxSt σ × Res BoxErr} (h1 : q ≠ .ub)
    (h2 : k.2 ≠ .ub) : (x.check q k).2 ≠ .ub := by
  cases q with
  | ok => exact h2
  | more => exact h2
  | err e => simp [BoxSt.check, BoxSt.fail]
  | ub => exact absurd rfl h1

theorem finish_noub {cbs : BoxCbs σ} {x : BoxSt σ}
    (h : ∀ ty, (cbs.onFinished ty x.s).2 ≠ .ub) : (x.finish cbs).2 ≠ .ub := by
  unfold BoxSt.finish
  exact check_noub (h _) (by simp)

theorem treeAdded_noub {x : BoxSt Acc} (h : x.s.o.treeSet = false) :
    (x.treeAdded (accCbs env)).2 ≠ .ub := by
  unfold BoxSt.treeAdded
  refine check_noub ?_ ?_
  · simp only [accCbs]; exact addOutput_noub _ _ _
  · simp only
    split
    · split
      · refine finish_noub ?_
        intro ty
        simp only [accCbs]
        rw [setBoxFinished_unset (by exact h)]
        simp
      · simp
    · simp

theorem tokensLoop_noub {table : Option TableArg} : ∀ (n : Nat) (input : Bytes) (x : BoxSt Acc),
    input.length ≤ n → (BoxSt.tokensLoop (accCbs env) table n input x).2 ≠ .ub := by
  intro n
  induction n with
  | zero =>
    intro input x h
    have : input = [] := by simpa using h
    subst this
    simp [BoxSt.tokensLoop]
  | succ n ih =>
    intro input x h
    cases input with
    | nil => simp [BoxSt.tokensLoop]
    | cons b bs =>
      simp only [BoxSt.tokensLoop]
      split
      · simp [BoxSt.fail]
      split
      · simp [BoxSt.fail]
      · simp
      · rename_i id rest hashed hid
        split
        · simp [BoxSt.fail]
        · rename_i v rest' hv
          refine check_noub (accToken_noub _ _ _ _ _) ?_
          apply ih
          obtain ⟨a, e1, e2, _⟩ := boxTokenId_ok hid hv
          have := congrArg List.length e1
          simp only [List.length_append, e2] at this
          have := itemWidth_pos table
          omega

theorem boxPart_noub {f : BoxSt Acc → BoxSt Acc × Res BoxErr} {o : OutDesc} {os : List OutDesc}
    (hR : FullRel keyOf h0 x D) (hD : D.outputs = o :: os)
    (hf : ∀ b, x.c.state = .outputsStarted → BoxRel vlq keyOf
        (preBytes h0 D ++ os.reverse.flatMap (fun o => boxSoFar vlq keyOf o.box)) b x.h o.box →
        (f ⟨b, x.h, x.s⟩).2 ≠ .ub) : (x.boxPart f).2 ≠ .ub := by
  unfold FullSt.boxPart
  split
  · simp [FullSt.fail]
  rename_i hst
  simp only [ne_eq, Decidable.not_not] at hst
  have hph := hR.phase
  unfold FullPhase at hph
  rw [hst] at hph
  simp only at hph
  obtain ⟨hpos, htab, hi, hn, hd, hcnt, hout⟩ := hph
  rw [hD] at hout
  simp only at hout
  obtain ⟨b, hsub, hb⟩ := hout
  rw [hsub]
  simp only
  have := hf b hst hb
  split
  · split
    · unfold FullSt.outputFinished
      simp only
      split <;> simp
    · simp
  · simp
  · simp [FullSt.fail]
  · rename_i he; exact absurd he this

theorem addBoxTree_noub {o : OutDesc} {os : List OutDesc} (hR : FullRel keyOf h0 x D)
    (hD : D.outputs = o :: os) (hO : OutRel env x.s.a.table D.table x.s.o o.box) (chunk : Bytes) :
    (x.addBoxTree env chunk).2 ≠ .ub := by
  refine boxPart_noub hR hD ?_
  intro b _ hB
  unfold BoxSt.addTree
  split
  · simp [BoxSt.fail]
  rename_i hbs
  simp only [ne_eq, Decidable.not_not] at hbs
  split
  · simp [BoxSt.fail]
  split
  · simp [BoxSt.fail]
  simp only
  split
  · refine treeAdded_noub ?_
    simp only
    rw [hO.treeSet]
    exact scriptDone_of_init hB hbs
  · simp

theorem setScript_noub {f : BoxSt Acc → BoxSt Acc × Res BoxErr} {o : OutDesc} {os : List OutDesc}
    {ty : BoxType} {bytes : Bytes}
    (hf : ∀ b : BoxSt Acc, f b = if b.c.state ≠ .initialized then b.fail .badState else
      BoxSt.treeAdded (accCbs env)
        { b with h := b.h ++ bytes, c := { b.c with type := ty } })
    (hR : FullRel keyOf h0 x D) (hD : D.outputs = o :: os)
    (hO : OutRel env x.s.a.table D.table x.s.o o.box) : (x.boxPart f).2 ≠ .ub := by
  refine boxPart_noub hR hD ?_
  intro b _ hB
  rw [hf]
  split
  · simp [BoxSt.fail]
  rename_i hbs
  simp only [ne_eq, Decidable.not_not] at hbs
  refine treeAdded_noub ?_
  simp only
  rw [hO.treeSet]
  exact scriptDone_of_init hB hbs

theorem addBoxTokens_noub {o : OutDesc} {os : List OutDesc} (hR : FullRel keyOf h0 x D)
    (hD : D.outputs = o :: os) (hO : OutRel env x.s.a.table D.table x.s.o o.box) (input : Bytes) :
    (x.addBoxTokens env input).2 ≠ .ub := by
  refine boxPart_noub hR hD ?_
  intro b hst hB
  have htab : D.table.length = D.nTok := by
    have hph := hR.phase
    unfold FullPhase at hph
    rw [hst] at hph
    exact hph.2.1
  have hdn : x.c.distinct.toNat = D.table.length := by rw [hR.distinct, htab]
  unfold BoxSt.addTokens
  split
  · simp [BoxSt.fail]
  rename_i hbs
  simp only [ne_eq, Decidable.not_not] at hbs
  have hnc := incomplete_of_state hB (by rw [hbs]; simp) (by rw [hbs]; simp)
  have hsd : o.box.scriptDone := by
    have hph := hB.phase
    unfold BoxPhase at hph
    rw [hbs] at hph
    exact hph.1
  have hts : x.s.o.treeSet = true := by rw [hO.treeSet]; exact hsd
  have hl := tokensLoop_noub (env := env) (table := some (x.c.distinct, x.s.a.table)) input.length
    input ⟨b, x.h, x.s⟩ (le_refl _)
  split
  · rename_i y hy
    obtain ⟨_, k, hk, _, _, _, hfold, hok⟩ := tokensLoop_passes _ _ _ _ _ _ _ hy rfl
    simp only [itemWidth] at hk hfold hok
    obtain ⟨_, _, g3, _⟩ := foldToks_acc hdn (pieces 12 input) (fun b hb =>
      ⟨pieces_width (by omega) k input hk b hb, hok b hb⟩) _ _ _ _ hfold rfl hR.amt hO.toks
    split
    · split
      · refine finish_noub ?_
        intro ty
        simp only [accCbs]
        have hsc := hO.script
        rw [hnc] at hsc
        obtain ⟨q, e, _⟩ := setBoxFinished_set (env := env) (oi := y.s.o) (ts := o.box.treeSize)
          (sc := o.box.script) (by
            rw [g3]
            cases hsr : o.box.script with
            | none => rw [hsr] at hsc; exact hsc
            | some s =>
              rw [hsr] at hsc
              cases s <;> exact hsc) (by rw [g3]; exact hts)
        rw [e]; simp
      · simp
    · simp
  · exact hl

theorem addBoxRegisters_noub {o : OutDesc} {os : List OutDesc} (hR : FullRel keyOf h0 x D)
    (hD : D.outputs = o :: os) (hO : OutRel env x.s.a.table D.table x.s.o o.box) (c : Bytes) :
    (x.addBoxRegisters env c).2 ≠ .ub := by
  refine boxPart_noub hR hD ?_
  intro b hst hB
  unfold BoxSt.addRegisters
  split
  · simp [BoxSt.fail]
  rename_i hbs
  simp only [ne_eq, Decidable.not_not] at hbs
  have hnc := incomplete_of_state hB (by rw [hbs]; simp) (by rw [hbs]; simp)
  have hsd : o.box.scriptDone := by
    have hph := hB.phase
    unfold BoxPhase at hph
    rw [hbs] at hph
    exact hph.1
  have hts : x.s.o.treeSet = true := by rw [hO.treeSet]; exact hsd
  split
  · simp [BoxSt.fail]
  simp only
  split
  · refine finish_noub ?_
    intro ty
    simp only [accCbs]
    have hsc := hO.script
    rw [hnc] at hsc
    obtain ⟨q, e, _⟩ := setBoxFinished_set hsc hts
    rw [e]; simp
  · simp

end Ergo
