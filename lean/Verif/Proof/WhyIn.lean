import Verif.Proof.Why
/-!
# The status word of a refused command: commands of the serializer before the outputs
-/
namespace Ergo
open Spec

variable {keyOf : List UInt32 → Bytes} {h0 : Bytes} {x x' : FullSt} {D : TxDesc}

theorem addInput_why (hR : FullRel keyOf h0 x D) (hgot : ∀ i ∈ D.inputs, 0 < i.got)
    {boxId : Bytes} {frames : UInt8} {ext : UInt32} {e : FullErr}
    (h : (x.addInput boxId frames ext).2 = .err e) :
    FirstUnmet [(0 < D.nIn ∧ D.table.length = D.nTok ∧ D.inputs.length < D.nIn ∧
        ∀ i ∈ D.inputs, i.complete, 0xB0FF),
      (ext.toNat ≠ 1 ∧ ext.toNat ≤ 32768, 0xE003)] e.sw := by
  unfold FullSt.addInput at h
  by_cases hst : x.c.state = .inputsStarted
  case neg =>
    rw [if_pos hst] at h
    simp only [FullSt.fail, Res.err.injEq] at h
    rw [← h]
    exact .here (fun hc => hst (hR.inputs_missing hc.2.1 (.inl hc.2.2.1)))
  rw [if_neg (by simpa using hst)] at h
  have hph := hR.phase
  unfold FullPhase at hph
  rw [hst] at hph
  simp only at hph
  obtain ⟨ht, hdi, ho, hd, hno, ic, hsub, hin⟩ := hph
  rw [hsub] at h
  simp only at h
  by_cases hic : ic.state = .finished
  case neg =>
    rw [if_pos hic] at h
    simp only [FullSt.fail, Res.err.injEq] at h
    rw [← h]
    refine .here ?_
    rintro ⟨_, _, _, g⟩
    unfold InPhase at hin
    split at hin
    · rename_i he; exact hic he
    · obtain ⟨i, is, hD, e1, e2, e3, e4, e5, e6, e7, e8, e9, e10⟩ := hin
      have := g i (by rw [hD]; simp)
      have hp := hgot i (by rw [hD]; simp)
      simp only [InDesc.complete, Bool.and_eq_true, decide_eq_true_eq] at this
      omega
    · obtain ⟨i, is, hD, e1, e2, e3, e4, e5, e6, e7⟩ := hin
      have := g i (by rw [hD]; simp)
      simp only [InDesc.complete, Bool.and_eq_true, decide_eq_true_eq] at this
      omega
    · exact hin
  rw [if_neg (by simpa using hic)] at h
  simp only [InPhase, hic] at hin
  obtain ⟨hc, hn, hpos, hh⟩ := hin
  rw [if_neg (u16_ne_zero.2 hpos)] at h
  refine .later ⟨hR.nIn, ht, by omega, hc⟩ ?_
  unfold inputInit at h
  have h1 : ext = 1 ↔ ext.toNat = 1 := by rw [← UInt32.toNat_inj]; rfl
  by_cases hbad : ext = 1 ∨ ext.toNat > 32768
  · rw [if_pos hbad] at h
    simp only [FullSt.fail, Res.err.injEq] at h
    rw [← h]
    rw [h1] at hbad
    exact .here (by omega)
  · rw [if_neg hbad] at h
    cases h

theorem addInputExtension_why (hR : FullRel keyOf h0 x D) {chunk : Bytes}
    (hgot : ∀ i ∈ D.inputs, 0 < i.got) {e : FullErr}
    (h : (x.addInputExtension chunk).2 = .err e) :
    FirstUnmet [(∃ i ∈ D.inputs.head?, i.got = i.frames ∧ i.ext.length < i.extSize, 0xB0FF),
      (∀ i ∈ D.inputs.head?, i.ext.length + chunk.length ≤ i.extSize, 0xE015)] e.sw := by
  unfold FullSt.addInputExtension at h
  by_cases hst : x.c.state = .inputsStarted
  case neg =>
    rw [if_pos hst] at h
    simp only [FullSt.fail, Res.err.injEq] at h
    rw [← h]
    refine .here ?_
    rintro ⟨i, hi, _, hlt⟩
    have hi := List.mem_of_head? hi
    refine hst (hR.inputs_missing (hR.tableDone (List.ne_nil_of_mem hi)) (.inr ⟨i, hi, ?_⟩))
    simp only [InDesc.complete, Bool.and_eq_false_iff, decide_eq_false_iff_not]
    right; omega
  rw [if_neg (by simpa using hst)] at h
  have hph := hR.phase
  unfold FullPhase at hph
  rw [hst] at hph
  simp only at hph
  obtain ⟨ht, hdi, ho, hd, hno, ic, hsub, hin⟩ := hph
  rw [hsub] at h
  simp only at h
  obtain ⟨y, q, hy⟩ : ∃ y q, InputSt.addExtension ⟨ic, x.h, x.s.a⟩ chunk = (y, q) :=
    ⟨_, _, rfl⟩
  rw [hy] at h
  have hq : ∃ e', q = .err e' ∧ e = e'.toFull := by
    cases q with
    | ok =>
      simp only at h
      have := inputFinished_passes { x with h := y.h, s := { x.s with a := y.a }, c := { x.c with sub := .input y.c } }
      rw [h] at this
      simp [Res.passes] at this
    | more => cases h
    | ub => cases h
    | err e' =>
      simp only [FullSt.fail, Res.err.injEq] at h
      exact ⟨e', rfl, h.symm⟩
  obtain ⟨e', rfl, rfl⟩ := hq
  unfold InputSt.addExtension at hy
  simp only at hy
  by_cases hic : ic.state = .extensionStarted
  case neg =>
    rw [if_pos hic] at hy
    simp only [InputSt.fail, Prod.mk.injEq, Res.err.injEq] at hy
    rw [← hy.2]
    refine .here ?_
    rintro ⟨i, hi, g1, g2⟩
    have hi' := List.mem_of_head? hi
    unfold InPhase at hin
    split at hin
    · have := hin.1 i hi'
      simp only [InDesc.complete, Bool.and_eq_true, decide_eq_true_eq] at this
      omega
    · obtain ⟨j, js, hj, e1, e2, e3, e4, e5, e6, e7, e8, e9, e10⟩ := hin
      have hp := hgot i hi'
      rw [hj] at hi
      simp only [List.head?_cons, Option.mem_def, Option.some.injEq] at hi
      subst hi
      omega
    · rename_i he; exact hic he
    · exact hin
  rw [if_neg (by simpa using hic)] at hy
  simp only [InPhase, hic] at hin
  obtain ⟨i, is, hD, e1, e2, e3, e4, e5, e6, e7⟩ := hin
  rw [hD]
  simp only [List.head?_cons, Option.mem_def, Option.some.injEq, exists_eq_left', forall_eq']
  refine .later ⟨e4, by omega⟩ ?_
  by_cases hle : ic.extSize.toNat < chunk.length
  · rw [if_pos hle] at hy
    simp only [InputSt.fail, Prod.mk.injEq, Res.err.injEq] at hy
    rw [← hy.2]
    exact .here (by omega)
  · rw [if_neg hle] at hy
    exfalso
    split at hy <;> simp at hy

theorem addDataInputs_why (hR : FullRel keyOf h0 x D) {input : Bytes}
    (hgot : ∀ i ∈ D.inputs, 0 < i.got) {e : FullErr} (h : (x.addDataInputs input).2 = .err e) :
    FirstUnmet ((0 < D.nIn ∧ D.AllInputs ∧ D.dataInputs.length < D.nData, 0xB0FF) ::
      idDemands D.nData 0xE00C 0xE004 D.dataInputs.length (pieces 32 input)) e.sw := by
  have h0' := addDataInputs_iff hR [] hgot
  unfold FullSt.addDataInputs at h h0'
  by_cases hst : x.c.state = .dataInputsStarted
  case neg =>
    rw [if_pos hst] at h h0'
    simp only [FullSt.fail, Res.err.injEq] at h
    rw [← h]
    refine .here (fun hc => ?_)
    have := h0'.2 ⟨hc.2.1, hc.2.2, by simp, by simpa using by omega⟩
    simp [FullSt.fail, Res.passes] at this
  rw [if_neg (by simpa using hst)] at h
  have hph := hR.phase
  unfold FullPhase at hph
  rw [hst] at hph
  simp only at hph
  obtain ⟨ht, ho, hi, hn, hd, hpos, hno, hh⟩ := hph
  refine .later ⟨hR.nIn, ⟨hn, hi⟩, by omega⟩ ?_
  obtain ⟨y, q, hy⟩ : ∃ y q, FullSt.dataInputsLoop input.length input x = (y, q) := ⟨_, _, rfl⟩
  rw [hy] at h
  cases q with
  | ok =>
    simp only at h
    split at h <;> cases h
  | more => simp at h
  | ub => simp at h
  | err e' =>
    simp only [Res.err.injEq] at h
    rw [← h]
    exact dataLoop_why _ _ _ _ _ _ _ (by omega) hy

theorem addBox_why (hR : FullRel keyOf h0 x D) (hgot : ∀ i ∈ D.inputs, 0 < i.got)
    {value : UInt64} {ts ht rg : UInt32} {nt : UInt8} {e : FullErr}
    (h : (x.addBox value ts ht nt rg).2 = .err e) :
    FirstUnmet [(0 < D.nIn ∧ D.AllInputs ∧ D.dataInputs.length = D.nData ∧
        D.outputs.countP (·.box.complete) < D.nOut, 0xB0FF),
      (nt.toNat ≤ 20, 0xE00A), (ts.toNat ≤ 32768, 0xE015), (rg.toNat ≤ 32768, 0xE015)] e.sw := by
  have h0' := addBox_iff hR hgot 0 0 0 0 0
  unfold FullSt.addBox at h h0'
  by_cases hst : x.c.state = .outputsStarted
  case neg =>
    rw [if_pos hst] at h h0'
    simp only [FullSt.fail, Res.err.injEq] at h
    rw [← h]
    refine .here (fun hc => ?_)
    have := h0'.2 ⟨hc.2.1, hc.2.2.1, hc.2.2.2, by decide, by decide, by decide⟩
    simp [FullSt.fail, Res.passes] at this
  rw [if_neg (by simpa using hst)] at h
  have hph := hR.phase
  unfold FullPhase OutPhase at hph
  rw [hst] at hph
  simp only at hph
  obtain ⟨hpos, htab, hi, hn, hd, hcnt, _⟩ := hph
  rw [if_neg (u16_ne_zero.2 hpos)] at h
  refine .later ⟨hR.nIn, ⟨hn, hi⟩, hd, by omega⟩ ?_
  unfold boxInit at h
  have e1 : tokenMax = 20 := rfl
  have e2 : maxPart = 32768 := rfl
  by_cases h1 : nt.toNat > tokenMax
  · rw [if_pos h1] at h
    simp only [FullSt.fail, Res.err.injEq] at h
    rw [← h]
    exact .here (by omega)
  rw [if_neg h1] at h
  refine .later (by omega) ?_
  by_cases h2 : ts.toNat > maxPart
  · rw [if_pos h2] at h
    simp only [FullSt.fail, Res.err.injEq] at h
    rw [← h]
    exact .here (by omega)
  rw [if_neg h2] at h
  refine .later (by omega) ?_
  by_cases h3 : rg.toNat > maxPart
  · rw [if_pos h3] at h
    simp only [FullSt.fail, Res.err.injEq] at h
    rw [← h]
    exact .here (by omega)
  rw [if_neg h3] at h
  cases h

end Ergo
