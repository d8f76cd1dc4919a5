import Verif.Proof.OutSim
import Verif.Spec.Keys
/-!
# The transaction serializer follows the description of the transaction
-/
namespace Ergo
open Spec

/-- Everything hashed in front of the outputs. -/
def preBytes (h0 : Bytes) (D : TxDesc) : Bytes :=
  h0 ++ (vlq D.nIn ++ D.inputs.reverse.flatMap inputBytes ++ vlq D.nData ++ D.dataInputs.flatten ++
    vlq D.nTok ++ D.table.flatten ++ vlq D.nOut)

/-- What the input serializer says about the newest input; `n` inputs are still to come. -/
def InPhase (h0 : Bytes) (n : UInt16) (ic : InputCtx) (h : Bytes) (D : TxDesc) : Prop :=
  match ic.state with
  | .finished => (∀ i ∈ D.inputs, i.complete) ∧ D.inputs.length + n.toNat = D.nIn ∧ 0 < n.toNat ∧
      h = h0 ++ (vlq D.nIn ++ D.inputs.reverse.flatMap inputBytes)
  | .framesStarted => ∃ i is, D.inputs = i :: is ∧ (∀ j ∈ is, j.complete) ∧
      is.length + n.toNat = D.nIn ∧ 0 < n.toNat ∧ i.boxId = ic.boxId ∧
      i.frames = ic.framesCount.toNat ∧ i.got = ic.framesProcessed.toNat ∧
      i.extSize = ic.extSize.toNat ∧ i.ext = [] ∧ (i.got = 0 ∨ i.got < i.frames) ∧
      h = h0 ++ (vlq D.nIn ++ is.reverse.flatMap inputBytes)
  | .extensionStarted => ∃ i is, D.inputs = i :: is ∧ (∀ j ∈ is, j.complete) ∧
      is.length + n.toNat = D.nIn ∧ 0 < n.toNat ∧ i.got = i.frames ∧
      i.ext.length + ic.extSize.toNat = i.extSize ∧ 0 < ic.extSize.toNat ∧
      h = h0 ++ (vlq D.nIn ++ is.reverse.flatMap inputBytes ++ (i.boxId ++ [0] ++ i.ext))
  | .error => False

/-- The outputs received so far; older ones may be incomplete. -/
def OutPhase (keyOf : List UInt32 → Bytes) (h0 : Bytes) (c : FullCtx) (h : Bytes) (D : TxDesc) :
    Prop :=
  D.table.length = D.nTok ∧ (∀ i ∈ D.inputs, i.complete) ∧ D.inputs.length = D.nIn ∧
  D.dataInputs.length = D.nData ∧
  D.outputs.countP (·.box.complete) + c.outputs.toNat = D.nOut ∧
  match D.outputs with
  | [] => h = preBytes h0 D
  | o :: os => ∃ b, c.sub = .box b ∧ BoxRel vlq keyOf
      (preBytes h0 D ++ os.reverse.flatMap (fun o => boxSoFar vlq keyOf o.box)) b h o.box

/-- What the serializer state says about the description. -/
def FullPhase (keyOf : List UInt32 → Bytes) (h0 : Bytes) (c : FullCtx) (h : Bytes)
    (table : List Bytes) (D : TxDesc) : Prop :=
  match c.state with
  | .tokensStarted => D.table.length < D.nTok ∧ table = D.table ∧ D.inputs = [] ∧
      D.dataInputs = [] ∧ D.outputs = [] ∧ c.inputs.toNat = D.nIn ∧
      c.dataInputs.toNat = D.nData ∧ c.outputs.toNat = D.nOut ∧ h = h0 ++ vlq D.nIn
  | .inputsStarted => D.table.length = D.nTok ∧ D.dataInputs = [] ∧ D.outputs = [] ∧
      c.dataInputs.toNat = D.nData ∧ c.outputs.toNat = D.nOut ∧
      ∃ ic, c.sub = .input ic ∧ InPhase h0 c.inputs ic h D
  | .dataInputsStarted => D.table.length = D.nTok ∧ D.outputs = [] ∧
      (∀ i ∈ D.inputs, i.complete) ∧ D.inputs.length = D.nIn ∧
      D.dataInputs.length + c.dataInputs.toNat = D.nData ∧ 0 < c.dataInputs.toNat ∧
      c.outputs.toNat = D.nOut ∧
      h = h0 ++ (vlq D.nIn ++ D.inputs.reverse.flatMap inputBytes ++ vlq D.nData ++
        D.dataInputs.flatten)
  | .outputsStarted => 0 < c.outputs.toNat ∧ OutPhase keyOf h0 c h D
  | .finished => c.outputs.toNat = 0 ∧ OutPhase keyOf h0 c h D ∧
      ∃ o os, D.outputs = o :: os ∧ o.box.complete
  | .error => False

/-- The serializer state, the hashed bytes and the amounts match the description. -/
structure FullRel (keyOf : List UInt32 → Bytes) (h0 : Bytes) (x : FullSt) (D : TxDesc) : Prop where
  nIn : 0 < D.nIn
  nOut : 0 < D.nOut
  nTok : D.nTok ≤ 20
  distinct : x.c.distinct.toNat = D.nTok
  amt : AmtRel x.s.a D.table D.sumIn (D.sumOut Script.isChange) (D.sumOut Script.isFee)
    D.tokIn D.tokOut
  phase : FullPhase keyOf h0 x.c x.h x.s.a.table D

variable {keyOf : List UInt32 → Bytes} {h0 : Bytes} {x x' : FullSt} {D : TxDesc} {r : Res FullErr}

theorem fullFail_passes {e : FullErr} {p : Prop} (h : x.fail e = (x', r)) (hp : r.passes) : p := by
  simp only [FullSt.fail, Prod.mk.injEq] at h
  obtain ⟨_, rfl⟩ := h
  simp [Res.passes] at hp

theorem tableBytes_eq {dn : UInt8} {base table : List Bytes} (h : base <+: table)
    (hl : dn.toNat = base.length) : tableBytes dn table = vlq base.length ++ base.flatten := by
  unfold tableBytes
  rw [gvePutU32_eq]
  have e1 : dn.toUInt32.toNat = base.length := by rw [UInt8.toNat_toUInt32, hl]
  rw [e1]
  congr 1
  rw [hl]
  have : ∀ (b : List Bytes), (List.range b.length).flatMap (fun i => b.getD i zeroId) =
      b.flatten := by
    intro b
    induction b with
    | nil => rfl
    | cons a b ih =>
      rw [List.length_cons, List.range_succ_eq_map, List.flatMap_cons, List.flatMap_map]
      simp only [List.getD_cons_zero, List.getD_cons_succ, List.flatten_cons]
      rw [ih]
  rw [← this base]
  rw [List.flatMap_def, List.flatMap_def]
  congr 1
  apply List.map_congr_left
  intro i hi
  rw [List.mem_range] at hi
  have := prefix_getElem? h hi
  rw [List.getD_eq_getElem?_getD, this]; rfl

/-! ## Start -/

theorem tokIn_nil (h : D.inputs = []) : D.tokIn = fun _ => 0 := by
  funext j; simp [TxDesc.tokIn, h]
theorem tokOut_nil (h : D.outputs = []) : D.tokOut = fun _ => 0 := by
  funext j; simp [TxDesc.tokOut, h]
theorem sumIn_nil (h : D.inputs = []) : D.sumIn = 0 := by simp [TxDesc.sumIn, h]
theorem sumOut_nil (p : Script → Bool) (h : D.outputs = []) : D.sumOut p = 0 := by
  simp [TxDesc.sumOut, h]

theorem fullInit_rel {ni nd no : UInt16} {nt : UInt8} {c : FullCtx} {h : Bytes} (o : OutInfo)
    (hi : fullInit ni nd no nt [] h0 = (c, h, r)) (hp : r.passes) :
    r = .ok ∧ FullRel keyOf h0 ⟨c, h, ⟨.zero, o⟩⟩
      { TxDesc.empty with nIn := ni.toNat, nData := nd.toNat, nTok := nt.toNat, nOut := no.toNat }
      := by
  unfold fullInit at hi
  split at hi
  · simp only [Prod.mk.injEq] at hi
    obtain ⟨_, _, rfl⟩ := hi
    simp [Res.passes] at hp
  rename_i h1
  split at hi
  · simp only [Prod.mk.injEq] at hi
    obtain ⟨_, _, rfl⟩ := hi
    simp [Res.passes] at hp
  rename_i h2
  simp only at hi
  have hni := u16_ne_zero.1 h1
  have hno := u16_ne_zero.1 h2
  unfold tableInit at hi
  by_cases hnt : nt.toNat > tokenMax
  · rw [if_pos (.inr hnt)] at hi
    simp only [Prod.mk.injEq] at hi
    obtain ⟨_, _, rfl⟩ := hi
    simp [Res.passes] at hp
  rw [if_neg (by simpa using hnt)] at hi
  simp only at hi
  have hnt' : nt.toNat ≤ 20 := by simpa [tokenMax] using hnt
  split at hi
  · rename_i hz
    simp only [Prod.mk.injEq] at hi
    obtain ⟨rfl, rfl, rfl⟩ := hi
    refine ⟨rfl, hni, hno, hnt', rfl, ?_, ?_⟩
    · rw [sumIn_nil rfl, sumOut_nil _ rfl, sumOut_nil _ rfl, tokIn_nil rfl, tokOut_nil rfl]
      exact AmtRel.empty
    · have := u8_ne_zero.1 hz
      simp only [FullPhase, TxDesc.empty, Amounts.zero, gvePutU16_eq, List.length_nil, true_and,
        and_true]
      exact this
  · rename_i hz
    simp only [ne_eq, Decidable.not_not] at hz
    subst hz
    simp only [Prod.mk.injEq] at hi
    obtain ⟨rfl, rfl, rfl⟩ := hi
    refine ⟨rfl, hni, hno, hnt', rfl, ?_, ?_⟩
    · rw [sumIn_nil rfl, sumOut_nil _ rfl, sumOut_nil _ rfl, tokIn_nil rfl, tokOut_nil rfl]
      exact AmtRel.empty
    · simp only [FullPhase, TxDesc.empty]
      refine ⟨rfl, trivial, trivial, trivial, trivial, _, rfl, ?_⟩
      simp [InPhase, InputCtx.zero, gvePutU16_eq]
      exact hni

/-! ## Token table -/

theorem AmtRel.zeros {a : Amounts} {base : List Bytes} {vin vch vfee : Nat}
    (h : AmtRel a base vin vch vfee (fun _ => 0) (fun _ => 0)) (i : Nat) : a.tokens.getD i 0 = 0 := by
  by_cases hi : ∃ id, tableFind a.table id = some i
  · obtain ⟨id, hf⟩ := hi
    have := h.bal id i hf
    have h0 : (a.tokens.getD i 0).toInt = (0 : Int64).toInt := by
      rw [this]; rfl
    exact Int64.toInt_inj.1 h0
  · exact h.zero i (fun id hf => hi ⟨id, hf⟩)

theorem AmtRel.setTable {a : Amounts} {base t : List Bytes} {vin vch vfee : Nat}
    (h : AmtRel a base vin vch vfee (fun _ => 0) (fun _ => 0)) (hl : t.length ≤ 20)
    (hid : ∀ id ∈ t, id.length = 32) :
    AmtRel { a with table := t } t vin vch vfee (fun _ => 0) (fun _ => 0) where
  len := h.len
  tlen := hl
  ids := hid
  pre := List.prefix_refl _
  value := h.value
  fee := h.fee
  bal := by intro id i _; simp only; rw [h.zeros]; rfl
  zero := by intro i _; exact h.zeros i
  tin0 := by intro _ _; rfl
  tout0 := by intro _ _; rfl

theorem tableAddLoop_passes {dn : UInt8} : ∀ (n : Nat) (input : Bytes) (t t' : List Bytes)
    (r : Res TableErr), tableAddLoop dn n input t = (t', r) → r.passes →
    r = .ok ∧ t' = t ++ pieces 32 input ∧ (∃ k, input.length = k * 32) ∧
      (t.length ≤ dn.toNat → t'.length ≤ dn.toNat) := by
  intro n
  induction n with
  | zero =>
    intro input t t' r h hp
    cases input with
    | nil =>
      simp only [tableAddLoop, Prod.mk.injEq] at h
      obtain ⟨rfl, rfl⟩ := h
      refine ⟨rfl, by rw [pieces_nil]; simp, ⟨0, rfl⟩, id⟩
    | cons b bs =>
      simp only [tableAddLoop, Prod.mk.injEq] at h
      obtain ⟨_, rfl⟩ := h
      simp [Res.passes] at hp
  | succ n ih =>
    intro input t t' r h hp
    cases input with
    | nil =>
      simp only [tableAddLoop, Prod.mk.injEq] at h
      obtain ⟨rfl, rfl⟩ := h
      refine ⟨rfl, by rw [pieces_nil]; simp, ⟨0, rfl⟩, id⟩
    | cons b bs =>
      simp only [tableAddLoop] at h
      split at h
      · simp only [Prod.mk.injEq] at h
        obtain ⟨_, rfl⟩ := h
        simp [Res.passes] at hp
      rename_i hlt
      split at h
      · simp only [Prod.mk.injEq] at h
        obtain ⟨_, rfl⟩ := h
        simp [Res.passes] at hp
      · rename_i id rest hb
        obtain ⟨e, hl⟩ := bufBytes_some hb
        obtain ⟨h1, h2, ⟨k, hk⟩, h4⟩ := ih _ _ _ _ h hp
        have hl' : id.length = 32 := hl
        refine ⟨h1, ?_, ⟨k + 1, ?_⟩, ?_⟩
        · rw [h2, e, pieces_append rest hl' (by omega)]; simp
        · rw [e, List.length_append, hl', hk]; omega
        · intro _
          apply h4
          simp; omega

theorem tableAddLoop_noub {dn : UInt8} : ∀ (n : Nat) (input : Bytes) (t : List Bytes),
    input.length ≤ n → (tableAddLoop dn n input t).2 ≠ .ub := by
  intro n
  induction n with
  | zero =>
    intro input t h
    have : input = [] := by simpa using h
    subst this
    simp [tableAddLoop]
  | succ n ih =>
    intro input t h
    cases input with
    | nil => simp [tableAddLoop]
    | cons b bs =>
      simp only [tableAddLoop]
      split
      · simp
      split
      · simp
      · rename_i id rest hb
        obtain ⟨e, hl⟩ := bufBytes_some hb
        apply ih
        have hl' : id.length = 32 := hl
        have := congrArg List.length e
        simp only [List.length_append, hl'] at this
        omega

theorem pieces_width {n : Nat} (hn : 0 < n) : ∀ (k : Nat) (b : Bytes), b.length = k * n →
    ∀ p ∈ pieces n b, p.length = n := by
  intro k b hb
  refine pieces_induction hn (P := fun b => ∀ p ∈ pieces n b, p.length = n) ?_ ?_ k b hb
  · simp [pieces_nil]
  · intro a r ha ih p hp
    rw [pieces_append r ha hn] at hp
    simp only [List.mem_cons] at hp
    rcases hp with rfl | hp
    · exact ha
    · exact ih p hp

theorem addTokens_full {input : Bytes} (hR : FullRel keyOf h0 x D)
    (h : x.addTokens input = (x', r)) (hp : r.passes) :
    (∃ k, input.length = k * 32) ∧ x'.s.o = x.s.o ∧ x.c.state = .tokensStarted ∧
    x'.s.a.table = D.table ++ pieces 32 input ∧
    FullRel keyOf h0 x' { D with table := D.table ++ pieces 32 input } := by
  unfold FullSt.addTokens at h
  split at h
  · exact fullFail_passes h hp
  rename_i hst
  simp only [ne_eq, Decidable.not_not] at hst
  have hph := hR.phase
  unfold FullPhase at hph
  rw [hst] at hph
  simp only at hph
  obtain ⟨hlt, ht, hi, hd, ho, c1, c2, c3, hh⟩ := hph
  simp only [tableAdd] at h
  obtain ⟨t', q, hq⟩ : ∃ t' q, tableAddLoop x.c.distinct input.length input x.s.a.table = (t', q) :=
    ⟨_, _, rfl⟩
  rw [hq] at h
  have hqp : q = .ok := by
    cases q with
    | ok => rfl
    | more => exact (tableAddLoop_passes _ _ _ _ _ hq rfl).1
    | err e => exact fullFail_passes h hp
    | ub =>
      simp only [Prod.mk.injEq] at h
      obtain ⟨_, rfl⟩ := h
      simp [Res.passes] at hp
  subst hqp
  obtain ⟨_, e2, ⟨k, hk⟩, h4⟩ := tableAddLoop_passes _ _ _ _ _ hq rfl
  have hA := hR.amt
  rw [tokIn_nil hi, tokOut_nil ho] at hA
  have hle : t'.length ≤ x.c.distinct.toNat := h4 (by rw [ht, hR.distinct]; omega)
  have hA' := hA.setTable (t := t') (by have := hR.nTok; rw [hR.distinct] at hle; omega) (by
    intro id hid
    rw [e2] at hid
    rcases List.mem_append.1 hid with hm | hm
    · exact hR.amt.ids id hm
    · exact pieces_width (by omega) k input hk id hm)
  have hamt : AmtRel { x.s.a with table := t' } t' D.sumIn (D.sumOut Script.isChange)
      (D.sumOut Script.isFee) (TxDesc.tokIn { D with table := D.table ++ pieces 32 input })
      (TxDesc.tokOut { D with table := D.table ++ pieces 32 input }) := by
    rw [tokIn_nil (by exact hi), tokOut_nil (by exact ho)]
    exact hA'
  rw [ht] at e2
  simp only at h
  by_cases hfull : t'.length ≥ x.c.distinct.toNat
  · rw [if_pos hfull] at h
    simp only [Prod.mk.injEq] at h
    obtain ⟨rfl, rfl⟩ := h
    refine ⟨⟨k, hk⟩, rfl, hst, e2, hR.nIn, hR.nOut, hR.nTok, hR.distinct, ?_, ?_⟩
    · simp only [← e2] at hamt ⊢; exact hamt
    · simp only [FullPhase]
      refine ⟨?_, hd, ho, c2, c3, _, rfl, ?_⟩
      · rw [← e2]
        have := hR.distinct
        show t'.length = D.nTok
        omega
      · simp only [InPhase, InputCtx.zero, hi]
        refine ⟨by simp, by simpa using c1, by rw [c1]; exact hR.nIn, by simp [hh]⟩
  · rw [if_neg hfull] at h
    simp only [Prod.mk.injEq] at h
    obtain ⟨rfl, rfl⟩ := h
    refine ⟨⟨k, hk⟩, rfl, hst, e2, hR.nIn, hR.nOut, hR.nTok, hR.distinct, ?_, ?_⟩
    · simp only [← e2] at hamt ⊢; exact hamt
    · simp only [FullPhase, hst]
      refine ⟨?_, e2, hi, hd, ho, c1, c2, c3, hh⟩
      rw [← e2]
      have := hR.distinct
      show t'.length < D.nTok
      omega

theorem addTokens_noub (x : FullSt) (input : Bytes) : (x.addTokens input).2 ≠ .ub := by
  unfold FullSt.addTokens
  split
  · simp [FullSt.fail]
  · simp only
    split <;> try simp [FullSt.fail]
    rename_i h
    have h2 := tableAddLoop_noub (dn := x.c.distinct) input.length input x.s.a.table (le_refl _)
    unfold tableAdd at h
    split at h
    · split at h <;> simp at h
    · exact h2 h

end Ergo
