import Verif.Proof.Loss
import Verif.Proof.WalletOut
import Verif.Proof.Wire
/-!
# What fitting commands can describe
-/
namespace Ergo
open Spec

variable {env : Env} {key : Bytes}

/-- What holds of an output at every moment. -/
structure OutOk (env : Env) (table : List Bytes) (b : BoxDesc Nat) : Prop where
  value : b.value < 2 ^ 64
  height : b.height < 2 ^ 32
  amounts : ∀ t ∈ b.tokens, t.2 < 2 ^ 64
  repeats : NoRepeat table b.tokens
  path : ∀ q, b.script = some (.change q) →
    IsAddressPath q ∧ q.length ≤ 10 ∧ (env.genPublic q).isSome

/-- What holds of a transaction at every moment. -/
structure DescOk (env : Env) (D : TxDesc) : Prop where
  fixed : Fixed D
  nIn : D.nIn < 2 ^ 16
  nData : D.nData < 2 ^ 16
  nTok : D.nTok ≤ 20
  nOut : D.nOut < 2 ^ 16
  sums : SumsFit D
  table : ∀ b ∈ D.table, b.length = 32
  dataIds : ∀ b ∈ D.dataInputs, b.length = 32
  outs : ∀ o ∈ D.outputs, OutOk env D.table o.box
  own : D.sumOut Script.isFee + D.sumOut Script.isChange ≤ D.sumIn
  tokOut : ∀ id, D.tokOut id ≤ D.tokIn id + 2 ^ 63

theorem field_lt' (d : Bytes) (off len : Nat) : field d off len < 256 ^ len := by
  unfold field
  refine Nat.lt_of_lt_of_le (be_lt _) (Nat.pow_le_pow_right (by decide) ?_)
  rw [List.length_take]; omega

theorem noRepeat_nil (table : List Bytes) : NoRepeat table [] := by
  intro a t b e
  simp at e

theorem descOk_empty : DescOk env TxDesc.empty := by
  refine ⟨⟨fun h => absurd rfl h, fun h => absurd rfl h⟩, by decide, by decide, by decide, by decide,
    ⟨by decide, fun _ => (by decide : (0 : Nat) < 2 ^ 63), by decide⟩, ?_, ?_, ?_, by decide,
    fun _ => Nat.zero_le _⟩ <;>
    intro b hb <;> exact absurd hb (by simp [TxDesc.empty])

theorem pathOf_le10 {data : Bytes} (h1 : field data 0 1 ≤ 10) (h2 : pathLen data ≤ data.length) :
    (pathOf data).length ≤ 10 := by
  unfold pathOf
  unfold pathLen at h2
  rw [List.length_map, pieces_length (by decide) (field data 0 1)]
  · exact h1
  · rw [List.length_take, List.length_drop]; omega

theorem tok12_lt {data : Bytes} (h : data.length % 12 = 0) :
    ∀ t ∈ (pieces 12 data).map tok12, t.2 < 2 ^ 64 := by
  intro t ht
  obtain ⟨b, hb, rfl⟩ := List.mem_map.1 ht
  have hl : b.length = 12 := pieces_mem_length (by decide) (data.length / 12) data (by omega) b hb
  have := be_lt (b.drop 4)
  rw [List.length_drop, hl] at this
  simpa [tok12] using this

theorem tokIn_frame (D : TxDesc) (data : Bytes) (id : Bytes) : D.tokIn id ≤ (D.frame data).tokIn id := by
  unfold TxDesc.frame
  split
  · simp [TxDesc.tokIn]
  · unfold TxDesc.onInput
    split
    · exact Nat.le_refl _
    · rename_i i is h
      simp only [TxDesc.tokIn, h, List.map_cons, List.sum_cons, List.filter_append, List.map_append,
        List.sum_append]
      omega

theorem sumIn_frame (D : TxDesc) (data : Bytes) : D.sumIn ≤ (D.frame data).sumIn := by
  unfold TxDesc.frame
  split
  · simp [TxDesc.sumIn]
  · unfold TxDesc.onInput
    split
    · exact Nat.le_refl _
    · rename_i i is h
      simp [TxDesc.sumIn, h]

theorem frame_rest (D : TxDesc) (data : Bytes) : (D.frame data).outputs = D.outputs ∧
    (D.frame data).table = D.table ∧ (D.frame data).nIn = D.nIn ∧ (D.frame data).nTok = D.nTok ∧
    (D.frame data).nData = D.nData ∧ (D.frame data).nOut = D.nOut ∧
    (D.frame data).dataInputs = D.dataInputs := by
  unfold TxDesc.frame TxDesc.onInput
  split
  · simp
  · split <;> simp

/-- Everything but the outputs is the same. -/
theorem DescOk.onOutput {D : TxDesc} (h : DescOk env D) {o : OutDesc} {os : List OutDesc}
    (ho : D.outputs = o :: os) (f : BoxDesc Nat → BoxDesc Nat) (hb : OutOk env D.table (f o.box))
    (hv : outVal Script.isFee (f o.box) + outVal Script.isChange (f o.box) +
      TxDesc.sumOut Script.isFee { D with outputs := os } +
      TxDesc.sumOut Script.isChange { D with outputs := os } ≤ D.sumIn)
    (ht : ∀ id, tokRefs D.table (f o.box).tokens id + TxDesc.tokOut { D with outputs := os } id ≤
      D.tokIn id + 2 ^ 63) : DescOk env (D.onOutput f) := by
  have e : D.onOutput f = { D with outputs := { o with box := f o.box } :: os } := by
    unfold TxDesc.onOutput
    rw [ho]
  have hfix := fixed_onOutput h.fixed f
  rw [e] at hfix ⊢
  refine ⟨hfix, h.nIn, h.nData, h.nTok, h.nOut, ⟨h.sums.value, h.sums.toks, h.sums.ids⟩, h.table,
    h.dataIds, ?_, ?_, ?_⟩
  · intro p hp
    rcases List.mem_cons.1 hp with rfl | hp
    · exact hb
    · exact h.outs p (by rw [ho]; exact List.mem_cons_of_mem _ hp)
  · rw [sumOut_cons Script.isFee _ os rfl, sumOut_cons Script.isChange _ os rfl]
    show outVal Script.isFee (f o.box) + TxDesc.sumOut Script.isFee { D with outputs := os } +
      (outVal Script.isChange (f o.box) + TxDesc.sumOut Script.isChange { D with outputs := os }) ≤ D.sumIn
    omega
  · intro id
    rw [tokOut_cons _ os id rfl]
    exact ht id

theorem outVal_fee (b : BoxDesc Nat) (h : b.script = some .fee) :
    outVal Script.isFee b + outVal Script.isChange b = b.value := by
  simp [outVal, h, Script.isFee, Script.isChange]

theorem outVal_change (b : BoxDesc Nat) {q} (h : b.script = some (.change q)) :
    outVal Script.isFee b + outVal Script.isChange b = b.value := by
  simp [outVal, h, Script.isFee, Script.isChange]

theorem outVal_raw (b : BoxDesc Nat) (p : Script → Bool) (hp : ∀ x, p (.raw x) = false)
    (h : b.script = none ∨ ∃ x, b.script = some (.raw x)) : outVal p b = 0 := by
  rcases h with h | ⟨x, h⟩ <;> simp [outVal, h, hp]

/-- A fitting command keeps these facts. -/
theorem DescOk.step {D : TxDesc} {sub : UInt8} {data : Bytes} (h : DescOk env D)
    (hf : Fits env key D sub data) : DescOk env (D.step (.cmd sub data)) := by
  have hfix := (fixed_step h.fixed hf).1
  unfold Fits at hf
  unfold TxDesc.step at hfix ⊢
  by_cases e : sub = 0x10
  · simp only [if_pos e] at hf hfix ⊢
    obtain ⟨_, _, _, _, h20⟩ := hf
    refine ⟨hfix, field_lt' _ _ 2, field_lt' _ _ 2, h20, field_lt' _ _ 2,
      ⟨(by decide : (0 : Nat) < 2 ^ 64), fun _ => (by decide : (0 : Nat) < 2 ^ 63),
        (by decide : (0 : Nat) ≤ 20)⟩, ?_, ?_, ?_, Nat.zero_le _, fun _ => Nat.zero_le _⟩ <;>
      intro b hb <;> exact absurd hb (by simp [TxDesc.empty])
  simp only [if_neg e] at hf hfix ⊢
  obtain ⟨hn, hf⟩ := hf
  by_cases e : sub = 0x11
  · simp only [if_pos e] at hf hfix ⊢
    have hi : D.inputs = [] := by
      by_contra hi
      have := (h.fixed.table hi).2
      omega
    have ho : D.outputs = [] := by
      by_contra ho
      exact h.fixed.outs ho hi
    have hl : (pieces 32 data).length = data.length / 32 :=
      pieces_length (by decide) (data.length / 32) data (by omega)
    have := h.nTok
    refine ⟨hfix, h.nIn, h.nData, h.nTok, h.nOut, ⟨h.sums.value, h.sums.toks, ?_⟩, ?_, h.dataIds, ?_,
      h.own, ?_⟩
    · simp only [TxDesc.otherIds, hi, List.length_append, hl]
      simp
      omega
    · intro b hb
      rcases List.mem_append.1 hb with hb | hb
      · exact h.table b hb
      · exact pieces32 hf.2.1 b hb
    · intro o hp
      simp only [ho] at hp
      cases hp
    · intro id
      simp [TxDesc.tokOut, ho]
  simp only [if_neg e] at hf hfix ⊢
  by_cases e : sub = 0x12
  · simp only [if_pos e] at hf hfix ⊢
    obtain ⟨_, _, _, _, hs, _⟩ := hf
    obtain ⟨r1, r2, r3, r4, r5, r6, r7⟩ := frame_rest D data
    have hso : ∀ q, (D.frame data).sumOut q = D.sumOut q := by
      intro q; unfold TxDesc.sumOut; rw [r1]
    have hto : ∀ id, (D.frame data).tokOut id = D.tokOut id := by
      intro id; unfold TxDesc.tokOut; rw [r1, r2]
    refine ⟨hfix, ?_, ?_, ?_, ?_, hs, ?_, ?_, ?_, ?_, ?_⟩
    · rw [r3]; exact h.nIn
    · rw [r5]; exact h.nData
    · rw [r4]; exact h.nTok
    · rw [r6]; exact h.nOut
    · rw [r2]; exact h.table
    · rw [r7]; exact h.dataIds
    · rw [r1, r2]; exact h.outs
    · rw [hso, hso]
      exact Nat.le_trans h.own (sumIn_frame D data)
    · intro id
      rw [hto]
      have := h.tokOut id
      have := tokIn_frame D data id
      omega
  simp only [if_neg e] at hf hfix ⊢
  by_cases e : sub = 0x13
  · simp only [if_pos e] at hf hfix ⊢
    obtain ⟨i, is, hi, _⟩ := hf
    have e : D.onInput (fun i => { i with ext := i.ext ++ data }) =
        { D with inputs := { i with ext := i.ext ++ data } :: is } := by
      unfold TxDesc.onInput; rw [hi]
    rw [e] at hfix ⊢
    have hsi : TxDesc.sumIn { D with inputs := { i with ext := i.ext ++ data } :: is } = D.sumIn := by
      simp [TxDesc.sumIn, hi]
    have hti : ∀ id, TxDesc.tokIn { D with inputs := { i with ext := i.ext ++ data } :: is } id =
        D.tokIn id := by
      intro id; simp [TxDesc.tokIn, hi]
    refine ⟨hfix, h.nIn, h.nData, h.nTok, h.nOut, ⟨?_, ?_, ?_⟩, h.table, h.dataIds, h.outs, ?_, ?_⟩
    · rw [hsi]; exact h.sums.value
    · intro id; rw [hti]; exact h.sums.toks id
    · have := h.sums.ids
      simpa [TxDesc.otherIds, hi] using this
    · rw [hsi]; exact h.own
    · intro id; rw [hti]; exact h.tokOut id
  simp only [if_neg e] at hf hfix ⊢
  by_cases e : sub = 0x14
  · simp only [if_pos e] at hf hfix ⊢
    refine ⟨hfix, h.nIn, h.nData, h.nTok, h.nOut, ⟨h.sums.value, h.sums.toks, h.sums.ids⟩, h.table, ?_,
      h.outs, h.own, h.tokOut⟩
    intro b hb
    rcases List.mem_append.1 hb with hb | hb
    · exact h.dataIds b hb
    · exact pieces32 hf.2.2.1 b hb
  simp only [if_neg e] at hf hfix ⊢
  by_cases e : sub = 0x15
  · simp only [if_pos e] at hf hfix ⊢
    refine ⟨hfix, h.nIn, h.nData, h.nTok, h.nOut, ⟨h.sums.value, h.sums.toks, h.sums.ids⟩, h.table,
      h.dataIds, ?_, ?_, ?_⟩
    · intro o ho
      rcases List.mem_cons.1 ho with rfl | ho
      · exact ⟨field_lt' _ _ 8, field_lt' _ _ 4, by simp [outHeader], noRepeat_nil _,
          by simp [outHeader]⟩
      · exact h.outs o ho
    · have := h.own
      simpa [TxDesc.sumOut, TxDesc.sumIn, outHeader] using this
    · intro id
      have := h.tokOut id
      simpa [TxDesc.tokOut, TxDesc.tokIn, outHeader, tokRefs] using this
  simp only [if_neg e] at hf hfix ⊢
  clear hfix
  by_cases e : sub = 0x20
  · subst e
    exact h
  rw [if_neg e] at hf
  obtain ⟨o, os, ho, hf⟩ := hf
  have hob := h.outs o (by rw [ho]; simp)
  have hown := h.own
  rw [sumOut_cons Script.isFee o os ho, sumOut_cons Script.isChange o os ho] at hown
  have htok : ∀ id, _ := h.tokOut
  have htok : ∀ id, tokRefs D.table o.box.tokens id + TxDesc.tokOut { D with outputs := os } id ≤
      D.tokIn id + 2 ^ 63 := by
    intro id
    have := h.tokOut id
    rwa [tokOut_cons o os id ho] at this
  by_cases e : sub = 0x16
  · simp only [if_pos e] at hf ⊢
    have hs : (∀ q, o.box.script ≠ some (.change q)) ∧ o.box.script ≠ some .fee := by
      constructor
      · intro q hq
        have := hf.1
        simp [BoxDesc.scriptDone, hq] at this
      · intro hq
        have := hf.1
        simp [BoxDesc.scriptDone, hq] at this
    have hr : ∃ x, (o.box.addTree data).script = some (.raw x) := by
      unfold BoxDesc.addTree
      split <;> exact ⟨_, rfl⟩
    have hrest : (o.box.addTree data).value = o.box.value ∧ (o.box.addTree data).height = o.box.height ∧
        (o.box.addTree data).tokens = o.box.tokens := by
      unfold BoxDesc.addTree
      split <;> simp
    refine h.onOutput ho (fun b => b.addTree data) ⟨?_, ?_, ?_, ?_, ?_⟩ ?_ ?_
    · rw [hrest.1]; exact hob.value
    · rw [hrest.2.1]; exact hob.height
    · rw [hrest.2.2]; exact hob.amounts
    · rw [hrest.2.2]; exact hob.repeats
    · obtain ⟨x, hx⟩ := hr
      intro q hq
      rw [hx] at hq
      cases hq
    · rw [outVal_raw _ Script.isFee (fun _ => rfl) (.inr hr),
        outVal_raw _ Script.isChange (fun _ => rfl) (.inr hr)]
      omega
    · rw [hrest.2.2]; exact htok
  simp only [if_neg e] at hf ⊢
  have hnone : ∀ q, o.box.script = none → ValueFits D o → outVal q o.box = 0 := by
    intro q hq _
    simp [outVal, hq]
  by_cases e : sub = 0x17
  · simp only [if_pos e] at hf ⊢
    obtain ⟨_, hs, hv⟩ := hf
    unfold ValueFits at hv
    rw [sumOut_cons Script.isFee o os ho, sumOut_cons Script.isChange o os ho] at hv
    refine h.onOutput ho (fun b => { b with script := some .fee })
      ⟨hob.value, hob.height, hob.amounts, hob.repeats, fun q hq => by cases hq⟩ ?_ htok
    rw [outVal_fee _ rfl]
    show o.box.value + _ + _ ≤ _
    omega
  simp only [if_neg e] at hf ⊢
  by_cases e : sub = 0x18
  · simp only [if_pos e] at hf ⊢
    obtain ⟨_, h10, hpl, hap, hgp, hs, hv⟩ := hf
    unfold ValueFits at hv
    rw [sumOut_cons Script.isFee o os ho, sumOut_cons Script.isChange o os ho] at hv
    refine h.onOutput ho (fun b => { b with script := some (.change (pathOf data)) })
      ⟨hob.value, hob.height, hob.amounts, hob.repeats, ?_⟩ ?_ htok
    · intro q hq
      cases hq
      exact ⟨hap, pathOf_le10 h10 hpl, hgp⟩
    · rw [outVal_change _ rfl]
      show o.box.value + _ + _ ≤ _
      omega
  simp only [if_neg e] at hf ⊢
  by_cases e : sub = 0x19
  · simp only [if_pos e] at hf ⊢
    obtain ⟨_, _, h12, _, _, hnr, htk⟩ := hf
    refine h.onOutput ho (fun b => { b with tokens := b.tokens ++ (pieces 12 data).map tok12 })
      ⟨hob.value, hob.height, ?_, hnr, hob.path⟩ ?_ ?_
    · intro t ht
      rcases List.mem_append.1 ht with ht | ht
      · exact hob.amounts t ht
      · exact tok12_lt h12 t ht
    · have e1 : ∀ q, outVal q { o.box with tokens := o.box.tokens ++ (pieces 12 data).map tok12 } =
        outVal q o.box := fun _ => rfl
      rw [e1, e1]
      omega
    · intro id
      have := htk id
      rw [tokOut_cons o os id ho] at this
      have e2 : tokRefs D.table (o.box.tokens ++ (pieces 12 data).map tok12) id =
          tokRefs D.table o.box.tokens id + tokRefs D.table ((pieces 12 data).map tok12) id := by
        simp [tokRefs]
      rw [e2]
      omega
  simp only [if_neg e] at hf ⊢
  by_cases e : sub = 0x1A
  · simp only [if_pos e] at hf ⊢
    refine h.onOutput ho (fun b => { b with regs := b.regs ++ data })
      ⟨hob.value, hob.height, hob.amounts, hob.repeats, hob.path⟩ ?_ htok
    have e1 : ∀ q, outVal q { o.box with regs := o.box.regs ++ data } = outVal q o.box := fun _ => rfl
    rw [e1, e1]
    omega
  · simp only [if_neg e] at hf

theorem DescOk.approve {D : TxDesc} (h : DescOk env D) : DescOk env (D.step .approve) := by
  have hfix := (fixed_approve h.fixed).1
  unfold TxDesc.step at hfix ⊢
  cases ho : D.outputs with
  | nil => exact h
  | cons o os =>
    simp only [ho] at hfix ⊢
    refine ⟨hfix, h.nIn, h.nData, h.nTok, h.nOut, ⟨h.sums.value, h.sums.toks, h.sums.ids⟩, h.table,
      h.dataIds, ?_, ?_, ?_⟩
    · intro p hp
      rcases List.mem_cons.1 hp with rfl | hp
      · exact h.outs o (by rw [ho]; simp)
      · exact h.outs p (by rw [ho]; exact List.mem_cons_of_mem _ hp)
    · have := h.own
      rw [sumOut_cons Script.isFee o os ho, sumOut_cons Script.isChange o os ho] at this
      rw [sumOut_cons Script.isFee _ os rfl, sumOut_cons Script.isChange _ os rfl]
      exact this
    · intro id
      have := h.tokOut id
      rw [tokOut_cons o os id ho] at this
      rw [tokOut_cons _ os id rfl]
      exact this

/-- They hold in every session. -/
theorem log_ok {nanoS : Bool} {tr : List Obs} {d : Device} (h : Runs env nanoS key tr d)
    {S : SignSess} (hS : (know tr).sign = some S) (l : List Entry) :
    ∀ l', S.log = l ++ l' → DescOk env (describe l) := by
  induction l using List.reverseRecOn with
  | nil => intro _ _; exact descOk_empty
  | append_singleton l e ih =>
    intro l' hl
    rw [List.append_assoc] at hl
    have hi := ih _ hl
    rw [describe_append]
    cases e with
    | approve => exact hi.approve
    | cmd sub data => exact hi.step (log_fits h hS hl).2.2.2

end Ergo
