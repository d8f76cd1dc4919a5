import Verif.Proof.Exact
import Verif.Proof.Wallet
import Verif.Props.Authentic
import Verif.Props.Sign
import Verif.Spec.Exact
/-!
# Attested boxes at any later time, and the transaction of a session
-/
namespace Ergo
open Spec

variable {env : Env} {nanoS : Bool} {key : Bytes}

/-- Every attestation session of the history was once the state of the device. -/
theorem attest_moment {tr : List Obs} {d : Device} (h : Runs env nanoS key tr d) :
    ∀ {S : AttestSess}, (know tr).attest = some S → ∃ tr2 tr1 d1 x, tr = tr2 ++ tr1 ∧
      Runs env nanoS key tr1 d1 ∧ (know tr1).attest = some S ∧ d1.screen = none ∧
      d1.ctx = .attest x ∧ AttRel env S.start.data S.box x := by
  induction h with
  | boot => intro S h2; simp [know, Ghost.start] at h2
  | @step tr d e h hh hu ih =>
    intro S hS
    have hrun := Runs.step e h hh hu
    have keep : (know tr).attest = some S → ∃ tr2 tr1 d1 x, d.observe env nanoS e :: tr = tr2 ++ tr1 ∧
        Runs env nanoS key tr1 d1 ∧ (know tr1).attest = some S ∧ d1.screen = none ∧
        d1.ctx = .attest x ∧ AttRel env S.start.data S.box x := by
      intro hS'
      obtain ⟨tr2, tr1, d1, x, e1, q⟩ := ih hS'
      exact ⟨_ :: tr2, tr1, d1, x, by rw [e1]; rfl, q⟩
    have now : LiveAttest (d.observe env nanoS e :: tr) → ∃ tr2 tr1 d1 x,
        d.observe env nanoS e :: tr = tr2 ++ tr1 ∧
        Runs env nanoS key tr1 d1 ∧ (know tr1).attest = some S ∧ d1.screen = none ∧
        d1.ctx = .attest x ∧ AttRel env S.start.data S.box x := by
      intro hL
      obtain ⟨_, _, hs, _, x, hx, _, hA⟩ := ready_attest hrun hS hL
      exact ⟨[], _, _, x, rfl, hrun, hS, hs, hx, hA⟩
    have hS2 : ((know tr).next (d.observe env nanoS e)).attest = some S := hS
    generalize hr : (d.step env nanoS e).2 = r at hh hu
    have ho : (d.observe env nanoS e).reply = r := hr
    have hoe : (d.observe env nanoS e).event = e := rfl
    unfold Ghost.next at hS2
    rw [ho, hoe] at hS2
    split at hS2
    · -- a question
      unfold Ghost.onWait at hS2
      split_ifs at hS2
      · exact keep hS2
      · exact keep hS2
      · simp [Ghost.close] at hS2
    · -- an answer
      rename_i cla ins p1 p2 data rnd code out
      split_ifs at hS2 with hc hc2
      · subst hc
        unfold Ghost.onOk at hS2
        dsimp only at hS2
        split_ifs at hS2 with k1 k2 k3 k4
        · exact keep hS2
        · exact keep hS2
        · subst k3 k4
          exact now (.inl ⟨⟨out, ho⟩, .inr ⟨_, _, _, _, hoe⟩⟩)
        · subst k3
          obtain ⟨S', x, x', h1, h2, _, _, hA, _, hop, hst, _⟩ := attest_answer h k4 hr
          obtain ⟨hA', _⟩ := attestOp_rel hA hop
          rw [h1] at hS2
          simp only [Option.map_some, Option.some.injEq] at hS2
          refine ⟨[], _, _, x', rfl, hrun, hS, ?_, ?_, ?_⟩
          · rw [hst]; exact h2
          · rw [hst]
          · subst hS2
            have e : AttestSess.box { S' with log := S'.log ++ [(p1, data)] } =
              attestStep S'.box (p1, data) := by simp [AttestSess.box]
            rw [e]
            exact hA'
        · simp [Ghost.close] at hS2
      · exact keep hS2
      · simp [Ghost.close] at hS2
    · -- an approval
      rename_i code out
      split_ifs at hS2 with hc
      · subst hc
        unfold Ghost.onApprove at hS2
        split at hS2
        · exact keep hS2
        · simp [Ghost.close] at hS2
        · exact keep hS2
        · rename_i ha
          exact now (.inl ⟨⟨out, ho⟩, .inl ⟨hoe, ha⟩⟩)
        · exact keep hS2
      · simp [Ghost.close] at hS2
    · simp [Ghost.close] at hS2
    · simp [Ghost.close] at hS2
    · exact keep hS2

/-- A box attested at any time is a box within the limits. -/
theorem coin_of_attested {tr : List Obs} {d : Device} (h : Runs env nanoS key tr d) {A : AttestSess}
    (hA : Attested tr A) : ∃ c : Coin, c.Within ∧ A.Of c ∧ c.id env = A.boxId env := by
  obtain ⟨⟨tr2, tr1, rfl, hk⟩, hc, _⟩ := hA
  obtain ⟨d1, h1⟩ := h.older
  obtain ⟨tr4, tr3, d3, x, rfl, h3, hk3, hs, hx, hR⟩ := attest_moment h1 hk
  obtain ⟨c, hw, hd, hid, _, ht, hi⟩ := coin_of_rel h3 hk3 hc hs hx hR
  exact ⟨c, hw, ⟨ht, hi, hd.symm⟩, hid⟩

theorem keyOf_len (hwf : env.WF) (q : List UInt32) : (env.keyOf q).length ≤ 33 := by
  unfold Env.keyOf
  cases h : env.genPublic q with
  | none => simp
  | some k =>
    obtain ⟨pub, chain⟩ := k
    have := compress_length (genPublic_len hwf h).1
    simp [this]

/-- The sum over the input values, taken from the wallet's transaction. -/
theorem says_sumIn {D : TxDesc} {t : WalletTx} (h : D.Says env t) :
    D.sumIn = (t.inputs.map (·.coin.value)).sum := by
  have e := congrArg (List.map (fun x => x.2.1)) h.inputs
  simp only [List.map_map, Function.comp_def] at e
  rw [← e, List.map_reverse, List.sum_reverse]
  rfl

theorem says_tokIn {D : TxDesc} {t : WalletTx} (h : D.Says env t) (id : Bytes) :
    D.tokIn id = t.tokIn id := by
  have e := congrArg (List.map (fun x => ((x.2.2.1.filter (·.1 = id)).map (·.2)).sum)) h.inputs
  simp only [List.map_map, Function.comp_def] at e
  unfold TxDesc.tokIn WalletTx.tokIn Coin.amount
  rw [← e, List.map_reverse, List.sum_reverse]

theorem says_own {D : TxDesc} {t : WalletTx} (h : D.Says env t) :
    D.sumOut Script.isFee + D.sumOut Script.isChange = t.own := by
  have e : ∀ f : Script → Bool, D.sumOut f = (t.outputs.map (fun p => if f p.script then p.value else 0)).sum := by
    intro f
    have e := congrArg (List.map (fun x => match x.2.1 with
      | some s => if f s then x.1 else 0
      | none => 0)) h.outputs
    simp only [List.map_map, Function.comp_def] at e
    unfold TxDesc.sumOut
    rw [← e, List.map_reverse, List.sum_reverse]
    congr 1
  rw [e, e]
  unfold WalletTx.own
  induction t.outputs with
  | nil => rfl
  | cons p ps ih =>
    simp only [List.map_cons, List.sum_cons]
    rw [← ih]
    cases p.script <;> simp [Script.isFee, Script.isChange] <;> omega

theorem says_tokOut {D : TxDesc} {t : WalletTx} (h : D.Says env t) (id : Bytes) :
    D.tokOut id = t.tokOut id := by
  have e := congrArg (List.map (fun x => tokRefs D.table x.2.2.2.1 id)) h.outputs
  simp only [List.map_map, Function.comp_def] at e
  unfold TxDesc.tokOut WalletTx.tokOut
  rw [← h.table, ← e, List.map_reverse, List.sum_reverse]

/-- Every input of the wallet's transaction is described. -/
theorem says_input {D : TxDesc} {t : WalletTx} (h : D.Says env t) {s : Spend} (hs : s ∈ t.inputs) :
    ∃ i ∈ D.inputs, i.boxId = s.coin.id env ∧ i.value = s.coin.value ∧ i.tokens = s.coin.tokens ∧
      i.ext = s.ext := by
  have hm : (s.coin.id env, s.coin.value, s.coin.tokens, s.ext) ∈
      t.inputs.map (fun s => (s.coin.id env, s.coin.value, s.coin.tokens, s.ext)) :=
    List.mem_map_of_mem hs
  rw [← h.inputs, List.mem_map] at hm
  obtain ⟨i, hi, e⟩ := hm
  simp only [Prod.mk.injEq] at e
  exact ⟨i, List.mem_reverse.1 hi, e⟩

theorem says_output {D : TxDesc} {t : WalletTx} (h : D.Says env t) {p : Pay} (hp : p ∈ t.outputs) :
    ∃ o ∈ D.outputs, o.box.value = p.value ∧ o.box.script = some p.script ∧ o.box.height = p.height ∧
      o.box.tokens = p.tokens ∧ o.box.regs = p.regs := by
  have hm : (p.value, some p.script, p.height, p.tokens, p.regs) ∈
      t.outputs.map (fun p => (p.value, some p.script, p.height, p.tokens, p.regs)) :=
    List.mem_map_of_mem hp
  rw [← h.outputs, List.mem_map] at hm
  obtain ⟨o, ho, e⟩ := hm
  simp only [Prod.mk.injEq] at e
  exact ⟨o, List.mem_reverse.1 ho, e⟩

theorem says_ids {D : TxDesc} {t : WalletTx} (h : D.Says env t) :
    ((t.inputs.flatMap (fun s => s.coin.tokens.map (·.1))).filter (· ∉ t.table)).dedup.length ≤
      D.otherIds.length := by
  have hs : ((t.inputs.flatMap (fun s => s.coin.tokens.map (·.1))).filter (· ∉ t.table)).dedup ⊆
      D.otherIds := by
    intro id hid
    unfold TxDesc.otherIds
    rw [List.mem_dedup, List.mem_filter, List.mem_flatMap] at hid ⊢
    obtain ⟨⟨s, hs, hm⟩, hn⟩ := hid
    obtain ⟨i, hi, _, _, e, _⟩ := says_input h hs
    refine ⟨⟨i, hi, by rw [e]; exact hm⟩, ?_⟩
    rw [h.table]; exact hn
  exact ((List.nodup_dedup _).subperm hs).length_le

/-- A complete description within the limits of the device says a transaction within the limits. -/
theorem within_of_says (hwf : env.WF) {D : TxDesc} (hok : DescOk env D) (hlim : Limits D)
    (hc : D.Complete) {t : WalletTx} (h : D.Says env t) (hcoins : ∀ s ∈ t.inputs, s.coin.Within) :
    t.Within env := by
  have l1 : t.inputs.length = D.nIn := by
    have := congrArg List.length h.inputs
    simp only [List.length_map, List.length_reverse] at this
    rw [← this]; exact hc.inputs
  have l2 : t.outputs.length = D.nOut := by
    have := congrArg List.length h.outputs
    simp only [List.length_map, List.length_reverse] at this
    rw [← this]; exact hc.outputs
  have l3 : t.dataInputs.length = D.nData := by rw [← h.dataInputs]; exact hc.dataInputs
  have l4 : t.table.length = D.nTok := by rw [← h.table]; exact hc.table
  refine ⟨?_, ?_, ?_, ?_, hcoins, ?_, ?_, ?_, ?_, ?_, ?_, ?_, ?_, ?_⟩
  · rw [l1]; exact ⟨hlim.nIn, hok.nIn⟩
  · rw [l3]; exact hok.nData
  · rw [l4]; exact hok.nTok
  · rw [l2]; exact ⟨hlim.nOut, hok.nOut⟩
  · intro s hs
    obtain ⟨i, hi, _, _, _, e⟩ := says_input h hs
    have h1 := hc.inputsDone i hi
    simp only [InDesc.complete, Bool.and_eq_true, decide_eq_true_eq] at h1
    rw [← e, h1.2]
    exact (hlim.inLimits i hi).ext
  · rw [← h.dataInputs]; exact hok.dataIds
  · rw [← h.table]; exact hok.table
  · intro p hp
    obtain ⟨o, ho, e1, e2, e3, e4, e5⟩ := says_output h hp
    have hb := hok.outs o ho
    have hl := hlim.boxLimits o ho
    have h1 := hc.outputsDone o ho
    simp only [BoxDesc.complete, Bool.and_eq_true, decide_eq_true_eq] at h1
    refine ⟨?_, ?_, ?_, ?_, ?_, ?_, ?_, ?_⟩
    · rw [← e1]; exact hb.value
    · cases hs : p.script with
      | raw b =>
        have := hl.rawLen b (by rw [e2, hs])
        have := hl.tree
        show b.length ≤ _
        omega
      | fee =>
        show feeTree.length ≤ _
        decide
      | change q =>
        have := keyOf_len hwf q
        show (List.length ([0x00, 0x08, 0xcd] ++ env.keyOf q)) ≤ _
        rw [List.length_append]
        simp only [List.length_cons, List.length_nil]
        omega
    · intro q hq
      exact hb.path q (by rw [e2, hq])
    · rw [← e3]; exact hb.height
    · rw [← e4, h1.1.2]; exact hl.toks
    · intro x hx
      rw [← e4] at hx
      rw [← h.table]
      exact ⟨hlim.refs o ho x hx, hb.amounts x hx⟩
    · rw [← e4, ← h.table]; exact hb.repeats
    · rw [← e5, h1.2]; exact hl.regs
  · rw [← says_sumIn h]; exact hok.sums.value
  · intro id; rw [← says_tokIn h]; exact hok.sums.toks id
  · have := hok.sums.ids
    have := says_ids h
    rw [← h.table] at *
    omega
  · rw [← says_sumIn h, ← says_own h]; exact hok.own
  · intro id; rw [← says_tokIn h, ← says_tokOut h]; exact hok.tokOut id

/-- Its bytes are those of the transaction. -/
theorem says_bytes {D : TxDesc} (hc : D.Complete) {t : WalletTx} (h : D.Says env t) :
    txBytes env.keyOf D = t.bytes env := by
  have l1 : D.inputs.length = t.inputs.length := by
    have := congrArg List.length h.inputs
    simpa only [List.length_map, List.length_reverse] using this
  have l2 : D.outputs.length = t.outputs.length := by
    have := congrArg List.length h.outputs
    simpa only [List.length_map, List.length_reverse] using this
  have e1 : D.inputs.reverse.flatMap inputBytes = t.inputs.flatMap (Spend.bytes env) := by
    have e := congrArg (List.flatMap (fun x => x.1 ++ [0] ++ (if x.2.2.2 = [] then [0] else x.2.2.2)))
      h.inputs
    simp only [List.flatMap_map] at e
    show _ = t.inputs.flatMap (fun s => s.coin.id env ++ [0] ++ (if s.ext = [] then [0] else s.ext))
    rw [← e, List.flatMap_def, List.flatMap_def]
    congr 1
    refine List.map_congr_left fun i hi => ?_
    have h1 := hc.inputsDone i (List.mem_reverse.1 hi)
    simp only [InDesc.complete, Bool.and_eq_true, decide_eq_true_eq] at h1
    unfold inputBytes
    have hiff : i.extSize = 0 ↔ i.ext = [] := by rw [← h1.2, List.length_eq_zero_iff]
    simp only [hiff]
  have e2 : D.outputs.reverse.flatMap (fun o => boxBytes vlq env.keyOf o.box) =
      t.outputs.flatMap (Pay.bytes env) := by
    have e := congrArg (List.flatMap (fun x => vlq x.1 ++ (x.2.1.map (scriptBytes env.keyOf)).getD [] ++
      vlq x.2.2.1 ++ [UInt8.ofNat x.2.2.2.1.length] ++ x.2.2.2.1.flatMap (fun t => vlq t.1 ++ vlq t.2) ++
      (if x.2.2.2.2 = [] then [0] else x.2.2.2.2))) h.outputs
    simp only [List.flatMap_map] at e
    show _ = t.outputs.flatMap (fun p => vlq p.value ++ scriptBytes env.keyOf p.script ++ vlq p.height ++
      [UInt8.ofNat p.tokens.length] ++ p.tokens.flatMap (fun t => vlq t.1 ++ vlq t.2) ++
      (if p.regs = [] then [0] else p.regs))
    simp only [Option.map_some, Option.getD_some] at e
    rw [← e, List.flatMap_def, List.flatMap_def]
    congr 1
    refine List.map_congr_left fun o ho => ?_
    have h1 := hc.outputsDone o (List.mem_reverse.1 ho)
    simp only [BoxDesc.complete, Bool.and_eq_true, decide_eq_true_eq] at h1
    unfold boxBytes
    have hiff : o.box.regsSize = 0 ↔ o.box.regs = [] := by rw [← h1.2, List.length_eq_zero_iff]
    simp only [hiff, h1.1.2]
  unfold txBytes WalletTx.bytes
  rw [l1, l2, e1, e2, h.dataInputs, h.table]

/-- A complete description says a transaction, if its inputs are boxes. -/
theorem says_exists {D : TxDesc} (hc : D.Complete) {P : Coin → Prop}
    (hin : ∀ i ∈ D.inputs, ∃ c : Coin, P c ∧ i.boxId = c.id env ∧ i.value = c.value ∧
      i.tokens = c.tokens) :
    ∃ t : WalletTx, D.Says env t ∧ ∀ s ∈ t.inputs, P s.coin := by
  have h1 : ∀ l : List InDesc, (∀ i ∈ l, i ∈ D.inputs) → ∃ m : List Spend,
      l.map (fun i => (i.boxId, i.value, i.tokens, i.ext)) =
        m.map (fun s => (s.coin.id env, s.coin.value, s.coin.tokens, s.ext)) ∧ ∀ s ∈ m, P s.coin := by
    intro l
    induction l with
    | nil => intro _; exact ⟨[], rfl, by simp⟩
    | cons i l ih =>
      intro hl
      obtain ⟨m, e, hm⟩ := ih (fun i hi => hl i (List.mem_cons_of_mem _ hi))
      obtain ⟨c, p1, p2, p3, p4⟩ := hin i (hl i (by simp))
      refine ⟨⟨c, i.ext⟩ :: m, ?_, ?_⟩
      · rw [List.map_cons, List.map_cons, e, p2, p3, p4]
      · intro s hs
        rcases List.mem_cons.1 hs with rfl | hs
        · exact p1
        · exact hm s hs
  have h2 : ∀ l : List OutDesc, (∀ o ∈ l, o ∈ D.outputs) → ∃ m : List Pay,
      l.map (fun o => (o.box.value, o.box.script, o.box.height, o.box.tokens, o.box.regs)) =
        m.map (fun p => (p.value, some p.script, p.height, p.tokens, p.regs)) := by
    intro l
    induction l with
    | nil => intro _; exact ⟨[], rfl⟩
    | cons o l ih =>
      intro hl
      obtain ⟨m, e⟩ := ih (fun i hi => hl i (List.mem_cons_of_mem _ hi))
      have hd := hc.outputsDone o (hl o (by simp))
      cases hs : o.box.script with
      | none => simp [BoxDesc.complete, BoxDesc.scriptDone, hs] at hd
      | some s =>
        refine ⟨⟨o.box.value, s, o.box.height, o.box.tokens, o.box.regs⟩ :: m, ?_⟩
        rw [List.map_cons, List.map_cons, e, hs]
  obtain ⟨m1, e1, p1⟩ := h1 D.inputs.reverse (fun i hi => List.mem_reverse.1 hi)
  obtain ⟨m2, e2⟩ := h2 D.outputs.reverse (fun i hi => List.mem_reverse.1 hi)
  exact ⟨⟨m1, D.dataInputs, D.table, m2⟩, ⟨e1, rfl, rfl, e2⟩, p1⟩

end Ergo
