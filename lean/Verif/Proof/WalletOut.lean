import Verif.Proof.WalletIn
/-!
# The commands that send the outputs of a transaction, and the whole transaction
-/
namespace Ergo
open Spec

variable {env : Env} {key : Bytes}

/-- An output, as described to the device. -/
def Spec.Pay.desc (env : Env) (p : Pay) : BoxDesc Nat :=
  ⟨p.value, (scriptBytes env.keyOf p.script).length, p.height, p.tokens.length, p.regs.length,
    some p.script, p.tokens, p.regs⟩

theorem pay_done (p : Pay) : (p.desc env).complete = true ∧ (p.desc env).scriptDone = true := by
  have : (p.desc env).scriptDone = true := by
    unfold BoxDesc.scriptDone Pay.desc
    cases p.script <;> simp [scriptBytes]
  refine ⟨?_, this⟩
  unfold BoxDesc.complete
  rw [this]
  simp [Pay.desc]

theorem pay_bytes (p : Pay) : boxSoFar vlq env.keyOf (p.desc env) = p.bytes env := by
  unfold boxSoFar
  rw [(pay_done p).2]
  simp [Pay.desc, Pay.bytes]

/-- The header of an output. -/
def payHeader (env : Env) (p : Pay) : Bytes :=
  num 8 p.value ++ num 4 (scriptBytes env.keyOf p.script).length ++ num 4 p.height ++
    num 1 p.tokens.length ++ num 4 p.regs.length

theorem pay_header {table : List Bytes} {p : Pay} (h : p.Within env table) :
    outHeader (payHeader env p) = ⟨p.value, (scriptBytes env.keyOf p.script).length, p.height,
      p.tokens.length, p.regs.length, none, [], []⟩ ∧ (payHeader env p).length = 21 := by
  have f1 : field (payHeader env p) 0 8 = p.value := by
    rw [field_of (pre := []) (a := num 8 p.value)
      (post := num 4 (scriptBytes env.keyOf p.script).length ++ num 4 p.height ++
        num 1 p.tokens.length ++ num 4 p.regs.length) (by simp [payHeader]) (by rfl) (num_length _ _),
      be_num _ _ (by simpa using h.value)]
  have f2 : field (payHeader env p) 8 4 = (scriptBytes env.keyOf p.script).length := by
    rw [field_of (pre := num 8 p.value) (a := num 4 (scriptBytes env.keyOf p.script).length)
      (post := num 4 p.height ++
        num 1 p.tokens.length ++ num 4 p.regs.length) (by simp [payHeader]) (num_length _ _)
        (num_length _ _), be_num _ _ (by have := h.tree; omega)]
  have f3 : field (payHeader env p) 12 4 = p.height := by
    rw [field_of (pre := num 8 p.value ++ num 4 (scriptBytes env.keyOf p.script).length)
      (a := num 4 p.height) (post := num 1 p.tokens.length ++ num 4 p.regs.length)
      (by simp [payHeader]) (by simp [num_length]) (num_length _ _),
      be_num _ _ (by simpa using h.height)]
  have f4 : field (payHeader env p) 16 1 = p.tokens.length := by
    rw [field_of (pre := num 8 p.value ++ num 4 (scriptBytes env.keyOf p.script).length ++
      num 4 p.height) (a := num 1 p.tokens.length) (post := num 4 p.regs.length)
      (by simp [payHeader]) (by simp [num_length]) (num_length _ _),
      be_num _ _ (by have := h.count; omega)]
  have f5 : field (payHeader env p) 17 4 = p.regs.length := by
    rw [field_of (pre := num 8 p.value ++ num 4 (scriptBytes env.keyOf p.script).length ++
      num 4 p.height ++ num 1 p.tokens.length) (a := num 4 p.regs.length) (post := [])
      (by simp [payHeader]) (by simp [num_length]) (num_length _ _),
      be_num _ _ (by have := h.regs; omega)]
  refine ⟨?_, by simp [payHeader, num_length]⟩
  unfold outHeader
  rw [f1, f2, f3, f4, f5]

theorem num4_path (c : UInt32) : num 4 c.toNat = writeU32be c := by
  apply be_inj
  · rw [num_length, length_writeU32]
  · rw [be_num _ _ (by have := c.toNat_lt; simpa using this), be_writeU32]

/-- The path in the command for change. -/
theorem path_data {q : List UInt32} (hl : q.length ≤ 10) :
    let data := num 1 q.length ++ q.flatMap (fun c => num 4 c.toNat)
    pathOf data = q ∧ field data 0 1 = q.length ∧ pathLen data = data.length ∧
      data.length = 1 + 4 * q.length := by
  intro data
  have e : data = num 1 q.length ++ q.flatMap writeU32be := by
    simp only [data, num4_path]
  have hlen := flatMap_write32_length q
  have hf : field data 0 1 = q.length := by
    rw [field_of (pre := []) (a := num 1 q.length) (post := q.flatMap writeU32be) (by rw [e]; rfl) (by rfl)
      (num_length _ _), be_num _ _ (by omega)]
  have hd : data.length = 1 + 4 * q.length := by rw [e, List.length_append, num_length, hlen]
  refine ⟨?_, hf, ?_, hd⟩
  · unfold pathOf
    rw [hf, e, List.drop_left' (num_length _ _), List.take_of_length_le (by omega), pieces4_path]
  · unfold pathLen
    rw [hf, hd]

theorem tokRefs_nil (table : List Bytes) (id : Bytes) : tokRefs table [] id = 0 := rfl

theorem noRepeat_of {table : List Bytes} {l : List (Nat × Nat)}
    (h : (l.map (fun t => table[t.1]?)).Nodup) : NoRepeat table l := by
  intro a t b e id hid
  subst e
  unfold tokRefs
  rw [List.filter_eq_nil_iff.2]
  · rfl
  · intro u hu
    rw [List.map_append, List.map_cons, List.nodup_append] at h
    have := h.2.2 _ (List.mem_map.2 ⟨u, hu, rfl⟩) _ (List.mem_cons_self)
    rw [decide_eq_true_eq]
    intro e
    exact this (by rw [e, hid])

theorem tok12_num {t : Nat × Nat} (h : t.1 < 2 ^ 32 ∧ t.2 < 2 ^ 64) :
    (num 4 t.1 ++ num 8 t.2).length = 12 ∧ tok12 (num 4 t.1 ++ num 8 t.2) = t := by
  refine ⟨by rw [List.length_append, num_length, num_length], ?_⟩
  unfold tok12
  rw [List.take_left' (num_length _ _), List.drop_left' (num_length _ _),
    be_num _ _ (by simpa using h.1), be_num _ _ (by simpa using h.2)]

/-- The value of an output that is taken from the inputs: fee and change. -/
def Spec.Pay.own (p : Pay) : Nat := if p.script.isFee || p.script.isChange then p.value else 0

theorem fits_one {D : TxDesc} {sub : UInt8} {data : Bytes} (rnd : Rnd) (h1 : 0x10 ≤ sub ∧ sub ≤ 0x1A)
    (h2 : data.length ≤ 255) (h3 : Fits env key D sub data) : FitsAll env key D [⟨sub, data, rnd⟩] :=
  ⟨h1, h2, h3, trivial⟩

theorem after_one (D : TxDesc) (sub : UInt8) (data : Bytes) (rnd : Rnd) :
    D.after [⟨sub, data, rnd⟩] = D.step (.cmd sub data) := rfl

/-- The commands of an output fit, and describe it. -/
theorem pay_fits {D : TxDesc} {p : Pay} (h : p.Within env D.table) (hD : 0 < D.nIn)
    (hin : D.AllInputs) (hdata : D.dataInputs.length = D.nData) (ht : D.table.length = D.nTok)
    (ht20 : D.nTok ≤ 20)
    (hout : D.outputs.countP (·.box.complete) < D.nOut)
    (hv : p.own + D.sumOut Script.isFee + D.sumOut Script.isChange ≤ D.sumIn)
    (htok : ∀ id, D.tokOut id + tokRefs D.table p.tokens id ≤ D.tokIn id + 2 ^ 63) (rnd : Rnd) :
    FitsAll env key D (p.cmds env rnd) ∧
      D.after (p.cmds env rnd) = { D with outputs := ⟨p.desc env, false⟩ :: D.outputs } := by
  obtain ⟨hh, hhl⟩ := pay_header h
  -- header
  obtain ⟨put, hput⟩ : ∃ put : BoxDesc Nat → TxDesc, put = fun o =>
      { D with outputs := ⟨o, false⟩ :: D.outputs } := ⟨_, rfl⟩
  obtain ⟨o1, ho1⟩ : ∃ o1 : BoxDesc Nat, o1 = ⟨p.value, (scriptBytes env.keyOf p.script).length, p.height,
      p.tokens.length, p.regs.length, none, [], []⟩ := ⟨_, rfl⟩
  have s1 : D.step (.cmd 0x15 (payHeader env p)) = put o1 := by
    show { D with outputs := ⟨outHeader (payHeader env p), false⟩ :: D.outputs } = _
    rw [hh, hput, ho1]
  have f1 : Fits env key D 0x15 (payHeader env p) := by
    refine ⟨hD, hin, hdata, hout, hhl, ?_, ?_, ?_⟩
    · have := congrArg BoxDesc.treeSize hh
      simp only [outHeader] at this
      rw [this]; exact h.tree
    · have := congrArg BoxDesc.nTokens hh
      simp only [outHeader] at this
      rw [this]; exact h.count
    · have := congrArg BoxDesc.regsSize hh
      simp only [outHeader] at this
      rw [this]; exact h.regs
  -- script
  obtain ⟨o2, ho2⟩ : ∃ o2 : BoxDesc Nat, o2 = ⟨p.value, (scriptBytes env.keyOf p.script).length, p.height,
      p.tokens.length, p.regs.length, some p.script, [], []⟩ := ⟨_, rfl⟩
  have hdone2 : o2.scriptDone = true := by
    rw [ho2]
    unfold BoxDesc.scriptDone
    cases p.script <;> simp [scriptBytes]
  have hsum : ∀ f : Script → Bool, (put o1).sumOut f = D.sumOut f := by
    intro f
    rw [hput, ho1]
    simp [TxDesc.sumOut]
  have f2 : FitsAll env key (put o1) (scriptCmds rnd p.script) ∧
      (put o1).after (scriptCmds rnd p.script) = put o2 := by
    cases hs : p.script with
    | raw b =>
      obtain ⟨t1, t2⟩ := tree_all b o1 (by rw [ho1]) (by rw [ho1, hs]; rfl)
      obtain ⟨a1, a2⟩ := sign_chunks (env := env) (key := key) (sub := 0x16) (ok := TreeOk)
        (step := BoxDesc.addTree) put (by decide)
        (fun o d h => by rw [hput]; exact ⟨hD, _, _, rfl, h⟩) (fun o d => by rw [hput]; rfl) rnd _ _ t1
      refine ⟨a1, ?_⟩
      rw [show scriptCmds rnd (.raw b) = (treeChunks b).map (fun b => ⟨0x16, b, rnd⟩) from rfl, a2, t2,
        ho1, ho2, hs]
    | fee =>
      refine ⟨fits_one rnd (by decide) (by decide) ?_, ?_⟩
      · have hv' : ValueFits (put o1) ⟨o1, false⟩ := by
          unfold ValueFits
          rw [hsum, hsum]
          have : p.own = p.value := by simp [Pay.own, hs, Script.isFee]
          rw [this] at hv
          rw [ho1, hput]
          exact hv
        rw [hput] at hv' ⊢
        exact ⟨hD, _, _, rfl, rfl, by rw [ho1], hv'⟩
      · rw [hput, ho1, ho2, hs]; rfl
    | change q =>
      obtain ⟨q1, q2, q3⟩ := h.path q hs
      obtain ⟨d1, d2, d3, d4⟩ := path_data q2
      have hq1 : 1 ≤ q.length := by
        obtain ⟨a, ch, i, more, e, _⟩ := q1
        rw [e]; simp
      refine ⟨fits_one rnd (by decide) (by omega) ?_, ?_⟩
      · have hv' : ValueFits (put o1) ⟨o1, false⟩ := by
          unfold ValueFits
          rw [hsum, hsum]
          have : p.own = p.value := by simp [Pay.own, hs, Script.isFee, Script.isChange]
          rw [this] at hv
          rw [ho1, hput]
          exact hv
        rw [hput] at hv' ⊢
        refine ⟨hD, _, _, rfl, ?_, ?_, ?_, ?_, ?_, by rw [ho1], hv'⟩
        · rw [d2]; exact hq1
        · rw [d2]; exact q2
        · rw [d3]
        · rw [d1]; exact q1
        · rw [d1]; exact q3
      · have e : ∀ data, (put o1).step (.cmd 0x18 data) =
            put { o1 with script := some (.change (pathOf data)) } := by
          intro data; rw [hput]; rfl
        rw [show scriptCmds rnd (.change q) =
          [⟨0x18, num 1 q.length ++ q.flatMap (fun c => num 4 c.toNat), rnd⟩] from rfl, after_one, e, d1,
          ho1, ho2, hs]
  -- tokens
  obtain ⟨o3, ho3⟩ : ∃ o3 : BoxDesc Nat, o3 = ⟨p.value, (scriptBytes env.keyOf p.script).length, p.height,
      p.tokens.length, p.regs.length, some p.script, p.tokens, []⟩ := ⟨_, rfl⟩
  have hdone3 : o3.scriptDone = true := by
    rw [ho3]
    rw [ho2] at hdone2
    exact hdone2
  have f3 : FitsAll env key (put o2) ((groups 20 p.tokens).map (fun l =>
        ⟨0x19, l.flatMap (fun t => num 4 t.1 ++ num 8 t.2), rnd⟩)) ∧
      (put o2).after ((groups 20 p.tokens).map (fun l =>
        ⟨0x19, l.flatMap (fun t => num 4 t.1 ++ num 8 t.2), rnd⟩)) = put o3 := by
    have hc := h.count
    by_cases hp : p.tokens = []
    · rw [hp, groups_nil]
      refine ⟨trivial, ?_⟩
      rw [ho2, ho3, hp]; rfl
    · rw [groups_cons (by decide) hp, List.take_of_length_le hc, List.drop_of_length_le hc, groups_nil]
      have hpos : 0 < p.tokens.length := List.length_pos_iff.2 hp
      have hb : ∀ t ∈ p.tokens, t.1 < 2 ^ 32 ∧ t.2 < 2 ^ 64 := fun t h1 =>
        ⟨by have := (h.tokens t h1).1; omega, (h.tokens t h1).2⟩
      obtain ⟨p1, p2⟩ := pieces_entries (w := 12) (by decide)
        (enc := fun t : Nat × Nat => num 4 t.1 ++ num 8 t.2) (dec := tok12) p.tokens
        (fun t h => (tok12_num (hb t h)).1) (fun t h => (tok12_num (hb t h)).2)
      refine ⟨fits_one rnd (by decide) (by omega) ?_, ?_⟩
      · rw [hput]
        refine ⟨hD, _, _, rfl, hdone2, ?_, ?_, ?_, ?_, ?_, ?_⟩
        · rw [ho2]; exact hpos
        · show List.length _ % 12 = 0
          omega
        · rw [ho2]
          show 0 + List.length _ / 12 ≤ p.tokens.length
          omega
        · intro t ht1
          rw [p1] at ht1
          have := (h.tokens t ht1).1
          show t.1 < D.nTok
          omega
        · rw [p1, ho2]
          exact h.repeats
        · intro id
          rw [p1, ho2]
          have := htok id
          simpa [TxDesc.tokOut, tokRefs_nil, TxDesc.tokIn] using this
      · have e : ∀ data, (put o2).step (.cmd 0x19 data) =
            put { o2 with tokens := o2.tokens ++ (pieces 12 data).map tok12 } := by
          intro data; rw [hput]; rfl
        rw [List.map_cons, List.map_nil, after_one, e, p1, ho2, ho3]
        rfl
  -- registers
  obtain ⟨v1, v2⟩ := regs_all p.regs o3 hdone3 (by rw [ho3]) (by rw [ho3]; simp)
  obtain ⟨b1, b2⟩ := sign_chunks (env := env) (key := key) (sub := 0x1A) (ok := RegsOk)
    (step := BoxDesc.addRegs) put (by decide)
    (fun o d h => by rw [hput]; exact ⟨hD, _, _, rfl, h⟩) (fun o d => by rw [hput]; rfl) rnd _ _ v1
  rw [v2] at b2
  have e : p.cmds env rnd = [⟨0x15, payHeader env p, rnd⟩] ++ (scriptCmds rnd p.script ++
      (groups 20 p.tokens).map (fun l => ⟨0x19, l.flatMap (fun t => num 4 t.1 ++ num 8 t.2), rnd⟩) ++
      (groups 255 p.regs).map (fun b => ⟨0x1A, b, rnd⟩)) := rfl
  have s1' : D.after [⟨0x15, payHeader env p, rnd⟩] = put o1 := s1
  rw [e]
  refine ⟨?_, ?_⟩
  · rw [fitsAll_append, s1', fitsAll_append, fitsAll_append, after_append, f2.2, f3.2]
    exact ⟨fits_one rnd (by decide) (by omega) f1, ⟨f2.1, f3.1⟩, b1⟩
  · rw [after_append, s1', after_append, after_append, f2.2, f3.2, b2, hput, ho3]
    rfl

theorem sumOut_pay {D : TxDesc} (p : Pay) (f : Script → Bool) :
    ({ D with outputs := ⟨p.desc env, false⟩ :: D.outputs } : TxDesc).sumOut f =
      (if f p.script then p.value else 0) + D.sumOut f := by
  simp [TxDesc.sumOut, Pay.desc]

theorem pay_own (p : Pay) :
    (if p.script.isFee then p.value else 0) + (if p.script.isChange then p.value else 0) = p.own := by
  unfold Pay.own
  cases p.script <;> simp [Script.isFee, Script.isChange]

/-- The commands of all outputs fit. -/
theorem pays_fit (rnd : Rnd) (ps : List Pay) : ∀ D : TxDesc, 0 < D.nIn → D.AllInputs →
    D.dataInputs.length = D.nData → D.table.length = D.nTok → D.nTok ≤ 20 →
    D.outputs.length + ps.length ≤ D.nOut →
    (∀ p ∈ ps, p.Within env D.table) →
    (ps.map Pay.own).sum + D.sumOut Script.isFee + D.sumOut Script.isChange ≤ D.sumIn →
    (∀ id, D.tokOut id + (ps.map (fun p => tokRefs D.table p.tokens id)).sum ≤ D.tokIn id + 2 ^ 63) →
    FitsAll env key D (ps.flatMap (Pay.cmds env rnd)) ∧
      D.after (ps.flatMap (Pay.cmds env rnd)) =
        { D with outputs := (ps.map (fun p => ⟨p.desc env, false⟩)).reverse ++ D.outputs } := by
  induction ps with
  | nil => intro D _ _ _ _ _ _ _ _ _; exact ⟨trivial, rfl⟩
  | cons p ps ih =>
    intro D hD hin hdata ht ht20 hl hw hv htok
    simp only [List.length_cons] at hl
    simp only [List.map_cons, List.sum_cons] at hv htok
    have hcnt : D.outputs.countP (·.box.complete) ≤ D.outputs.length := List.countP_le_length
    obtain ⟨f1, f2⟩ := pay_fits (key := key) (hw p (by simp)) hD hin hdata ht ht20 (by omega) (by omega)
      (fun id => by have := htok id; omega) rnd
    have hown := pay_own p
    obtain ⟨g1, g2⟩ := ih { D with outputs := ⟨p.desc env, false⟩ :: D.outputs } hD hin hdata ht ht20
      (by simp only [List.length_cons]; omega) (fun p h => hw p (by simp [h]))
      (by
        rw [sumOut_pay, sumOut_pay]
        show _ ≤ D.sumIn
        omega)
      (by
        intro id
        have h1 := htok id
        have h2 : TxDesc.tokOut { D with outputs := ⟨p.desc env, false⟩ :: D.outputs } id =
          tokRefs D.table p.tokens id + D.tokOut id := by simp [TxDesc.tokOut, Pay.desc]
        rw [h2]
        show _ ≤ D.tokIn id + 2 ^ 63
        show _ + (ps.map (fun p => tokRefs D.table p.tokens id)).sum ≤ _
        omega)
    rw [List.flatMap_cons, fitsAll_append, after_append, f2]
    refine ⟨⟨f1, g1⟩, ?_⟩
    rw [g2]; simp

/-! ## The whole transaction -/

/-- The transaction, as described to the device. -/
def Spec.WalletTx.desc (env : Env) (t : WalletTx) : TxDesc :=
  ⟨t.inputs.length, t.dataInputs.length, t.table.length, t.outputs.length, t.table,
    (t.inputs.map (Spend.desc env)).reverse, t.dataInputs,
    (t.outputs.map (fun p => ⟨p.desc env, false⟩)).reverse⟩

/-- The header of a transaction. -/
def txHeader (t : WalletTx) : Bytes :=
  num 2 t.inputs.length ++ num 2 t.dataInputs.length ++ num 1 t.table.length ++ num 2 t.outputs.length

theorem tx_header {t : WalletTx} (h : t.Within env) : field (txHeader t) 0 2 = t.inputs.length ∧
    field (txHeader t) 2 2 = t.dataInputs.length ∧ field (txHeader t) 4 1 = t.table.length ∧
    field (txHeader t) 5 2 = t.outputs.length ∧ (txHeader t).length = 7 := by
  refine ⟨?_, ?_, ?_, ?_, by simp [txHeader, num_length]⟩
  · rw [field_of (pre := []) (a := num 2 t.inputs.length) (post := num 2 t.dataInputs.length ++
      num 1 t.table.length ++ num 2 t.outputs.length) (by simp [txHeader]) (by rfl) (num_length _ _),
      be_num _ _ (by have := h.nIn; omega)]
  · rw [field_of (pre := num 2 t.inputs.length) (a := num 2 t.dataInputs.length) (post :=
      num 1 t.table.length ++ num 2 t.outputs.length) (by simp [txHeader]) (num_length _ _)
      (num_length _ _), be_num _ _ (by have := h.nData; omega)]
  · rw [field_of (pre := num 2 t.inputs.length ++ num 2 t.dataInputs.length) (a := num 1 t.table.length)
      (post := num 2 t.outputs.length) (by simp [txHeader]) (by simp [num_length]) (num_length _ _),
      be_num _ _ (by have := h.nTok; omega)]
  · rw [field_of (pre := num 2 t.inputs.length ++ num 2 t.dataInputs.length ++ num 1 t.table.length)
      (a := num 2 t.outputs.length) (post := []) (by simp [txHeader]) (by simp [num_length])
      (num_length _ _), be_num _ _ (by have := h.nOut; omega)]

theorem sum_reverse' (l : List Nat) : l.reverse.sum = l.sum := by simp

theorem tx_sums {t : WalletTx} (h : t.Within env) {nIn nData nTok nOut : Nat} {dis : List Bytes}
    {os : List OutDesc} :
    let D : TxDesc := ⟨nIn, nData, nTok, nOut, t.table, (t.inputs.map (Spend.desc env)).reverse, dis, os⟩
    SumsFit D ∧ D.sumIn = (t.inputs.map (·.coin.value)).sum ∧ ∀ id, D.tokIn id = t.tokIn id := by
  intro D
  have h1 : D.sumIn = (t.inputs.map (·.coin.value)).sum := by
    show ((t.inputs.map (Spend.desc env)).reverse.map (·.value)).sum = _
    rw [List.map_reverse, List.sum_reverse, List.map_map]
    rfl
  have h2 : ∀ id, D.tokIn id = t.tokIn id := by
    intro id
    show ((t.inputs.map (Spend.desc env)).reverse.map _).sum = _
    rw [List.map_reverse, List.sum_reverse, List.map_map]
    rfl
  refine ⟨⟨?_, ?_, ?_⟩, h1, h2⟩
  · rw [h1]; exact h.sumIn
  · intro id; rw [h2]; exact h.tokIn id
  · have hs : D.otherIds ⊆ ((t.inputs.flatMap (fun s => s.coin.tokens.map (·.1))).filter
        (· ∉ t.table)).dedup := by
      intro id hid
      unfold TxDesc.otherIds at hid
      rw [List.mem_dedup, List.mem_filter, List.mem_flatMap] at hid ⊢
      obtain ⟨⟨i, hi, hm⟩, hn⟩ := hid
      refine ⟨?_, hn⟩
      have hi : i ∈ (t.inputs.map (Spend.desc env)).reverse := hi
      rw [List.mem_reverse, List.mem_map] at hi
      obtain ⟨s, hs, rfl⟩ := hi
      exact ⟨s, hs, hm⟩
    have hle : D.otherIds.length ≤ _ := ((List.nodup_dedup _).subperm hs).length_le
    have := h.ids
    show t.table.length + D.otherIds.length ≤ 20
    omega

/-- The commands of a transaction fit, and describe it. -/
theorem tx_fits (hwf : env.WF) {t : WalletTx} (h : t.Within env) (rnd : Rnd) :
    FitsAll env key TxDesc.empty (t.cmds env key rnd) ∧
      TxDesc.empty.after (t.cmds env key rnd) = t.desc env := by
  obtain ⟨h1, h2, h3, h4, h5⟩ := tx_header h
  have hn := h.nIn
  -- header
  have s1 : TxDesc.empty.after [⟨0x10, txHeader t, rnd⟩] =
      ⟨t.inputs.length, t.dataInputs.length, t.table.length, t.outputs.length, [], [], [], []⟩ := by
    show TxDesc.mk (field (txHeader t) 0 2) (field (txHeader t) 2 2) (field (txHeader t) 4 1)
      (field (txHeader t) 5 2) _ _ _ _ = _
    rw [h1, h2, h3, h4]
    rfl
  have f1 : Fits env key TxDesc.empty 0x10 (txHeader t) := by
    refine ⟨rfl, h5, ?_, ?_, ?_⟩
    · rw [h1]; exact hn.1
    · rw [h4]; exact h.nOut.1
    · rw [h3]; exact h.nTok
  -- table
  obtain ⟨t1, t2⟩ := ids_all t.table t.table.length [] (by simp) h.table
  obtain ⟨a1, a2⟩ := sign_chunks (env := env) (key := key) (sub := 0x11) (ok := TableIdsOk t.table.length)
    (step := fun l d => l ++ pieces 32 d)
    (fun l => ⟨t.inputs.length, t.dataInputs.length, t.table.length, t.outputs.length, l, [], [], []⟩)
    (by decide) (fun l d h => ⟨hn.1, h⟩) (fun l d => rfl) rnd _ _ t1
  rw [t2, List.nil_append, List.map_map] at a2
  rw [List.map_map] at a1
  -- inputs
  obtain ⟨b1, b2⟩ := spends_fit (key := key) hwf rnd t.inputs
    ⟨t.inputs.length, t.dataInputs.length, t.table.length, t.outputs.length, t.table, [], [], []⟩
    hn.1 rfl (by simp) (by simp) (fun s hs => ⟨h.coins s hs, h.exts s hs⟩)
    (by simpa using (tx_sums h).1)
  rw [List.append_nil] at b2
  -- data inputs
  have hall : ∀ i ∈ (t.inputs.map (Spend.desc env)).reverse, i.complete = true := by
    intro i hi
    rw [List.mem_reverse, List.mem_map] at hi
    obtain ⟨s, _, rfl⟩ := hi
    simp [InDesc.complete, Spend.desc]
  have hlen : (t.inputs.map (Spend.desc env)).reverse.length = t.inputs.length := by simp
  obtain ⟨u1, u2⟩ := ids_all t.dataInputs t.dataInputs.length [] (by simp) h.dataIds
  obtain ⟨c1, c2⟩ := sign_chunks (env := env) (key := key) (sub := 0x14) (ok := TableIdsOk t.dataInputs.length)
    (step := fun l d => l ++ pieces 32 d)
    (fun l => ⟨t.inputs.length, t.dataInputs.length, t.table.length, t.outputs.length, t.table,
      (t.inputs.map (Spend.desc env)).reverse, l, []⟩)
    (by decide) (fun l d h => ⟨hn.1, ⟨hlen, hall⟩, h⟩) (fun l d => rfl) rnd _ _ u1
  rw [u2, List.nil_append, List.map_map] at c2
  rw [List.map_map] at c1
  -- outputs
  obtain ⟨_, e1, e2⟩ := tx_sums h (nIn := t.inputs.length) (nData := t.dataInputs.length)
    (nTok := t.table.length) (nOut := t.outputs.length) (dis := t.dataInputs) (os := [])
  obtain ⟨d1, d2⟩ := pays_fit (env := env) (key := key) rnd t.outputs
    ⟨t.inputs.length, t.dataInputs.length, t.table.length, t.outputs.length, t.table,
      (t.inputs.map (Spend.desc env)).reverse, t.dataInputs, []⟩ hn.1 ⟨hlen, hall⟩ rfl rfl h.nTok
    (by simp) h.outputs
    (by
      rw [e1]
      have this : (t.outputs.map Pay.own).sum ≤ _ := h.own
      simpa [TxDesc.sumOut] using this)
    (by
      intro id
      rw [e2 id]
      have this : (t.outputs.map (fun p => tokRefs t.table p.tokens id)).sum ≤ _ := h.tokOut id
      simpa [TxDesc.tokOut] using this)
  rw [List.append_nil] at d2
  have e : t.cmds env key rnd = [⟨0x10, txHeader t, rnd⟩] ++
      ((groups 7 t.table).map (fun l => ⟨0x11, l.flatten, rnd⟩) ++
      t.inputs.flatMap (Spend.cmds env key rnd) ++
      (groups 7 t.dataInputs).map (fun l => ⟨0x14, l.flatten, rnd⟩) ++
      t.outputs.flatMap (Pay.cmds env rnd)) := rfl
  have a2' : TxDesc.after ⟨t.inputs.length, t.dataInputs.length, t.table.length, t.outputs.length, [],
      [], [], []⟩ ((groups 7 t.table).map (fun l => ⟨0x11, l.flatten, rnd⟩)) = _ := a2
  have b2' : TxDesc.after ⟨t.inputs.length, t.dataInputs.length, t.table.length, t.outputs.length,
      t.table, [], [], []⟩ (t.inputs.flatMap (Spend.cmds env key rnd)) = ⟨t.inputs.length,
      t.dataInputs.length, t.table.length, t.outputs.length, t.table,
      (t.inputs.map (Spend.desc env)).reverse, [], []⟩ := b2
  have c2' : TxDesc.after ⟨t.inputs.length, t.dataInputs.length, t.table.length, t.outputs.length,
      t.table, (t.inputs.map (Spend.desc env)).reverse, [], []⟩
      ((groups 7 t.dataInputs).map (fun l => ⟨0x14, l.flatten, rnd⟩)) = _ := c2
  rw [e]
  refine ⟨?_, ?_⟩
  · simp only [fitsAll_append, after_append, s1, a2', b2', c2']
    exact ⟨fits_one rnd (by decide) (by omega) f1, ⟨⟨a1, b1⟩, c1⟩, d1⟩
  · rw [after_append, s1, after_append, after_append, after_append, a2', b2', c2', d2]
    rfl

/-- The description is whole, and its serialization is the transaction. -/
theorem tx_whole {t : WalletTx} (h : t.Within env) :
    Whole (t.desc env) ∧ txBytesSoFar env.keyOf (t.desc env) = t.bytes env := by
  refine ⟨⟨h.nIn.1, ?_⟩, ?_⟩
  · show ((t.outputs.map (fun p => (⟨p.desc env, false⟩ : OutDesc))).reverse).countP _ = t.outputs.length
    rw [List.countP_reverse, List.countP_map, List.countP_eq_length]
    intro p _
    exact (pay_done p).1
  · unfold txBytesSoFar WalletTx.bytes WalletTx.desc
    simp only [List.reverse_reverse, List.flatMap_map]
    congr 1
    · congr 7
      funext s
      simp [inputBytes, Spend.desc, Spend.bytes]
    · congr 1
      funext p
      exact pay_bytes p

end Ergo
