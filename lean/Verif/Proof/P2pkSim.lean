import Verif.Proof.FullOut
import Verif.Proof.AttSim
/-!
# The signing operation follows the description of the transaction
-/
namespace Ergo
open Spec

/-! ## Reading of the commands -/

theorem parseStart_ok {d : Bytes} {ni nd no : UInt16} {nt : UInt8}
    (h : parseStart d = .ok (ni, nd, nt, no)) :
    d.length = 7 ∧ field d 0 2 = ni.toNat ∧ field d 2 2 = nd.toNat ∧ field d 4 1 = nt.toNat ∧
      field d 5 2 = no.toNat := by
  unfold parseStart at h
  split at h
  · simp at h
  rename_i v1 d1 h1
  split at h
  · simp at h
  rename_i v2 d2 h2
  split at h
  · simp at h
  rename_i v3 d3 h3
  split at h
  · simp at h
  rename_i v4 d4 h4
  split at h
  · simp at h
  rename_i he
  simp only [ne_eq, Decidable.not_not] at he
  simp only [Except.ok.injEq, Prod.mk.injEq] at h
  obtain ⟨rfl, rfl, rfl, rfl⟩ := h
  have e := bufU16_some h1
  rw [bufU16_some h2, bufU8_some h3, bufU16_some h4, he] at e
  have l1 := length_writeU16 v1
  have l2 := length_writeU16 v2
  have l4 := length_writeU16 v4
  refine ⟨by rw [e]; simp [l1, l2, l4], ?_, ?_, ?_, ?_⟩
  · rw [field_of (d := d) (pre := []) (a := writeU16be v1) (post := writeU16be v2 ++ v3 :: (writeU16be v4))
      (by rw [e]; simp) (by rfl) l1, be_writeU16]
  · rw [field_of (d := d) (pre := writeU16be v1) (a := writeU16be v2) (post := v3 :: (writeU16be v4))
      (by rw [e]; simp) l1 l2, be_writeU16]
  · rw [field_of (d := d) (pre := writeU16be v1 ++ writeU16be v2) (a := [v3]) (post := writeU16be v4)
      (by rw [e]; simp) (by simp [l1, l2]) (by rfl), be_one]
  · rw [field_of (d := d) (pre := writeU16be v1 ++ writeU16be v2 ++ [v3]) (a := writeU16be v4) (post := [])
      (by rw [e]; simp) (by simp [l1, l2]) l4, be_writeU16]

theorem parseOutput_ok {d : Bytes} {v : UInt64} {ts ht rg : UInt32} {nt : UInt8}
    (h : parseOutput d = .ok (v, ts, ht, nt, rg)) :
    d.length = 21 ∧ outHeader d = ⟨v.toNat, ts.toNat, ht.toNat, nt.toNat, rg.toNat, none, [], []⟩ := by
  unfold parseOutput at h
  split at h
  · simp at h
  rename_i v1 d1 h1
  split at h
  · simp at h
  rename_i v2 d2 h2
  split at h
  · simp at h
  rename_i v3 d3 h3
  split at h
  · simp at h
  rename_i v4 d4 h4
  split at h
  · simp at h
  rename_i v5 d5 h5
  split at h
  · simp at h
  rename_i he
  simp only [ne_eq, Decidable.not_not] at he
  simp only [Except.ok.injEq, Prod.mk.injEq] at h
  obtain ⟨rfl, rfl, rfl, rfl, rfl⟩ := h
  have e := bufU64_some h1
  rw [bufU32_some h2, bufU32_some h3, bufU8_some h4, bufU32_some h5, he] at e
  have l1 := length_writeU64 v1
  have l2 := length_writeU32 v2
  have l3 := length_writeU32 v3
  have l5 := length_writeU32 v5
  refine ⟨by rw [e]; simp [l1, l2, l3, l5], ?_⟩
  unfold outHeader
  rw [field_of (off := 0) (len := 8) (pre := []) (a := writeU64be v1)
      (post := writeU32be v2 ++ (writeU32be v3 ++ v4 :: writeU32be v5))
      (by rw [e]; simp) (by rfl) l1, be_writeU64,
    field_of (off := 8) (len := 4) (pre := writeU64be v1) (a := writeU32be v2)
      (post := writeU32be v3 ++ v4 :: writeU32be v5) (by rw [e]; simp) l1 l2, be_writeU32,
    field_of (off := 12) (len := 4) (pre := writeU64be v1 ++ writeU32be v2) (a := writeU32be v3)
      (post := v4 :: writeU32be v5) (by rw [e]; simp) (by simp [l1, l2]) l3, be_writeU32,
    field_of (off := 16) (len := 1) (pre := writeU64be v1 ++ writeU32be v2 ++ writeU32be v3)
      (a := [v4]) (post := writeU32be v5) (by rw [e]; simp) (by simp [l1, l2, l3]) (by rfl), be_one,
    field_of (off := 17) (len := 4)
      (pre := writeU64be v1 ++ writeU32be v2 ++ writeU32be v3 ++ [v4]) (a := writeU32be v5)
      (post := []) (by rw [e]; simp) (by simp [l1, l2, l3]) l5, be_writeU32]

theorem mul40 (n : UInt8) : (n * 40).toNat = 40 * n.toNat % 256 := by
  rw [UInt8.toNat_mul]
  show n.toNat * 40 % 256 = _
  rw [Nat.mul_comm]

/-- The fields of a frame, in terms of the specification. -/
theorem frameParse_fields {d : Bytes} {f : Frame} (h : frameParse d = some f) :
    d.take 32 = f.boxId ∧ field d 32 1 = f.count.toNat ∧ field d 33 1 = f.index.toNat ∧
    field d 34 8 = f.value.toNat ∧ frameToks d = (pieces 40 f.tokens).map tok40 ∧
    (∀ e, f.ext = some e → f.index = 0 ∧
      field d (43 + 40 * field d 42 1 % 256 + 16) 4 = e.toNat) ∧
    (f.ext = none → f.index ≠ 0) ∧ 59 + 40 * field d 42 1 % 256 ≤ d.length := by
  obtain ⟨n, rest, e, l1, lt, l16, h0, h1⟩ := frameParse_some h
  have l2 := length_writeU64 f.value
  have hn : field d 42 1 = n.toNat := by
    rw [field_of (d := d) (pre := f.boxId ++ [f.count, f.index] ++ writeU64be f.value) (a := [n])
      (post := f.tokens ++ rest) (by rw [e]; simp) (by simp [l1, l2]) (by rfl), be_one]
  have hd : d.drop 43 = f.tokens ++ rest := by
    have : (f.boxId ++ ([f.count, f.index] ++ (writeU64be f.value ++ [n]))).length = 43 := by
      simp [l1, l2]
    rw [e, ← this]
    rw [show f.boxId ++ ([f.count, f.index] ++ (writeU64be f.value ++ ([n] ++ (f.tokens ++ rest)))) =
      (f.boxId ++ ([f.count, f.index] ++ (writeU64be f.value ++ [n]))) ++ (f.tokens ++ rest) by simp]
    rw [List.drop_left]
  have hlen : d.length = 43 + f.tokens.length + rest.length := by
    have := congrArg List.length e
    simp only [List.length_append, l1, l2, List.length_cons, List.length_nil] at this
    omega
  rw [mul40] at lt
  refine ⟨?_, ?_, ?_, ?_, ?_, ?_, ?_, ?_⟩
  · rw [e, ← l1, List.take_left]
  · rw [field_of (d := d) (pre := f.boxId) (a := [f.count])
      (post := f.index :: (writeU64be f.value ++ ([n] ++ (f.tokens ++ rest))))
      (by rw [e]; simp) l1 (by rfl), be_one]
  · rw [field_of (d := d) (pre := f.boxId ++ [f.count]) (a := [f.index])
      (post := writeU64be f.value ++ ([n] ++ (f.tokens ++ rest)))
      (by rw [e]; simp) (by simp [l1]) (by rfl), be_one]
  · rw [field_of (d := d) (pre := f.boxId ++ [f.count, f.index]) (a := writeU64be f.value)
      (post := [n] ++ (f.tokens ++ rest)) (by rw [e]; simp) (by simp [l1]) l2, be_writeU64]
  · unfold frameToks
    rw [hn, hd, ← lt, List.take_left]
  · intro ex hex
    have hi : f.index = 0 := by
      by_contra hc
      rw [h1 hc] at hex; simp at hex
    obtain ⟨e', r, he', hr⟩ := h0 hi
    rw [he'] at hex
    simp only [Option.some.injEq] at hex
    subst hex
    refine ⟨hi, ?_⟩
    unfold field at hn ⊢
    rw [hn, ← lt, show 43 + f.tokens.length + 16 = 43 + (f.tokens.length + 16) by omega,
      ← List.drop_drop, hd, ← List.drop_drop, List.drop_left, hr]
    have := length_writeU32 e'
    rw [← this, List.take_left, be_writeU32]
  · intro he hi
    obtain ⟨e', _, he', _⟩ := h0 hi
    rw [he'] at he; simp at he
  · rw [hn, hlen]; omega

/-! ## The relation -/

/-- The state of the operation against the serializer and the description. -/
def StateRel (st : P2pkState) (c : FullCtx) (D : TxDesc) : Prop :=
  match st with
  | .initialized => False
  | .txStarted => D.inputs = [] ∧ D.outputs = []
  | .inputsStarted => D.inputs ≠ [] ∧ D.outputs = []
  | .outputsStarted => D.outputs ≠ [] ∧ c.state = .outputsStarted
  | .txFinished => D.outputs ≠ [] ∧ c.state = .finished
  | .finalized => False

/-- The info of the newest output. -/
def NewestRel (env : Env) (table : List Bytes) (out : Option OutInfo) (D : TxDesc) : Prop :=
  match D.outputs with
  | [] => out = none
  | o :: _ => ∃ oi, out = some oi ∧ OutRel env table D.table oi o.box

/-- The token ids in the inputs, in the order in which they were sent. -/
def inIds (D : TxDesc) : List Bytes := D.inputs.reverse.flatMap (fun i => i.tokens.map (·.1))

/-- The transaction context matches the description. -/
structure TxSim (env : Env) (h0 : Bytes) (st : P2pkState) (hash : Bytes) (a : Amounts) (t : TxData)
    (D : TxDesc) : Prop where
  full : FullRel env.keyOf h0 ⟨t.tx, hash, ⟨a, t.out.getD (.init 0)⟩⟩ D
  out : NewestRel env a.table t.out D
  state : StateRel st t.tx D
  refs : ∀ o ∈ D.outputs, ∀ r ∈ o.box.tokens, r.1 < D.table.length
  paths : ∀ o ∈ D.outputs, ∀ p, o.box.script = some (.change p) → pathValidate p .addressGe5 ∧ p.length ≤ 10
  appr : ∀ o ∈ D.outputs, o.approved = true → o.box.complete = true
  change : t.lastChange = [] ∨ ∃ o, D.outputs.find? (·.approved) = some o ∧
    o.box.script = some (.change t.lastChange)
  tab : TableGrows D.table (inIds D) a.table
  sum : D.sumIn < 2 ^ 64

/-- The operation matches the description; `h0` is what was hashed when the session started. -/
def PRel (env : Env) (h0 : Bytes) (p : P2pk) (D : TxDesc) : Prop :=
  match p.state with
  | .initialized => p.hash = h0 ∧ p.amounts = .zero ∧ D = .empty
  | .finalized => ∃ t, TxSim env h0 .txFinished p.hash p.amounts t D
  | st => ∃ t, p.u = .transaction t ∧ TxSim env h0 st p.hash p.amounts t D

variable {env : Env} {h0 : Bytes} {p p' : P2pk} {D : TxDesc} {data : Bytes}

theorem FullRel.setOut {keyOf : List UInt32 → Bytes} {c : FullCtx} {h : Bytes} {a : Amounts}
    {o o' : OutInfo} (hR : FullRel keyOf h0 ⟨c, h, ⟨a, o⟩⟩ D) :
    FullRel keyOf h0 ⟨c, h, ⟨a, o'⟩⟩ D :=
  ⟨hR.nIn, hR.nOut, hR.nTok, hR.distinct, hR.amt, hR.phase⟩

theorem withTx_ok {f : FullSt → FullSt × Res FullErr} {t : TxData} (hu : p.u = .transaction t)
    (h : p.withTx f = .ok p') : ∃ x r, f ⟨t.tx, p.hash, ⟨p.amounts, t.out.getD (.init 0)⟩⟩ = (x, r) ∧
      r.passes ∧ p' = { p with
        hash := x.h, amounts := x.s.a, u := .transaction { t with tx := x.c } } := by
  unfold P2pk.withTx at h
  rw [hu] at h
  simp only at h
  split at h
  · rename_i x hx
    simp only [OpRes.ok.injEq] at h
    exact ⟨x, .ok, hx, rfl, h.symm⟩
  · rename_i x hx
    simp only [OpRes.ok.injEq] at h
    exact ⟨x, .more, hx, rfl, h.symm⟩
  · simp at h
  · simp at h

theorem withTx_noub {f : FullSt → FullSt × Res FullErr} {t : TxData} (hu : p.u = .transaction t)
    (hf : (f ⟨t.tx, p.hash, ⟨p.amounts, t.out.getD (.init 0)⟩⟩).2 ≠ .ub) : p.withTx f ≠ .ub := by
  unfold P2pk.withTx
  rw [hu]
  simp only
  split
  · simp
  · simp
  · simp
  · rename_i he; rw [he] at hf; simp at hf

theorem PRel.tx (h : PRel env h0 p D) (h1 : p.state ≠ .initialized) (h2 : p.state ≠ .finalized) :
    ∃ t, p.u = .transaction t ∧ TxSim env h0 p.state p.hash p.amounts t D := by
  unfold PRel at h
  split at h
  · rename_i he; exact absurd he h1
  · rename_i he; exact absurd he h2
  · exact h

theorem prel_of {t : TxData} (h1 : p.state ≠ .initialized) (h2 : p.state ≠ .finalized)
    (hu : p.u = .transaction t) (h : TxSim env h0 p.state p.hash p.amounts t D) :
    PRel env h0 p D := by
  unfold PRel
  split
  · rename_i he; exact absurd he h1
  · rename_i he; exact absurd he h2
  · exact ⟨t, hu, h⟩

/-! ## The steps -/

theorem step_tokens : D.step (.cmd 0x11 data) = { D with table := D.table ++ pieces 32 data } := rfl
theorem step_ext : D.step (.cmd 0x13 data) = D.onInput (fun i => { i with ext := i.ext ++ data }) :=
  rfl
theorem step_output : D.step (.cmd 0x15 data) =
    { D with outputs := ⟨outHeader data, false⟩ :: D.outputs } := rfl
theorem step_tree : D.step (.cmd 0x16 data) = D.onOutput (fun o => o.addTree data) := rfl
theorem step_fee : D.step (.cmd 0x17 data) =
    D.onOutput (fun o => { o with script := some .fee }) := rfl
theorem step_change : D.step (.cmd 0x18 data) =
    D.onOutput (fun o => { o with script := some (.change (pathOf data)) }) := rfl
theorem step_outTokens : D.step (.cmd 0x19 data) =
    D.onOutput (fun o => { o with tokens := o.tokens ++ (pieces 12 data).map tok12 }) := rfl
theorem step_regs : D.step (.cmd 0x1A data) =
    D.onOutput (fun o => { o with regs := o.regs ++ data }) := rfl
theorem onOutput_cons {o : OutDesc} {os : List OutDesc} {f : BoxDesc Nat → BoxDesc Nat}
    (h : D.outputs = o :: os) :
    D.onOutput f = { D with outputs := { o with box := f o.box } :: os } := by
  unfold TxDesc.onOutput; rw [h]
theorem onInput_outputs {f : InDesc → InDesc} :
    (D.onInput f).outputs = D.outputs ∧ (D.onInput f).table = D.table := by
  unfold TxDesc.onInput; split <;> exact ⟨rfl, rfl⟩

theorem opStart_rel (hR : PRel env h0 p D) (h : opStart p data = .ok p') :
    p.state = .initialized ∧ PRel env h0 p' (D.step (.cmd 0x10 data)) := by
  unfold opStart at h
  split at h
  · simp at h
  rename_i ni nd nt no hpar
  obtain ⟨_, f1, f2, f3, f4⟩ := parseStart_ok hpar
  unfold P2pk.startTx at h
  split at h
  · simp at h
  rename_i hst
  simp only [ne_eq, Decidable.not_not] at hst
  unfold PRel at hR
  rw [hst] at hR
  simp only at hR
  obtain ⟨hh, ha, hD⟩ := hR
  rw [ha, hh] at h
  obtain ⟨c, h', r, hi⟩ : ∃ c h' r, fullInit ni nd no nt Amounts.zero.table h0 = (c, h', r) :=
    ⟨_, _, _, rfl⟩
  rw [hi] at h
  have hrp : r.passes := by
    cases r with
    | ok => rfl
    | more => rfl
    | err e => simp at h
    | ub => simp at h
  obtain ⟨hr, hF⟩ := fullInit_rel (keyOf := env.keyOf) (.init 0) hi hrp
  subst hr
  simp only [OpRes.ok.injEq] at h
  subst h
  refine ⟨hst, prel_of (t := ⟨c, none, []⟩) (by simp) (by simp) rfl ?_⟩
  simp only [TxDesc.step, if_true, f1, f2, f3, f4]
  refine ⟨hF, rfl, ⟨rfl, rfl⟩, ?_, ?_, ?_, .inl rfl, TableGrows.refl _, by simp [TxDesc.sumIn, TxDesc.empty]⟩
  · simp [TxDesc.empty]
  · simp [TxDesc.empty]
  · simp [TxDesc.empty]

theorem addTokens_rel' (hR : PRel env h0 p D) (h : p.addTokens data = .ok p') :
    (∃ k, data.length = k * 32) ∧ PRel env h0 p' (D.step (.cmd 0x11 data)) := by
  unfold P2pk.addTokens at h
  split at h
  · simp at h
  rename_i hst
  simp only [ne_eq, Decidable.not_not] at hst
  obtain ⟨t, hu, hT⟩ := hR.tx (by rw [hst]; simp) (by rw [hst]; simp)
  obtain ⟨x, r, hf, hp, rfl⟩ := withTx_ok hu h
  obtain ⟨hk, ho, _, htab, hF⟩ := addTokens_full hT.full hf hp
  rw [hst] at hT
  obtain ⟨s1, s2⟩ := hT.state
  refine ⟨hk, prel_of (t := { t with tx := x.c }) (by simp [hst]) (by simp [hst]) rfl ?_⟩
  simp only [hst]
  have hout := hT.out
  unfold NewestRel at hout
  rw [s2] at hout
  refine ⟨?_, ?_, ⟨s1, s2⟩, ?_, ?_, ?_, ?_, ?_, hT.sum⟩
  · exact FullRel.setOut (o := x.s.o) hF
  · simp only [NewestRel, step_tokens, s2]
    exact hout
  · simp [TxDesc.step, s2]
  · simp [TxDesc.step, s2]
  · simp [TxDesc.step, s2]
  · have := hT.change
    simpa [TxDesc.step] using this
  · simp only [step_tokens, htab, inIds, s1]
    exact TableGrows.refl _

theorem TxSim.onInputs {st : P2pkState} {hash hash' : Bytes} {a a' : Amounts} {t : TxData}
    {c' : FullCtx} {o : OutInfo} {D' : TxDesc} (hT : TxSim env h0 st hash a t D)
    (hst : D.outputs = []) (hF : FullRel env.keyOf h0 ⟨c', hash', ⟨a', o⟩⟩ D')
    (hout : D'.outputs = D.outputs) (hin : D'.inputs ≠ [])
    (htab : TableGrows D'.table (inIds D') a'.table) :
    TxSim env h0 .inputsStarted hash' a' { t with tx := c' } D' := by
  have ho := hT.out
  unfold NewestRel at ho
  rw [hst] at ho
  have hst' : D'.outputs = [] := by rw [hout, hst]
  have hsum : D'.sumIn < 2 ^ 64 := by
    have := hF.amt.value
    rw [sumOut_nil _ hst', sumOut_nil _ hst'] at this
    have := a'.value.toNat_lt
    simp only at *
    omega
  refine ⟨hF.setOut, ?_, ⟨hin, hst'⟩, ?_, ?_, ?_, ?_, htab, hsum⟩
  · simp only [NewestRel, hst']; exact ho
  · simp [hst']
  · simp [hst']
  · simp [hst']
  · have := hT.change
    rw [hst] at this
    rw [hst']
    exact this

theorem addInputTokens_rel {boxId tokens : Bytes} {index : UInt8} (hR : PRel env h0 p D)
    (h : p.addInputTokens boxId index tokens = .ok p') :
    (∃ i is, D.inputs = i :: is ∧ i.boxId = boxId ∧ i.got = index.toNat ∧ index.toNat < i.frames) ∧
    (∃ k, tokens.length = k * 40) ∧
    PRel env h0 p' (D.onInput (fun i =>
      { i with got := i.got + 1, tokens := i.tokens ++ (pieces 40 tokens).map tok40 })) := by
  unfold P2pk.addInputTokens at h
  split at h
  · simp at h
  rename_i hst
  simp only [ne_eq, Decidable.not_not] at hst
  obtain ⟨t, hu, hT⟩ := hR.tx (by rw [hst]; simp) (by rw [hst]; simp)
  obtain ⟨x, r, hf, hp, rfl⟩ := withTx_ok hu h
  obtain ⟨hi, ho, hk, hg, hF⟩ := addInputTokens_full hT.full hf hp
  rw [hst] at hT
  refine ⟨hi, hk, prel_of (t := { t with tx := x.c }) (by simp [hst]) (by simp [hst]) rfl ?_⟩
  simp only [hst]
  refine hT.onInputs hT.state.2 (o := x.s.o) hF ?_ ?_ ?_
  · unfold TxDesc.onInput; split <;> rfl
  · obtain ⟨i, is, hD, _⟩ := hi
    simp [TxDesc.onInput, hD]
  · obtain ⟨i, is, hD, _⟩ := hi
    have htab := hT.tab
    simp only [TxDesc.onInput, hD, inIds, List.reverse_cons, List.flatMap_append, List.flatMap_cons,
      List.flatMap_nil, List.append_nil, List.map_append, List.map_map] at htab ⊢
    rw [← List.append_assoc]
    exact htab.trans hg

theorem addInput_rel {boxId : Bytes} {v : UInt64} {n : UInt8} {ext : UInt32}
    (hR : PRel env h0 p D) (h : p.addInput boxId v n ext = .ok p') :
    PRel env h0 p' { D with
      inputs := ⟨boxId, v.toNat, n.toNat, 0, [], ext.toNat, []⟩ :: D.inputs } := by
  unfold P2pk.addInput at h
  split at h
  · simp at h
  rename_i hst
  split at h
  · rename_i q hw
    obtain ⟨t, hu, hT⟩ := hR.tx (by intro he; rw [he] at hst; simp at hst)
      (by intro he; rw [he] at hst; simp at hst)
    obtain ⟨x, r, hf, hp, rfl⟩ := withTx_ok hu hw
    simp only at h
    split at h
    · simp at h
    rename_i a ha
    obtain ⟨hs, hF⟩ := addInput_full hT.full hf hp ha
    simp only [OpRes.ok.injEq] at h
    subst h
    refine prel_of (t := { t with tx := x.c }) (by simp) (by simp) rfl ?_
    have hno : D.outputs = [] := by
      have hs := hT.state
      unfold StateRel at hs
      split at hs
      · exact hs.elim
      · exact hs.2
      · exact hs.2
      · rename_i he; rw [he] at hst; simp at hst
      · rename_i he; rw [he] at hst; simp at hst
      · exact hs.elim
    refine hT.onInputs hno (o := x.s.o) hF rfl (by simp) ?_
    have htab := hT.tab
    have : a.table = p.amounts.table := by
      unfold Amounts.addInput at ha
      split at ha
      · simp at ha
      · simp only [Option.some.injEq] at ha
        rw [← ha]
        exact congrArg (fun s => s.a.table) hs
    rw [this]
    simpa [inIds] using htab
  · rename_i hn
    exact absurd h (by intro he; exact hn _ he)

/-- An accepted frame: authenticated, and added to the description. -/
theorem opFrame_rel {key : Bytes} (hR : PRel env h0 p D) (h : opFrame env key p data = .ok p') :
    PRel env h0 p' (D.frame data) := by
  unfold opFrame at h
  simp only at h
  split at h
  · simp at h
  split at h
  · simp at h
  split at h
  · simp at h
  rename_i f hf
  obtain ⟨e1, e2, e3, e4, e5, e6, e7, _⟩ := frameParse_fields hf
  split at h
  · rename_i hext
    obtain ⟨_, _, hP⟩ := addInputTokens_rel hR h
    have hne := e7 hext
    have : ¬ field data 33 1 = 0 := by
      rw [e3]; intro he; exact hne (u8_eq_zero.2 he)
    unfold TxDesc.frame
    rw [if_neg this, e5]
    exact hP
  · rename_i ext hext
    obtain ⟨hi, hex⟩ := e6 ext hext
    split at h
    · rename_i q hq
      have hq' := addInput_rel hR hq
      obtain ⟨_, _, hP⟩ := addInputTokens_rel hq' h
      unfold TxDesc.frame
      rw [if_pos (by rw [e3, hi]; rfl), e1, e2, e4, e5, hex]
      simpa [TxDesc.onInput] using hP
    · rename_i hn
      exact absurd h (by intro he; exact hn _ he)

theorem addExtension_rel (hR : PRel env h0 p D) (h : p.addExtension data = .ok p') :
    PRel env h0 p' (D.step (.cmd 0x13 data)) := by
  unfold P2pk.addExtension at h
  split at h
  · simp at h
  rename_i hst
  simp only [ne_eq, Decidable.not_not] at hst
  obtain ⟨t, hu, hT⟩ := hR.tx (by rw [hst]; simp) (by rw [hst]; simp)
  obtain ⟨x, r, hf, hp, rfl⟩ := withTx_ok hu h
  obtain ⟨hi, hF⟩ := addInputExtension_full hT.full hf hp
  rw [hst] at hT
  refine prel_of (t := { t with tx := x.c }) (by simp [hst]) (by simp [hst]) rfl ?_
  simp only [hst]
  refine hT.onInputs hT.state.2 (o := x.s.o) hF ?_ ?_ ?_
  · exact onInput_outputs.1
  · have := hT.state.1
    simp only [step_ext, TxDesc.onInput]
    split
    · exact this
    · simp
  · rw [hi]
    have htab := hT.tab
    simp only [step_ext, TxDesc.onInput, inIds] at htab ⊢
    split
    · exact htab
    · rename_i hD
      rw [hD] at htab
      simpa using htab

theorem addDataInputs_rel (hR : PRel env h0 p D) (h : p.addDataInputs data = .ok p') :
    (∃ k, data.length = k * 32) ∧ PRel env h0 p' (D.step (.cmd 0x14 data)) := by
  unfold P2pk.addDataInputs at h
  split at h
  · simp at h
  rename_i hst
  simp only [ne_eq, Decidable.not_not] at hst
  obtain ⟨t, hu, hT⟩ := hR.tx (by rw [hst]; simp) (by rw [hst]; simp)
  obtain ⟨x, r, hf, hp, rfl⟩ := withTx_ok hu h
  obtain ⟨hi, hk, hF⟩ := addDataInputs_full hT.full hf hp
  rw [hst] at hT
  refine ⟨hk, prel_of (t := { t with tx := x.c }) (by simp [hst]) (by simp [hst]) rfl ?_⟩
  simp only [hst]
  refine hT.onInputs hT.state.2 (o := x.s.o) hF rfl hT.state.1 ?_
  rw [hi]
  exact hT.tab

theorem opOutput_rel (hR : PRel env h0 p D) (h : opOutput p data = .ok p') :
    PRel env h0 p' (D.step (.cmd 0x15 data)) := by
  unfold opOutput at h
  split at h
  · simp at h
  rename_i v ts ht nt rg hpar
  obtain ⟨_, hhead⟩ := parseOutput_ok hpar
  unfold P2pk.addOutput at h
  split at h
  · simp at h
  rename_i hst
  split at h
  · rename_i q hw
    obtain ⟨t, hu, hT⟩ := hR.tx (by intro he; rw [he] at hst; simp at hst)
      (by intro he; rw [he] at hst; simp at hst)
    obtain ⟨x, r, hf, hp, rfl⟩ := withTx_ok hu hw
    simp only [OpRes.ok.injEq] at h
    subst h
    obtain ⟨hs, hxs, hF⟩ := addBox_full hT.full hf hp
    refine prel_of (t := { t with tx := x.c, out := some (.init v) }) (by simp) (by simp) rfl ?_
    have hstep : D.step (.cmd 0x15 data) = { D with outputs := ⟨⟨v.toNat, ts.toNat, ht.toNat, nt.toNat, rg.toNat, none, [], []⟩, false⟩ :: D.outputs } := by
      rw [step_output, hhead]
    rw [hstep]
    refine ⟨hF.setOut (o := x.s.o), ?_, ⟨by simp, hxs⟩, ?_, ?_, ?_, ?_, ?_, hT.sum⟩
    · refine ⟨_, rfl, rfl, ?_, ?_, ?_, trivial⟩
      · exact TokRel.init _
      · rfl
      · exact ⟨rfl, rfl⟩
    · intro o ho
      simp only [List.mem_cons] at ho
      rcases ho with rfl | ho
      · simp
      · exact hT.refs o ho
    · intro o ho
      simp only [List.mem_cons] at ho
      rcases ho with rfl | ho
      · simp
      · exact hT.paths o ho
    · intro o ho
      simp only [List.mem_cons] at ho
      rcases ho with rfl | ho
      · simp
      · exact hT.appr o ho
    · rcases hT.change with hc | ⟨o, ho, hc⟩
      · exact .inl hc
      · exact .inr ⟨o, by simpa using ho, hc⟩
    · rw [hs]; exact hT.tab
  · rename_i hn
    exact absurd h (by intro he; exact hn _ he)

/-! ## Parts of the newest output -/

theorem withOut_ok {f : FullSt → FullSt × Res FullErr} {g : OutInfo → Bool → OutRes}
    (hR : PRel env h0 p D) (h : p.withOut f g = .ok p') :
    ∃ t oi o os x r q, p.state = .outputsStarted ∧ p.u = .transaction t ∧ t.out = some oi ∧
      D.outputs = o :: os ∧ TxSim env h0 .outputsStarted p.hash p.amounts t D ∧
      FullRel env.keyOf h0 ⟨t.tx, p.hash, ⟨p.amounts, oi⟩⟩ D ∧
      OutRel env p.amounts.table D.table oi o.box ∧
      f ⟨t.tx, p.hash, ⟨p.amounts, oi⟩⟩ = (x, r) ∧ r.passes ∧ g x.s.o (r = .ok) = .ok q ∧
      p' = { p with
        hash := x.h
        amounts := x.s.a
        state := p.checkFinished x.c
        u := .transaction { t with tx := x.c, out := some q } } := by
  unfold P2pk.withOut at h
  split at h
  · simp at h
  rename_i hst
  simp only [ne_eq, Decidable.not_not] at hst
  obtain ⟨t, hu, hT⟩ := hR.tx (by rw [hst]; simp) (by rw [hst]; simp)
  rw [hst] at hT
  rw [hu] at h
  simp only at h
  obtain ⟨hne, _⟩ := hT.state
  have hout := hT.out
  unfold NewestRel at hout
  cases hD : D.outputs with
  | nil => exact absurd hD hne
  | cons o os =>
    rw [hD] at hout
    obtain ⟨oi, hoi, hO⟩ := hout
    rw [hoi] at h
    simp only at h
    obtain ⟨x, r, hf⟩ : ∃ x r, f ⟨t.tx, p.hash, ⟨p.amounts, oi⟩⟩ = (x, r) := ⟨_, _, rfl⟩
    rw [hf] at h
    have hrp : r.passes := by
      cases r with
      | ok => rfl
      | more => rfl
      | err e => simp at h
      | ub => simp at h
    have hF := hT.full
    rw [hoi] at hF
    have key : ∃ q, g x.s.o (r = .ok) = .ok q ∧ OpRes.ok { p with
        hash := x.h
        amounts := x.s.a
        state := p.checkFinished x.c
        u := .transaction { t with tx := x.c, out := some q } } = .ok p' := by
      cases r with
      | ok =>
        simp only at h ⊢
        split at h
        · simp at h
        · simp at h
        · rename_i q hq; exact ⟨q, hq, h⟩
      | more =>
        simp only at h ⊢
        split at h
        · simp at h
        · simp at h
        · rename_i q hq; exact ⟨q, hq, h⟩
      | err e => simp at h
      | ub => simp at h
    obtain ⟨q, hq, hp'⟩ := key
    simp only [OpRes.ok.injEq] at hp'
    exact ⟨t, oi, o, os, x, r, q, hst, hu, hoi, rfl, hT, hF, hO, hf, hrp, hq, hp'.symm⟩

theorem FullRel.outState {keyOf : List UInt32 → Bytes} {x : FullSt}
    (hR : FullRel keyOf h0 x D) (h : D.outputs ≠ []) :
    x.c.state = .outputsStarted ∨ x.c.state = .finished := by
  have hph := hR.phase
  unfold FullPhase at hph
  split at hph
  · exact absurd hph.2.2.2.2.1 h
  · exact absurd hph.2.2.1 h
  · exact absurd hph.2.1 h
  · rename_i he; exact .inl he
  · rename_i he; exact .inr he
  · exact hph.elim

/-- The operation after a part of the newest output. -/
theorem prel_out {t : TxData} {x : FullSt} {q : OutInfo} {o : OutDesc} {os : List OutDesc}
    {b : BoxDesc Nat} (hst : p.state = .outputsStarted) (hD : D.outputs = o :: os)
    (hT : TxSim env h0 .outputsStarted p.hash p.amounts t D) (hnc : o.box.complete = false)
    (hF : FullRel env.keyOf h0 x { D with outputs := { o with box := b } :: os })
    (htab : x.s.a.table = p.amounts.table) (hO : OutRel env p.amounts.table D.table q b)
    (hrefs : ∀ r ∈ b.tokens, r.1 < D.table.length)
    (hpaths : ∀ r, b.script = some (.change r) → pathValidate r .addressGe5 ∧ r.length ≤ 10) :
    PRel env h0 { p with
      hash := x.h
      amounts := x.s.a
      state := p.checkFinished x.c
      u := .transaction { t with tx := x.c, out := some q } }
      { D with outputs := { o with box := b } :: os } := by
  have hcf : p.checkFinished x.c = .outputsStarted ∧ x.c.state = .outputsStarted ∨
      p.checkFinished x.c = .txFinished ∧ x.c.state = .finished := by
    unfold P2pk.checkFinished
    rcases hF.outState (by simp) with h | h
    · left; rw [h]; simp [hst]
    · right; rw [h]; simp
  have hS : TxSim env h0 (p.checkFinished x.c) x.h x.s.a { t with tx := x.c, out := some q }
      { D with outputs := { o with box := b } :: os } := by
    have hna : o.approved = false := by
      cases ha : o.approved with
      | false => rfl
      | true =>
        have := hT.appr o (by rw [hD]; simp) ha
        rw [hnc] at this; simp at this
    refine ⟨hF.setOut (o := x.s.o), ⟨q, rfl, by rw [htab]; exact hO⟩, ?_, ?_, ?_, ?_, ?_, ?_, hT.sum⟩
    · rcases hcf with ⟨h1, h2⟩ | ⟨h1, h2⟩
      · rw [h1]; exact ⟨by simp, h2⟩
      · rw [h1]; exact ⟨by simp, h2⟩
    · intro o' ho'
      rcases List.mem_cons.1 ho' with rfl | ho'
      · exact hrefs
      · exact hT.refs o' (by rw [hD]; simp [ho'])
    · intro o' ho'
      rcases List.mem_cons.1 ho' with rfl | ho'
      · exact hpaths
      · exact hT.paths o' (by rw [hD]; simp [ho'])
    · intro o' ho'
      rcases List.mem_cons.1 ho' with rfl | ho'
      · simp [hna]
      · exact hT.appr o' (by rw [hD]; simp [ho'])
    · rcases hT.change with hc | ⟨o', ho', hc⟩
      · exact .inl hc
      · rw [hD] at ho'
        simp only [List.find?_cons, hna] at ho' ⊢
        exact .inr ⟨o', ho', hc⟩
    · rw [htab]; exact hT.tab
  refine prel_of ?_ ?_ rfl hS
  · rcases hcf with ⟨h1, _⟩ | ⟨h1, _⟩ <;> simp [h1]
  · rcases hcf with ⟨h1, _⟩ | ⟨h1, _⟩ <;> simp [h1]

theorem not_complete {α : Type} {o : BoxDesc α} (h : o.scriptDone = false) : o.complete = false := by
  simp [BoxDesc.complete, h]

theorem addOutputTree_rel (hR : PRel env h0 p D) (h : p.addOutputTree env data = .ok p') :
    PRel env h0 p' (D.step (.cmd 0x16 data)) := by
  obtain ⟨t, oi, o, os, x, r, q, hst, hu, hoi, hD, hT, hF, hO, hf, hrp, hq, rfl⟩ := withOut_ok hR h
  obtain ⟨hsd, hF', htab, hs, hr, hlen⟩ := addBoxTree_full hF hD hO hf hrp
  obtain ⟨q', hq', hO'⟩ := addTreeChunk_rel hO hsd hlen
  rw [hs] at hq
  have hb : decide (r = .ok) = (o.box.addTree data).scriptDone := by
    rw [Bool.eq_iff_iff, decide_eq_true_iff]; exact hr
  rw [hb, hq'] at hq
  simp only [OutRes.ok.injEq] at hq
  subst hq
  rw [step_tree, onOutput_cons hD]
  refine prel_out hst hD hT (not_complete hsd) hF' htab hO' ?_ ?_
  · rw [(addTree_fields o.box data).2.2.1]
    exact hT.refs o (by rw [hD]; simp)
  · obtain ⟨bs, hbs⟩ := addTree_script o.box data
    intro r' hr'
    rw [hbs] at hr'; simp at hr'

theorem opFee_rel (hR : PRel env h0 p D) (h : opFee env p data = .ok p') :
    data = [] ∧ PRel env h0 p' (D.step (.cmd 0x17 data)) := by
  unfold opFee at h
  split at h
  · simp at h
  rename_i hdata
  simp only [ne_eq, Decidable.not_not] at hdata
  refine ⟨hdata, ?_⟩
  obtain ⟨t, oi, o, os, x, r, q, hst, hu, hoi, hD, hT, hF, hO, hf, hrp, hq, rfl⟩ := withOut_ok hR h
  obtain ⟨hsd, ⟨fin, hfin⟩, hnone⟩ := setScript_full (s := .fee) (bytes := minersFeeTree)
    (fun b => rfl) (by simp) feeTree_eq hF hD hO hf hrp
  rcases setFee_rel hO hsd fin (by
    intro hn
    have := (hnone hn).2.2
    rw [hfin] at this
    exact congrArg OutInfo.boxFinished this) with ⟨q', hq', hn, hO'⟩ | hbad
  · rw [hfin] at hq
    simp only at hq
    rw [hq'] at hq
    simp only [OutRes.ok.injEq] at hq
    subst hq
    obtain ⟨hF', htab, _⟩ := hnone hn
    rw [step_fee, onOutput_cons hD]
    exact prel_out hst hD hT (not_complete hsd) hF' htab hO' (hT.refs o (by rw [hD]; simp))
      (by simp)
  · rw [hfin] at hq
    simp only at hq
    rw [hbad] at hq; simp at hq

theorem opChange_rel (hR : PRel env h0 p D) (h : opChange env p data = .ok p') :
    PRel env h0 p' (D.step (.cmd 0x18 data)) := by
  unfold opChange at h
  split at h
  · simp at h
  rename_i path rest hpath
  obtain ⟨hpo, hlen10⟩ := readPath_some hpath
  split at h
  · simp at h
  rename_i hval
  simp only [Decidable.not_not] at hval
  split at h
  · simp at h
  rename_i pub cc hpub
  obtain ⟨t, oi, o, os, x, r, q, hst, hu, hoi, hD, hT, hF, hO, hf, hrp, hq, rfl⟩ := withOut_ok hR h
  obtain ⟨hsd, ⟨fin, hfin⟩, hnone⟩ := setScript_full (s := .change path)
    (bytes := treeGenerateP2pk pub)
    (fun b => rfl) (by simp) (by
      simp only [scriptBytes, Env.keyOf, hpub, treeGenerateP2pk]
      rfl) hF hD hO hf hrp
  rcases setBip32_rel hO hsd fin path (by
    intro hn
    have := (hnone hn).2.2
    rw [hfin] at this
    exact congrArg OutInfo.boxFinished this) with ⟨q', hq', hn, hO'⟩ | hbad
  · rw [hfin] at hq
    simp only at hq
    rw [hq'] at hq
    simp only [OutRes.ok.injEq] at hq
    subst hq
    obtain ⟨hF', htab, _⟩ := hnone hn
    rw [step_change, onOutput_cons hD, hpo]
    refine prel_out hst hD hT (not_complete hsd) hF' htab hO' (hT.refs o (by rw [hD]; simp)) ?_
    intro r' hr'
    simp only [Option.some.injEq, Script.change.injEq] at hr'
    subst hr'
    exact ⟨hval, hlen10⟩
  · rw [hfin] at hq
    simp only at hq
    rw [hbad] at hq; simp at hq

theorem addOutputTokens_rel (hR : PRel env h0 p D) (h : p.addOutputTokens env data = .ok p') :
    (∃ k, data.length = k * 12) ∧ PRel env h0 p' (D.step (.cmd 0x19 data)) := by
  obtain ⟨t, oi, o, os, x, r, q, hst, hu, hoi, hD, hT, hF, hO, hf, hrp, hq, rfl⟩ := withOut_ok hR h
  obtain ⟨hnc, hk, hrefs, hF', htab, hO'⟩ := addBoxTokens_full hF hD hO hf hrp
  simp only [OutRes.ok.injEq] at hq
  subst hq
  rw [step_outTokens, onOutput_cons hD]
  refine ⟨hk, prel_out hst hD hT hnc hF' htab hO' ?_ ?_⟩
  · intro t' ht'
    rcases List.mem_append.1 ht' with ht' | ht'
    · exact hT.refs o (by rw [hD]; simp) t' ht'
    · exact hrefs t' ht'
  · exact hT.paths o (by rw [hD]; simp)

theorem addOutputRegisters_rel (hR : PRel env h0 p D)
    (h : p.addOutputRegisters env data = .ok p') :
    PRel env h0 p' (D.step (.cmd 0x1A data)) := by
  obtain ⟨t, oi, o, os, x, r, q, hst, hu, hoi, hD, hT, hF, hO, hf, hrp, hq, rfl⟩ := withOut_ok hR h
  obtain ⟨hnc, hF', htab, hO'⟩ := addBoxRegisters_full hF hD hO hf hrp
  simp only [OutRes.ok.injEq] at hq
  subst hq
  rw [step_regs, onOutput_cons hD]
  exact prel_out hst hD hT hnc hF' htab hO' (hT.refs o (by rw [hD]; simp))
    (hT.paths o (by rw [hD]; simp))

/-- Every accepted command adds to the description what the specification says. -/
theorem signOp_rel {key : Bytes} {sub : UInt8} (hR : PRel env h0 p D)
    (h : signOp env key p sub data = .ok p') (h1 : 0x10 ≤ sub) (h2 : sub ≤ 0x1A) :
    PRel env h0 p' (D.step (.cmd sub data)) := by
  unfold signOp at h
  by_cases e : sub = 0x10
  · subst e; exact (opStart_rel hR h).2
  rw [if_neg e] at h
  by_cases e : sub = 0x11
  · subst e; exact (addTokens_rel' hR h).2
  rw [if_neg e] at h
  by_cases e : sub = 0x12
  · subst e; exact opFrame_rel hR h
  rw [if_neg e] at h
  by_cases e : sub = 0x13
  · subst e; exact addExtension_rel hR h
  rw [if_neg e] at h
  by_cases e : sub = 0x14
  · subst e; exact (addDataInputs_rel hR h).2
  rw [if_neg e] at h
  by_cases e : sub = 0x15
  · subst e; exact opOutput_rel hR h
  rw [if_neg e] at h
  by_cases e : sub = 0x16
  · subst e; exact addOutputTree_rel hR h
  rw [if_neg e] at h
  by_cases e : sub = 0x17
  · subst e; exact (opFee_rel hR h).2
  rw [if_neg e] at h
  by_cases e : sub = 0x18
  · subst e; exact opChange_rel hR h
  rw [if_neg e] at h
  by_cases e : sub = 0x19
  · subst e; exact (addOutputTokens_rel hR h).2
  rw [if_neg e] at h
  have : sub = 0x1A := by
    simp only [UInt8.le_iff_toNat_le, ← UInt8.toNat_inj] at *
    simp at *
    omega
  subst this
  exact addOutputRegisters_rel hR h

end Ergo
