import Verif.Model.Run
import Mathlib.Tactic.SplitIfs
/-!
# Nothing but the signature depends on the hashed bytes and the ephemeral key

`hide` and `mask` erase the bytes hashed so far (they begin with the commitment of the ephemeral key)
and the ephemeral key; every function gives the same result, up to these bytes, on the erased state.
-/
namespace Ergo

variable {σ : Type}

/-! ## Box serializer -/

/-- Erase the hashed bytes. -/
def BoxSt.hide (x : BoxSt σ) : BoxSt σ := { x with h := [] }
/-- The same for results. -/
def BoxSt.hideR {ε : Type} (r : BoxSt σ × ε) : BoxSt σ × ε := (r.1.hide, r.2)

theorem BoxSt.fail_hide {x y : BoxSt σ} (h : x.hide = y.hide) (e : BoxErr) :
    BoxSt.hideR (x.fail e) = BoxSt.hideR (y.fail e) := by
  obtain ⟨c, hx, s⟩ := x; obtain ⟨c', hy, s'⟩ := y
  simp only [BoxSt.hide, BoxSt.mk.injEq, true_and] at h
  obtain ⟨rfl, rfl⟩ := h
  rfl

theorem BoxSt.check_hide {x y : BoxSt σ} (h : x.hide = y.hide) (r : Res BoxErr)
    {k k' : BoxSt σ × Res BoxErr} (hk : BoxSt.hideR k = BoxSt.hideR k') :
    BoxSt.hideR (x.check r k) = BoxSt.hideR (y.check r k') := by
  cases r with
  | ok => exact hk
  | more => exact hk
  | err e => exact BoxSt.fail_hide h e
  | ub => simp only [BoxSt.check, BoxSt.hideR, h]

theorem BoxSt.finish_hide (cbs : BoxCbs σ) {x y : BoxSt σ} (h : x.hide = y.hide) :
    BoxSt.hideR (BoxSt.finish cbs x) = BoxSt.hideR (BoxSt.finish cbs y) := by
  obtain ⟨c, hx, s⟩ := x; obtain ⟨c', hy, s'⟩ := y
  simp only [BoxSt.hide, BoxSt.mk.injEq, true_and] at h
  obtain ⟨rfl, rfl⟩ := h
  unfold BoxSt.finish
  exact BoxSt.check_hide (by rfl) _ (by rfl)

theorem BoxSt.treeAdded_hide (cbs : BoxCbs σ) {x y : BoxSt σ} (h : x.hide = y.hide) :
    BoxSt.hideR (BoxSt.treeAdded cbs x) = BoxSt.hideR (BoxSt.treeAdded cbs y) := by
  obtain ⟨c, hx, s⟩ := x; obtain ⟨c', hy, s'⟩ := y
  simp only [BoxSt.hide, BoxSt.mk.injEq, true_and] at h
  obtain ⟨rfl, rfl⟩ := h
  unfold BoxSt.treeAdded
  refine BoxSt.check_hide (by rfl) _ ?_
  simp only
  split_ifs
  · exact BoxSt.finish_hide cbs rfl
  · rfl
  · rfl

theorem BoxSt.addTree_hide (cbs : BoxCbs σ) {x y : BoxSt σ} (h : x.hide = y.hide) (chunk : Bytes) :
    BoxSt.hideR (BoxSt.addTree cbs x chunk) = BoxSt.hideR (BoxSt.addTree cbs y chunk) := by
  obtain ⟨c, hx, s⟩ := x; obtain ⟨c', hy, s'⟩ := y
  simp only [BoxSt.hide, BoxSt.mk.injEq, true_and] at h
  obtain ⟨rfl, rfl⟩ := h
  unfold BoxSt.addTree
  simp only
  split_ifs
  · rfl
  · rfl
  · rfl
  · exact BoxSt.treeAdded_hide cbs rfl
  · rfl

theorem BoxSt.addFeeTree_hide (cbs : BoxCbs σ) {x y : BoxSt σ} (h : x.hide = y.hide) :
    BoxSt.hideR (BoxSt.addFeeTree cbs x) = BoxSt.hideR (BoxSt.addFeeTree cbs y) := by
  obtain ⟨c, hx, s⟩ := x; obtain ⟨c', hy, s'⟩ := y
  simp only [BoxSt.hide, BoxSt.mk.injEq, true_and] at h
  obtain ⟨rfl, rfl⟩ := h
  unfold BoxSt.addFeeTree
  simp only
  split_ifs
  · rfl
  · exact BoxSt.treeAdded_hide cbs rfl

theorem BoxSt.addChangeTree_hide (cbs : BoxCbs σ) {x y : BoxSt σ} (h : x.hide = y.hide) (pk : Bytes) :
    BoxSt.hideR (BoxSt.addChangeTree cbs x pk) = BoxSt.hideR (BoxSt.addChangeTree cbs y pk) := by
  obtain ⟨c, hx, s⟩ := x; obtain ⟨c', hy, s'⟩ := y
  simp only [BoxSt.hide, BoxSt.mk.injEq, true_and] at h
  obtain ⟨rfl, rfl⟩ := h
  unfold BoxSt.addChangeTree
  simp only
  split_ifs
  · rfl
  · exact BoxSt.treeAdded_hide cbs rfl

theorem BoxSt.tokensLoop_hide (cbs : BoxCbs σ) (table : Option TableArg) : ∀ (n : Nat) (input : Bytes)
    {x y : BoxSt σ}, x.hide = y.hide →
    BoxSt.hideR (BoxSt.tokensLoop cbs table n input x) = BoxSt.hideR (BoxSt.tokensLoop cbs table n input y)
  | n, [], x, y, h => by
    have e : ∀ z : BoxSt σ, BoxSt.tokensLoop cbs table n [] z = (z, .ok) := by
      intro z; cases n <;> rfl
    rw [e, e]; simp only [BoxSt.hideR, h]
  | 0, _ :: _, x, y, h => by simp only [BoxSt.tokensLoop, BoxSt.hideR, h]
  | n + 1, b :: bs, x, y, h => by
    have h' := h
    obtain ⟨c, hx, s⟩ := x; obtain ⟨c', hy, s'⟩ := y
    simp only [BoxSt.hide, BoxSt.mk.injEq, true_and] at h
    obtain ⟨rfl, rfl⟩ := h
    unfold BoxSt.tokensLoop
    simp only
    split_ifs
    · rfl
    · cases boxTokenId table (b :: bs) with
      | error e =>
        obtain ⟨e, f⟩ := e
        cases f <;> rfl
      | ok r =>
        obtain ⟨id, rest, hashed⟩ := r
        simp only
        cases bufU64 rest with
        | none => rfl
        | some r =>
          obtain ⟨v, rest⟩ := r
          simp only
          exact BoxSt.check_hide (by rfl) _ (BoxSt.tokensLoop_hide cbs table n rest (by rfl))

theorem BoxSt.addTokens_hide (cbs : BoxCbs σ) (table : Option TableArg) {x y : BoxSt σ}
    (h : x.hide = y.hide) (input : Bytes) :
    BoxSt.hideR (BoxSt.addTokens cbs table x input) = BoxSt.hideR (BoxSt.addTokens cbs table y input) := by
  have hl := BoxSt.tokensLoop_hide cbs table input.length input h
  have hc : x.c = y.c := (congrArg (fun z : BoxSt σ => z.c) h :)
  unfold BoxSt.addTokens
  rw [hc]
  split_ifs
  · exact BoxSt.fail_hide h _
  generalize BoxSt.tokensLoop cbs table input.length input x = r at hl
  generalize BoxSt.tokensLoop cbs table input.length input y = r' at hl
  obtain ⟨⟨c, h1, s⟩, r⟩ := r
  obtain ⟨⟨c', h2, s'⟩, r'⟩ := r'
  simp only [BoxSt.hideR, BoxSt.hide, Prod.mk.injEq, BoxSt.mk.injEq, true_and] at hl
  obtain ⟨⟨rfl, rfl⟩, rfl⟩ := hl
  cases r with
  | ok =>
    simp only
    split_ifs
    · exact BoxSt.finish_hide cbs rfl
    · rfl
    · rfl
  | more => rfl
  | err e => rfl
  | ub => rfl

theorem BoxSt.addRegisters_hide (cbs : BoxCbs σ) {x y : BoxSt σ} (h : x.hide = y.hide) (chunk : Bytes) :
    BoxSt.hideR (BoxSt.addRegisters cbs x chunk) = BoxSt.hideR (BoxSt.addRegisters cbs y chunk) := by
  obtain ⟨c, hx, s⟩ := x; obtain ⟨c', hy, s'⟩ := y
  simp only [BoxSt.hide, BoxSt.mk.injEq, true_and] at h
  obtain ⟨rfl, rfl⟩ := h
  unfold BoxSt.addRegisters
  simp only
  split_ifs
  · rfl
  · rfl
  · exact BoxSt.finish_hide cbs rfl
  · rfl

/-! ## Input serializer -/

/-- Erase the hashed bytes. -/
def InputSt.hide (x : InputSt) : InputSt := { x with h := [] }
/-- The same for results. -/
def InputSt.hideR (r : InputSt × Res InputErr) : InputSt × Res InputErr := (r.1.hide, r.2)

theorem InputSt.tokensLoop_hide : ∀ (n : Nat) (input : Bytes) {x y : InputSt}, x.hide = y.hide →
    InputSt.hideR (InputSt.tokensLoop n input x) = InputSt.hideR (InputSt.tokensLoop n input y)
  | n, [], x, y, h => by
    have e : ∀ z : InputSt, InputSt.tokensLoop n [] z = (z, .ok) := by
      intro z; cases n <;> rfl
    rw [e, e]; simp only [InputSt.hideR, h]
  | 0, _ :: _, x, y, h => by simp only [InputSt.tokensLoop, InputSt.hideR, h]
  | n + 1, b :: bs, x, y, h => by
    obtain ⟨c, hx, a⟩ := x; obtain ⟨c', hy, a'⟩ := y
    simp only [InputSt.hide, InputSt.mk.injEq, true_and] at h
    obtain ⟨rfl, rfl⟩ := h
    unfold InputSt.tokensLoop
    cases bufBytes idLen (b :: bs) with
    | none => rfl
    | some r =>
      obtain ⟨id, rest⟩ := r
      simp only
      cases bufU64 rest with
      | none => rfl
      | some r =>
        obtain ⟨v, rest⟩ := r
        simp only
        rcases a.addInputToken id v with ⟨a1, r1⟩
        cases r1 with
        | ok => exact InputSt.tokensLoop_hide n rest rfl
        | more => rfl
        | err e => rfl
        | ub => rfl

theorem InputSt.addTokens_hide {x y : InputSt} (h : x.hide = y.hide) (boxId : Bytes) (index : UInt8)
    (tokens : Bytes) : InputSt.hideR (x.addTokens boxId index tokens) =
      InputSt.hideR (y.addTokens boxId index tokens) := by
  have hl := InputSt.tokensLoop_hide tokens.length tokens h
  obtain ⟨c, hx, a⟩ := x; obtain ⟨c', hy, a'⟩ := y
  simp only [InputSt.hide, InputSt.mk.injEq, true_and] at h
  obtain ⟨rfl, rfl⟩ := h
  unfold InputSt.addTokens
  simp only
  split_ifs
  · rfl
  · rfl
  · rfl
  · rfl
  generalize InputSt.tokensLoop tokens.length tokens _ = r at hl
  generalize InputSt.tokensLoop tokens.length tokens _ = r' at hl
  obtain ⟨⟨c1, h1, s⟩, r⟩ := r
  obtain ⟨⟨c2, h2, s'⟩, r'⟩ := r'
  simp only [InputSt.hideR, InputSt.hide, Prod.mk.injEq, InputSt.mk.injEq, true_and] at hl
  obtain ⟨⟨rfl, rfl⟩, rfl⟩ := hl
  cases r with
  | ok => simp only; split_ifs <;> rfl
  | more => rfl
  | err e => rfl
  | ub => rfl

theorem InputSt.addExtension_hide {x y : InputSt} (h : x.hide = y.hide) (chunk : Bytes) :
    InputSt.hideR (x.addExtension chunk) = InputSt.hideR (y.addExtension chunk) := by
  obtain ⟨c, hx, a⟩ := x; obtain ⟨c', hy, a'⟩ := y
  simp only [InputSt.hide, InputSt.mk.injEq, true_and] at h
  obtain ⟨rfl, rfl⟩ := h
  unfold InputSt.addExtension
  simp only
  split_ifs <;> rfl

/-! ## Transaction serializer -/

/-- Erase the hashed bytes. -/
def FullSt.hide (x : FullSt) : FullSt := { x with h := [] }
/-- The same for results. -/
def FullSt.hideR (r : FullSt × Res FullErr) : FullSt × Res FullErr := (r.1.hide, r.2)

/-- The function does not depend on the hashed bytes. -/
def HideOk (f : FullSt → FullSt × Res FullErr) : Prop :=
  ∀ x y : FullSt, x.hide = y.hide → FullSt.hideR (f x) = FullSt.hideR (f y)

theorem HideOk.of {f : FullSt → FullSt × Res FullErr}
    (hP : ∀ c h1 h2 s, FullSt.hideR (f ⟨c, h1, s⟩) = FullSt.hideR (f ⟨c, h2, s⟩)) : HideOk f := by
  intro x y h
  obtain ⟨c, hx, s⟩ := x; obtain ⟨c', hy, s'⟩ := y
  simp only [FullSt.hide, FullSt.mk.injEq, true_and] at h
  obtain ⟨rfl, rfl⟩ := h
  exact hP _ _ _ _

theorem inputFinished_hide : HideOk FullSt.inputFinished := HideOk.of fun c h1 h2 s => by
  unfold FullSt.inputFinished
  simp only
  split_ifs <;> rfl

theorem outputFinished_hide : HideOk FullSt.outputFinished := HideOk.of fun c h1 h2 s => by
  unfold FullSt.outputFinished
  simp only
  split_ifs <;> rfl

theorem fullAddTokens_hide (input : Bytes) : HideOk (fun x => x.addTokens input) :=
  HideOk.of fun c h1 h2 s => by
  simp only [FullSt.addTokens]
  split_ifs
  · rfl
  · cases (tableAdd c.distinct input s.a.table).2 <;> rfl

theorem fullAddInput_hide (boxId : Bytes) (frames : UInt8) (ext : UInt32) :
    HideOk (fun x => x.addInput boxId frames ext) := HideOk.of fun c h1 h2 s => by
  simp only [FullSt.addInput]
  by_cases hc : c.state ≠ .inputsStarted
  · rw [if_pos hc, if_pos hc]; rfl
  rw [if_neg hc, if_neg hc]
  cases c.sub with
  | zeroed => rfl
  | box b => rfl
  | input i =>
    simp only
    split_ifs
    · rfl
    · rfl
    · cases (inputInit boxId frames ext).2 <;> rfl

theorem fullAddInputTokens_hide (boxId : Bytes) (index : UInt8) (tokens : Bytes) :
    HideOk (fun x => x.addInputTokens boxId index tokens) := HideOk.of fun c h1 h2 s => by
  simp only [FullSt.addInputTokens]
  by_cases hc : c.state ≠ .inputsStarted
  · rw [if_pos hc, if_pos hc]; rfl
  rw [if_neg hc, if_neg hc]
  cases c.sub with
  | zeroed => rfl
  | box b => rfl
  | input i =>
    have hl := InputSt.addTokens_hide (x := ⟨i, h1, s.a⟩) (y := ⟨i, h2, s.a⟩) rfl boxId index tokens
    simp only
    generalize InputSt.addTokens ⟨i, h1, s.a⟩ boxId index tokens = r at hl
    generalize InputSt.addTokens ⟨i, h2, s.a⟩ boxId index tokens = r' at hl
    obtain ⟨⟨c1, h1, s⟩, r⟩ := r
    obtain ⟨⟨c2, h2, s'⟩, r'⟩ := r'
    simp only [InputSt.hideR, InputSt.hide, Prod.mk.injEq, InputSt.mk.injEq, true_and] at hl
    obtain ⟨⟨rfl, rfl⟩, rfl⟩ := hl
    cases r with
    | ok =>
      simp only
      split_ifs
      · exact inputFinished_hide _ _ rfl
      · rfl
    | more => rfl
    | err e => rfl
    | ub => rfl

theorem fullAddExtension_hide (chunk : Bytes) : HideOk (fun x => x.addInputExtension chunk) :=
  HideOk.of fun c h1 h2 s => by
  simp only [FullSt.addInputExtension]
  by_cases hc : c.state ≠ .inputsStarted
  · rw [if_pos hc, if_pos hc]; rfl
  rw [if_neg hc, if_neg hc]
  cases c.sub with
  | zeroed => rfl
  | box b => rfl
  | input i =>
    have hl := InputSt.addExtension_hide (x := ⟨i, h1, s.a⟩) (y := ⟨i, h2, s.a⟩) rfl chunk
    simp only
    generalize InputSt.addExtension ⟨i, h1, s.a⟩ chunk = r at hl
    generalize InputSt.addExtension ⟨i, h2, s.a⟩ chunk = r' at hl
    obtain ⟨⟨c1, h1, s⟩, r⟩ := r
    obtain ⟨⟨c2, h2, s'⟩, r'⟩ := r'
    simp only [InputSt.hideR, InputSt.hide, Prod.mk.injEq, InputSt.mk.injEq, true_and] at hl
    obtain ⟨⟨rfl, rfl⟩, rfl⟩ := hl
    cases r with
    | ok => exact inputFinished_hide _ _ rfl
    | more => rfl
    | err e => rfl
    | ub => rfl

theorem dataInputsLoop_hide : ∀ (n : Nat) (input : Bytes), HideOk (FullSt.dataInputsLoop n input)
  | n, [], x, y, h => by
    have e : ∀ z : FullSt, FullSt.dataInputsLoop n [] z = (z, .ok) := by
      intro z; cases n <;> rfl
    rw [e, e]; simp only [FullSt.hideR, h]
  | 0, _ :: _, x, y, h => by simp only [FullSt.dataInputsLoop, FullSt.hideR, h]
  | n + 1, b :: bs, x, y, h => by
    revert x y h
    refine HideOk.of fun c h1 h2 s => ?_
    unfold FullSt.dataInputsLoop
    simp only
    split_ifs
    · rfl
    · cases bufBytes idLen (b :: bs) with
      | none => rfl
      | some r =>
        obtain ⟨id, rest⟩ := r
        exact dataInputsLoop_hide n rest _ _ rfl

theorem fullAddDataInputs_hide (input : Bytes) : HideOk (fun x => x.addDataInputs input) :=
  HideOk.of fun c h1 h2 s => by
  have hl := dataInputsLoop_hide input.length input ⟨c, h1, s⟩ ⟨c, h2, s⟩ rfl
  simp only [FullSt.addDataInputs]
  split_ifs
  · rfl
  generalize FullSt.dataInputsLoop input.length input _ = r at hl
  generalize FullSt.dataInputsLoop input.length input _ = r' at hl
  obtain ⟨⟨c1, h1, s⟩, r⟩ := r
  obtain ⟨⟨c2, h2, s'⟩, r'⟩ := r'
  simp only [FullSt.hideR, FullSt.hide, Prod.mk.injEq, FullSt.mk.injEq, true_and] at hl
  obtain ⟨⟨rfl, rfl⟩, rfl⟩ := hl
  cases r with
  | ok => simp only; split_ifs <;> rfl
  | more => rfl
  | err e => rfl
  | ub => rfl

theorem fullAddBox_hide (value : UInt64) (treeSize height : UInt32) (tokens : UInt8) (regs : UInt32) :
    HideOk (fun x => x.addBox value treeSize height tokens regs) :=
  HideOk.of fun c h1 h2 s => by
  simp only [FullSt.addBox, boxInit]
  split_ifs <;> rfl

theorem boxPart_hide {f : BoxSt Acc → BoxSt Acc × Res BoxErr}
    (hf : ∀ x y : BoxSt Acc, x.hide = y.hide → BoxSt.hideR (f x) = BoxSt.hideR (f y)) :
    HideOk (fun x => x.boxPart f) := HideOk.of fun c h1 h2 s => by
  simp only [FullSt.boxPart]
  by_cases hc : c.state ≠ .outputsStarted
  · rw [if_pos hc, if_pos hc]; rfl
  rw [if_neg hc, if_neg hc]
  cases c.sub with
  | zeroed => rfl
  | input b => rfl
  | box b =>
    have hl := hf ⟨b, h1, s⟩ ⟨b, h2, s⟩ rfl
    simp only
    generalize f ⟨b, h1, s⟩ = r at hl
    generalize f ⟨b, h2, s⟩ = r' at hl
    obtain ⟨⟨c1, h1, s⟩, r⟩ := r
    obtain ⟨⟨c2, h2, s'⟩, r'⟩ := r'
    simp only [BoxSt.hideR, BoxSt.hide, Prod.mk.injEq, BoxSt.mk.injEq, true_and] at hl
    obtain ⟨⟨rfl, rfl⟩, rfl⟩ := hl
    cases r with
    | ok =>
      simp only
      split_ifs
      · exact outputFinished_hide _ _ rfl
      · rfl
    | more => rfl
    | err e => rfl
    | ub => rfl

theorem fullAddBoxTokens_hide (env : Env) (input : Bytes) : HideOk (fun x => x.addBoxTokens env input) := by
  intro x y h
  have e1 : x.c = y.c := (congrArg (fun z : FullSt => z.c) h :)
  have e2 : x.s = y.s := (congrArg (fun z : FullSt => z.s) h :)
  simp only [FullSt.addBoxTokens, e1, e2]
  exact boxPart_hide (fun a b hab => BoxSt.addTokens_hide _ _ hab input) x y h

/-! ## The signing operation -/

/-- Erase the ephemeral key and the hashed bytes. -/
def P2pk.mask (p : P2pk) : P2pk := { p with key := [], hash := [] }
/-- The same for results. -/
def OpRes.mask : OpRes → OpRes
  | .ok p => .ok p.mask
  | r => r

/-- The operation does not depend on the ephemeral key and the hashed bytes. -/
def MaskOk (f : P2pk → OpRes) : Prop := ∀ p q : P2pk, p.mask = q.mask → (f p).mask = (f q).mask

theorem MaskOk.of {f : P2pk → OpRes}
    (hP : ∀ st k1 k2 path h1 h2 nw a u, (f ⟨st, k1, path, h1, nw, a, u⟩).mask =
      (f ⟨st, k2, path, h2, nw, a, u⟩).mask) : MaskOk f := by
  intro p q h
  obtain ⟨st, k, path, hh, nw, a, u⟩ := p
  obtain ⟨st', k', path', hh', nw', a', u'⟩ := q
  simp only [P2pk.mask, P2pk.mk.injEq, true_and] at h
  obtain ⟨rfl, rfl, rfl, rfl, rfl⟩ := h
  exact hP _ _ _ _ _ _ _ _ _

theorem startTx_mask (i d o : UInt16) (t : UInt8) : MaskOk (fun p => p.startTx i d o t) :=
  MaskOk.of fun st k1 k2 path h1 h2 nw a u => by
  simp only [P2pk.startTx, fullInit]
  by_cases hs : st ≠ .initialized
  · rw [if_pos hs, if_pos hs]
  rw [if_neg hs, if_neg hs]
  split_ifs
  · rfl
  · rfl
  · cases tableInit a.table t <;> rfl
  · cases tableInit a.table t <;> rfl

theorem withTx_mask {f : FullSt → FullSt × Res FullErr} (hf : HideOk f) : MaskOk (fun p => p.withTx f) :=
  MaskOk.of fun st k1 k2 path h1 h2 nw a u => by
  simp only [P2pk.withTx]
  cases u with
  | zero => rfl
  | uiApprove t => rfl
  | uiConfirm => rfl
  | transaction t =>
    have hl := hf ⟨t.tx, h1, ⟨a, t.out.getD (.init 0)⟩⟩ ⟨t.tx, h2, ⟨a, t.out.getD (.init 0)⟩⟩ rfl
    simp only
    generalize f ⟨t.tx, h1, _⟩ = r at hl
    generalize f ⟨t.tx, h2, _⟩ = r' at hl
    obtain ⟨⟨c1, h1, s⟩, r⟩ := r
    obtain ⟨⟨c2, h2, s'⟩, r'⟩ := r'
    simp only [FullSt.hideR, FullSt.hide, Prod.mk.injEq, FullSt.mk.injEq, true_and] at hl
    obtain ⟨⟨rfl, rfl⟩, rfl⟩ := hl
    cases r <;> rfl

theorem withOut_mask {f : FullSt → FullSt × Res FullErr} (hf : HideOk f) (g : OutInfo → Bool → OutRes) :
    MaskOk (fun p => p.withOut f g) :=
  MaskOk.of fun st k1 k2 path h1 h2 nw a u => by
  simp only [P2pk.withOut]
  by_cases hs : st ≠ .outputsStarted
  · rw [if_pos hs, if_pos hs]
  rw [if_neg hs, if_neg hs]
  cases u with
  | zero => rfl
  | uiApprove t => rfl
  | uiConfirm => rfl
  | transaction t =>
    simp only
    cases t.out with
    | none => rfl
    | some o =>
      have hl := hf ⟨t.tx, h1, ⟨a, o⟩⟩ ⟨t.tx, h2, ⟨a, o⟩⟩ rfl
      simp only
      generalize f ⟨t.tx, h1, _⟩ = r at hl
      generalize f ⟨t.tx, h2, _⟩ = r' at hl
      obtain ⟨⟨c1, h1, s⟩, r⟩ := r
      obtain ⟨⟨c2, h2, s'⟩, r'⟩ := r'
      simp only [FullSt.hideR, FullSt.hide, Prod.mk.injEq, FullSt.mk.injEq, true_and] at hl
      obtain ⟨⟨rfl, rfl⟩, rfl⟩ := hl
      cases r with
      | err e => rfl
      | ub => rfl
      | ok => simp only; split <;> rfl
      | more => simp only; split <;> rfl

theorem state_mask {p q : P2pk} (h : p.mask = q.mask) : p.state = q.state := (congrArg (fun z : P2pk => z.state) h :)

/-- Two results that are equal up to the erased parts. -/
theorem opRes_cases {r r' : OpRes} (h : r.mask = r'.mask) :
    (∃ p q, r = .ok p ∧ r' = .ok q ∧ p.mask = q.mask) ∨ (∃ e, r = .err e ∧ r' = .err e) ∨
      (r = .ub ∧ r' = .ub) := by
  cases r <;> cases r' <;> simp_all [OpRes.mask]

theorem opAddTokens_mask (input : Bytes) : MaskOk (fun p => p.addTokens input) := fun p q h => by
  simp only [P2pk.addTokens, state_mask h]
  split_ifs
  · rfl
  · exact withTx_mask (fullAddTokens_hide input) p q h

theorem opAddInput_mask (boxId : Bytes) (value : UInt64) (frames : UInt8) (ext : UInt32) :
    MaskOk (fun p => p.addInput boxId value frames ext) := fun p q h => by
  simp only [P2pk.addInput, state_mask h]
  split_ifs
  · rfl
  have hl := withTx_mask (fullAddInput_hide boxId frames ext) p q h
  simp only at hl
  generalize p.withTx _ = r at hl
  generalize q.withTx _ = r' at hl
  rcases opRes_cases hl with ⟨p', q', rfl, rfl, hm⟩ | ⟨e, rfl, rfl⟩ | ⟨rfl, rfl⟩
  · exact MaskOk.of (f := fun p => match p.amounts.addInput value with
      | none => .err Sw.u64Overflow
      | some a => .ok { p with amounts := a, state := .inputsStarted })
      (fun st k1 k2 path h1 h2 nw a u => by simp only; cases a.addInput value <;> rfl) p' q' hm
  · rfl
  · rfl

theorem opAddInputTokens_mask (boxId : Bytes) (index : UInt8) (tokens : Bytes) :
    MaskOk (fun p => p.addInputTokens boxId index tokens) := fun p q h => by
  simp only [P2pk.addInputTokens, state_mask h]
  split_ifs
  · rfl
  · exact withTx_mask (fullAddInputTokens_hide boxId index tokens) p q h

theorem opAddExtension_mask (chunk : Bytes) : MaskOk (fun p => p.addExtension chunk) := fun p q h => by
  simp only [P2pk.addExtension, state_mask h]
  split_ifs
  · rfl
  · exact withTx_mask (fullAddExtension_hide chunk) p q h

theorem opAddDataInputs_mask (input : Bytes) : MaskOk (fun p => p.addDataInputs input) := fun p q h => by
  simp only [P2pk.addDataInputs, state_mask h]
  split_ifs
  · rfl
  · exact withTx_mask (fullAddDataInputs_hide input) p q h

theorem opAddOutput_mask (value : UInt64) (treeSize height : UInt32) (tokens : UInt8) (regs : UInt32) :
    MaskOk (fun p => p.addOutput value treeSize height tokens regs) := fun p q h => by
  simp only [P2pk.addOutput, state_mask h]
  split_ifs
  · rfl
  have hl := withTx_mask (fullAddBox_hide value treeSize height tokens regs) p q h
  simp only at hl
  generalize p.withTx _ = r at hl
  generalize q.withTx _ = r' at hl
  rcases opRes_cases hl with ⟨p', q', rfl, rfl, hm⟩ | ⟨e, rfl, rfl⟩ | ⟨rfl, rfl⟩
  · exact MaskOk.of (f := fun p => match p.u with
      | .transaction t =>
        .ok { p with state := .outputsStarted
                     u := .transaction { t with out := some (.init value) } }
      | _ => .ub)
      (fun st k1 k2 path h1 h2 nw a u => by cases u <;> rfl) p' q' hm
  · rfl
  · rfl

theorem opStart_mask (data : Bytes) : MaskOk (fun p => opStart p data) := fun p q h => by
  simp only [opStart]
  cases parseStart data with
  | error e => rfl
  | ok r =>
    obtain ⟨i, d, t, o⟩ := r
    exact startTx_mask i d o t p q h

theorem opOutput_mask (data : Bytes) : MaskOk (fun p => opOutput p data) := fun p q h => by
  simp only [opOutput]
  cases parseOutput data with
  | error e => rfl
  | ok r =>
    obtain ⟨v, ts, hh, t, rg⟩ := r
    exact opAddOutput_mask v ts hh t rg p q h

theorem opFrame_mask (env : Env) (key data : Bytes) : MaskOk (fun p => opFrame env key p data) :=
  fun p q h => by
  simp only [opFrame]
  split_ifs
  · rfl
  · rfl
  cases frameParse data with
  | none => rfl
  | some f =>
    simp only
    cases f.ext with
    | none => exact opAddInputTokens_mask f.boxId f.index f.tokens p q h
    | some ext =>
      have hl := opAddInput_mask f.boxId f.value f.count ext p q h
      simp only at hl ⊢
      generalize p.addInput _ _ _ _ = r at hl
      generalize q.addInput _ _ _ _ = r' at hl
      rcases opRes_cases hl with ⟨p', q', rfl, rfl, hm⟩ | ⟨e, rfl, rfl⟩ | ⟨rfl, rfl⟩
      · exact opAddInputTokens_mask f.boxId f.index f.tokens p' q' hm
      · rfl
      · rfl

theorem opTree_mask (env : Env) (chunk : Bytes) : MaskOk (fun p => p.addOutputTree env chunk) :=
  withOut_mask (boxPart_hide (fun _ _ h => BoxSt.addTree_hide _ h chunk)) _

theorem opFee_mask (env : Env) (data : Bytes) : MaskOk (fun p => opFee env p data) := fun p q h => by
  simp only [opFee]
  split_ifs
  · rfl
  · exact withOut_mask (boxPart_hide (fun _ _ h => BoxSt.addFeeTree_hide _ h)) _ p q h

theorem opChange_mask (env : Env) (data : Bytes) : MaskOk (fun p => opChange env p data) := fun p q h => by
  simp only [opChange]
  cases readPath data with
  | none => rfl
  | some r =>
    obtain ⟨path, rest⟩ := r
    simp only
    by_cases hv : pathValidate path .addressGe5 = true
    case neg => rw [if_pos hv, if_pos hv]
    · rw [if_neg (fun h => h hv), if_neg (fun h => h hv)]
      cases env.genPublic path with
      | none => rfl
      | some r =>
        obtain ⟨pub, c⟩ := r
        exact withOut_mask (boxPart_hide (fun _ _ h => BoxSt.addChangeTree_hide _ h pub)) _ p q h

theorem opTokens_mask (env : Env) (input : Bytes) : MaskOk (fun p => p.addOutputTokens env input) :=
  withOut_mask (fullAddBoxTokens_hide env input) _

theorem opRegisters_mask (env : Env) (chunk : Bytes) : MaskOk (fun p => p.addOutputRegisters env chunk) :=
  withOut_mask (boxPart_hide (fun _ _ h => BoxSt.addRegisters_hide _ h chunk)) _

end Ergo
