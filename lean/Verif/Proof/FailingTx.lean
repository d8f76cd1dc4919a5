import Verif.Proof.Failing
/-!
# The serializers of the transaction and the operations, with and without failures
-/
namespace Ergo
open Calls

variable {ok : Nat → Bool}

theorem accCbs_good (env : Env) : (accCbsF env ok).Good ok := by
  intro ty s
  show Yields ok (Calls.map (fun r => ({ s with o := r.1 }, r.2)) (s.o.setBoxFinishedF env ok))
    ({ s with o := (s.o.setBoxFinished env).1 }, (s.o.setBoxFinished env).2) HashErr
  refine (OutInfo.yields_setBoxFinished env s.o).map' rfl ?_
  intro r hr
  exact hr

theorem attestCbs_good : attestCbsF.Good ok := fun _ _ => .ret _ _

/-- The result is the hash error of the transaction serializer. -/
abbrev FullHashErr (r : FullSt × Res FullErr) : Prop := r.2 = .err .hasher

theorem FullSt.yields_dataInputsFinished (x : FullSt) :
    Yields ok (x.dataInputsFinishedF ok) x.dataInputsFinished FullHashErr := by
  unfold FullSt.dataInputsFinishedF
  refine (yields_tableHash x.c.distinct).andThen ?_ ?_
  · exact Yields.need (.ret _ _) (by rfl)
  · rintro r rfl
    exact .ret rfl

theorem FullSt.yields_inputFinished (x : FullSt) :
    Yields ok (x.inputFinishedF ok) x.inputFinished FullHashErr := by
  unfold FullSt.inputFinishedF FullSt.inputFinished
  dsimp only
  by_cases h1 : x.c.inputs - 1 = 0
  · rw [if_pos h1, if_pos h1]
    refine Yields.need ?_ (by rfl)
    split_ifs
    · exact FullSt.yields_dataInputsFinished _
    · exact .ret _ _
  · rw [if_neg h1, if_neg h1]
    exact .ret _ _

theorem yields_fullInit (inputs dataInputs outputs : UInt16) (tokens : UInt8) (table : List Bytes)
    (h : Bytes) : Yields ok (fullInitF ok inputs dataInputs outputs tokens table h)
      (fullInit inputs dataInputs outputs tokens table h) (fun r => r.2.2 = .err .hasher) := by
  unfold fullInitF
  by_cases h1 : inputs = 0
  · rw [if_pos h1]; unfold fullInit; rw [if_pos h1]; exact .ret _ _
  rw [if_neg h1]
  by_cases h2 : outputs = 0
  · rw [if_pos h2]; unfold fullInit; rw [if_neg h1, if_pos h2]; exact .ret _ _
  rw [if_neg h2]
  exact Yields.need (.ret _ _) (by rfl)

theorem FullSt.yields_addInputTokens (x : FullSt) (boxId : Bytes) (index : UInt8) (tokens : Bytes) :
    Yields ok (x.addInputTokensF ok boxId index tokens) (x.addInputTokens boxId index tokens)
      FullHashErr := by
  unfold FullSt.addInputTokensF FullSt.addInputTokens
  by_cases h1 : x.c.state ≠ .inputsStarted
  · rw [if_pos h1, if_pos h1]; exact .ret _ _
  rw [if_neg h1, if_neg h1]
  cases x.c.sub with
  | input i =>
    dsimp only
    refine (InputSt.yields_addTokens _ boxId index tokens).andThen ?_ ?_
    · generalize InputSt.addTokens ⟨i, x.h, x.s.a⟩ boxId index tokens = r
      obtain ⟨y, r⟩ := r
      cases r with
      | ok =>
        dsimp only
        split_ifs
        · exact FullSt.yields_inputFinished _
        · exact .ret _ _
      | more => exact .ret _ _
      | err e => exact .ret _ _
      | ub => exact .ret _ _
    · rintro ⟨y, r⟩ hr
      cases hr
      exact .ret rfl
  | box b => exact .ret _ _
  | zeroed => exact .ret _ _

theorem FullSt.yields_addInputExtension (x : FullSt) (chunk : Bytes) :
    Yields ok (x.addInputExtensionF ok chunk) (x.addInputExtension chunk) FullHashErr := by
  unfold FullSt.addInputExtensionF FullSt.addInputExtension
  by_cases h1 : x.c.state ≠ .inputsStarted
  · rw [if_pos h1, if_pos h1]; exact .ret _ _
  rw [if_neg h1, if_neg h1]
  cases x.c.sub with
  | input i =>
    dsimp only
    refine (InputSt.yields_addExtension _ chunk).andThen ?_ ?_
    · generalize InputSt.addExtension ⟨i, x.h, x.s.a⟩ chunk = r
      obtain ⟨y, r⟩ := r
      cases r with
      | ok => exact FullSt.yields_inputFinished _
      | more => exact .ret _ _
      | err e => exact .ret _ _
      | ub => exact .ret _ _
    · rintro ⟨y, r⟩ hr
      cases hr
      exact .ret rfl
  | box b => exact .ret _ _
  | zeroed => exact .ret _ _

theorem FullSt.yields_dataInputsLoop : ∀ (n : Nat) (input : Bytes) (x : FullSt),
    Yields ok (FullSt.dataInputsLoopF ok n input x) (FullSt.dataInputsLoop n input x) FullHashErr
  | _, [], x => by
    unfold FullSt.dataInputsLoopF FullSt.dataInputsLoop
    exact .ret _ _
  | 0, _ :: _, x => .ret _ _
  | n + 1, b :: bs, x => by
    unfold FullSt.dataInputsLoopF FullSt.dataInputsLoop
    split_ifs
    · exact .ret _ _
    cases bufBytes idLen (b :: bs) with
    | none => exact .ret _ _
    | some t =>
      dsimp only
      exact Yields.need (FullSt.yields_dataInputsLoop n _ _) (by rfl)

theorem FullSt.yields_addDataInputs (x : FullSt) (input : Bytes) :
    Yields ok (x.addDataInputsF ok input) (x.addDataInputs input) FullHashErr := by
  unfold FullSt.addDataInputsF FullSt.addDataInputs
  split_ifs
  · exact .ret _ _
  refine (FullSt.yields_dataInputsLoop input.length input x).andThen ?_ ?_
  · cases FullSt.dataInputsLoop input.length input x with
    | mk y r =>
      cases r with
      | ok =>
        dsimp only
        split_ifs
        · exact FullSt.yields_dataInputsFinished _
        · exact .ret _ _
      | more => exact .ret _ _
      | err e => exact .ret _ _
      | ub => exact .ret _ _
  · rintro ⟨y, r⟩ hr
    cases hr
    exact .ret rfl

theorem FullSt.yields_addBox (x : FullSt) (value : UInt64) (treeSize height : UInt32) (tokens : UInt8)
    (regs : UInt32) : Yields ok (x.addBoxF ok value treeSize height tokens regs)
      (x.addBox value treeSize height tokens regs) FullHashErr := by
  unfold FullSt.addBoxF FullSt.addBox
  by_cases h1 : x.c.state ≠ .outputsStarted
  · rw [if_pos h1, if_pos h1]; exact .ret _ _
  rw [if_neg h1, if_neg h1]
  by_cases h2 : x.c.outputs = 0
  · rw [if_pos h2, if_pos h2]; exact .ret _ _
  rw [if_neg h2, if_neg h2]
  refine (yields_boxInit value treeSize height tokens regs x.h).map' rfl ?_
  rintro ⟨c, h, r⟩ hr
  cases hr
  rfl

theorem FullSt.yields_boxPart (x : FullSt) {f : BoxSt Acc → Calls (BoxSt Acc × Res BoxErr)}
    {g : BoxSt Acc → BoxSt Acc × Res BoxErr} (h : ∀ b, Yields ok (f b) (g b) HashErr) :
    Yields ok (x.boxPartF f) (x.boxPart g) FullHashErr := by
  unfold FullSt.boxPartF FullSt.boxPart
  by_cases h1 : x.c.state ≠ .outputsStarted
  · rw [if_pos h1, if_pos h1]; exact .ret _ _
  rw [if_neg h1, if_neg h1]
  cases x.c.sub with
  | box b =>
    refine (h _).map' rfl ?_
    rintro ⟨y, r⟩ hr
    cases hr
    rfl
  | input b => exact .ret _ _
  | zeroed => exact .ret _ _

/-! ## Operations -/

/-- The status words that answer a failed call. -/
def FaultCode (sw : UInt16) : Prop :=
  sw = 0xE00F ∨ sw = 0xE013 ∨ sw = 0xE016 ∨ sw = 0xE017

/-- The operation ends with such a word. -/
def OpFault (r : OpRes) : Prop := ∃ sw, FaultCode sw ∧ r = .err sw

theorem opFault_hasher : OpFault (.err FullErr.hasher.sw) := ⟨_, .inl rfl, rfl⟩
theorem opFault_crypto : OpFault (.err Sw.internalCryptoError) := ⟨_, .inr (.inl rfl), rfl⟩

theorem P2pk.yields_withTx (p : P2pk) {f : FullSt → Calls (FullSt × Res FullErr)}
    {g : FullSt → FullSt × Res FullErr} (h : ∀ x, Yields ok (f x) (g x) FullHashErr) :
    Yields ok (p.withTxF f) (p.withTx g) OpFault := by
  unfold P2pk.withTxF P2pk.withTx
  cases p.u with
  | transaction t =>
    refine (h _).map' rfl ?_
    rintro ⟨y, r⟩ hr
    cases hr
    exact opFault_hasher
  | zero => exact .ret _ _
  | uiApprove t => exact .ret _ _
  | uiConfirm => exact .ret _ _

theorem P2pk.yields_withOut (p : P2pk) {f : FullSt → Calls (FullSt × Res FullErr)}
    {f' : FullSt → FullSt × Res FullErr} (h : ∀ x, Yields ok (f x) (f' x) FullHashErr)
    {g : OutInfo → Bool → Calls (Option OutRes)} {g' : OutInfo → Bool → OutRes}
    (hg : ∀ o b, Yields ok (g o b) (some (g' o b)) (· = none)) :
    Yields ok (p.withOutF f g) (p.withOut f' g') OpFault := by
  unfold P2pk.withOutF P2pk.withOut
  by_cases h1 : p.state ≠ .outputsStarted
  · rw [if_pos h1, if_pos h1]; exact .ret _ _
  rw [if_neg h1, if_neg h1]
  cases p.u with
  | transaction t =>
    dsimp only
    cases t.out with
    | none => exact .ret _ _
    | some o =>
      dsimp only
      refine (h _).andThen ?_ ?_
      · generalize f' ⟨t.tx, p.hash, ⟨p.amounts, o⟩⟩ = r
        obtain ⟨y, r⟩ := r
        cases r with
        | err e => exact .ret _ _
        | ub => exact .ret _ _
        | ok =>
          refine (hg _ _).map' ?_ ?_
          · dsimp only
            cases g' y.s.o (decide ((Res.ok : Res FullErr) = .ok)) <;> rfl
          · rintro r rfl
            exact opFault_hasher
        | more =>
          refine (hg _ _).map' ?_ ?_
          · dsimp only
            cases g' y.s.o (decide ((Res.more : Res FullErr) = .ok)) <;> rfl
          · rintro r rfl
            exact opFault_hasher
      · rintro ⟨y, r⟩ hr
        cases hr
        exact .ret opFault_hasher
  | zero => exact .ret _ _
  | uiApprove t => exact .ret _ _
  | uiConfirm => exact .ret _ _

/-- What the start of the operation may give when calls fail: an error, or the result for one of the
draws. -/
def InitFault (env : Env) (path : List UInt32) (network : UInt8) (draws : Nat → Bytes) (r : OpRes) : Prop :=
  OpFault r ∨ ∃ i, r = p2pkInit env path network (fun _ => draws i)

theorem schnorrInit_const {env : Env} {secret draw : Bytes} {r : Bytes × Bytes}
    (h : schnorrTry env secret draw = some r) : schnorrInit env secret (fun _ => draw) = some r := by
  simp only [schnorrInit, schnorrInitLoop, h]

theorem yields_p2pkInit (env : Env) (path : List UInt32) (network : UInt8) (draws : Nat → Bytes) :
    Yields ok (p2pkInitF env ok path network draws) (p2pkInit env path network draws)
      (InitFault env path network draws) := by
  unfold p2pkInitF
  by_cases h1 : ¬ pathValidate path .addressGe5
  · rw [if_pos h1]; unfold p2pkInit; rw [if_pos h1]; exact .ret _ _
  rw [if_neg h1]
  by_cases h2 : ¬ networkSupported network
  · rw [if_pos h2]; unfold p2pkInit; rw [if_neg h1, if_pos h2]; exact .ret _ _
  rw [if_neg h2]
  refine (yields_genPrivate env path).andThen ?_ ?_
  · cases hk : env.genPrivate path with
    | none =>
      unfold p2pkInit
      rw [if_neg h1, if_neg h2, hk]
      exact .ret _ _
    | some secret =>
      refine (yields_schnorrInitLoop env secret draws 100 0).map' ?_ ?_
      · unfold p2pkInit schnorrInit
        rw [if_neg h1, if_neg h2, hk]
        dsimp only
        cases schnorrInitLoop env secret draws 100 0 <;> rfl
      · rintro r (rfl | ⟨i, hr, hn⟩)
        · exact .inl opFault_crypto
        · cases r with
          | none => exact absurd rfl hn
          | some r =>
            refine .inr ⟨i, ?_⟩
            unfold p2pkInit
            rw [if_neg h1, if_neg h2, hk]
            dsimp only
            rw [schnorrInit_const hr.symm]
  · rintro r rfl
    exact .ret (.inl opFault_crypto)

theorem P2pk.yields_startTx (p : P2pk) (inputs dataInputs outputs : UInt16) (tokens : UInt8) :
    Yields ok (p.startTxF ok inputs dataInputs outputs tokens) (p.startTx inputs dataInputs outputs tokens)
      OpFault := by
  unfold P2pk.startTxF P2pk.startTx
  by_cases h1 : p.state ≠ .initialized
  · rw [if_pos h1, if_pos h1]; exact .ret _ _
  rw [if_neg h1, if_neg h1]
  refine (yields_fullInit inputs dataInputs outputs tokens p.amounts.table p.hash).map' rfl ?_
  rintro ⟨c, h, r⟩ hr
  cases hr
  exact opFault_hasher

theorem P2pk.yields_addInputTokens (p : P2pk) (boxId : Bytes) (index : UInt8) (tokens : Bytes) :
    Yields ok (p.addInputTokensF ok boxId index tokens) (p.addInputTokens boxId index tokens) OpFault := by
  unfold P2pk.addInputTokensF P2pk.addInputTokens
  split_ifs
  · exact .ret _ _
  · exact p.yields_withTx (fun x => x.yields_addInputTokens boxId index tokens)

theorem P2pk.yields_addExtension (p : P2pk) (chunk : Bytes) :
    Yields ok (p.addExtensionF ok chunk) (p.addExtension chunk) OpFault := by
  unfold P2pk.addExtensionF P2pk.addExtension
  split_ifs
  · exact .ret _ _
  · exact p.yields_withTx (fun x => x.yields_addInputExtension chunk)

theorem P2pk.yields_addDataInputs (p : P2pk) (input : Bytes) :
    Yields ok (p.addDataInputsF ok input) (p.addDataInputs input) OpFault := by
  unfold P2pk.addDataInputsF P2pk.addDataInputs
  split_ifs
  · exact .ret _ _
  · exact p.yields_withTx (fun x => x.yields_addDataInputs input)

theorem P2pk.yields_addOutput (p : P2pk) (value : UInt64) (treeSize height : UInt32) (tokens : UInt8)
    (regs : UInt32) : Yields ok (p.addOutputF ok value treeSize height tokens regs)
      (p.addOutput value treeSize height tokens regs) OpFault := by
  unfold P2pk.addOutputF P2pk.addOutput
  by_cases h1 : p.state ≠ .inputsStarted ∧ p.state ≠ .outputsStarted
  · rw [if_pos h1, if_pos h1]; exact .ret _ _
  rw [if_neg h1, if_neg h1]
  refine (p.yields_withTx (fun x => x.yields_addBox value treeSize height tokens regs)).map' rfl ?_
  rintro r ⟨sw, h, rfl⟩
  exact ⟨sw, h, rfl⟩

theorem P2pk.yields_addOutputTree (env : Env) (p : P2pk) (chunk : Bytes) :
    Yields ok (p.addOutputTreeF env ok chunk) (p.addOutputTree env chunk) OpFault :=
  p.yields_withOut (fun x => x.yields_boxPart (fun b => b.yields_addTree (accCbs_good env) chunk))
    (fun o fin => o.yields_addTreeChunk env chunk fin)

theorem P2pk.yields_addOutputFee (env : Env) (p : P2pk) :
    Yields ok (p.addOutputFeeF env ok) (p.addOutputFee env) OpFault :=
  p.yields_withOut (fun x => x.yields_boxPart (fun b => b.yields_addFeeTree (accCbs_good env)))
    (fun o _ => o.yields_setFee env)

theorem P2pk.yields_addOutputChange (env : Env) (p : P2pk) (path : List UInt32) (pk : Bytes) :
    Yields ok (p.addOutputChangeF env ok path pk) (p.addOutputChange env path pk) OpFault :=
  p.yields_withOut (fun x => x.yields_boxPart (fun b => b.yields_addChangeTree (accCbs_good env) pk))
    (fun o _ => o.yields_setBip32 env path)

theorem P2pk.yields_addOutputTokens (env : Env) (p : P2pk) (input : Bytes) :
    Yields ok (p.addOutputTokensF env ok input) (p.addOutputTokens env input) OpFault :=
  p.yields_withOut
    (fun x => x.yields_boxPart (fun b => b.yields_addTokens (accCbs_good env) _ input))
    (fun _ _ => .ret _ _)

theorem P2pk.yields_addOutputRegisters (env : Env) (p : P2pk) (chunk : Bytes) :
    Yields ok (p.addOutputRegistersF env ok chunk) (p.addOutputRegisters env chunk) OpFault :=
  p.yields_withOut (fun x => x.yields_boxPart (fun b => b.yields_addRegisters (accCbs_good env) chunk))
    (fun _ _ => .ret _ _)

theorem P2pk.yields_sendResponse (env : Env) (p : P2pk) :
    Yields ok (p.sendResponseF env ok) (p.sendResponse env)
      (fun r => ∃ sw, FaultCode sw ∧ r = .error sw) := by
  unfold P2pk.sendResponseF P2pk.sendResponse
  by_cases h1 : p.state ≠ .finalized
  · rw [if_pos h1, if_pos h1]; exact .ret _ _
  rw [if_neg h1, if_neg h1]
  refine (yields_genPrivate env p.path).andThen ?_ ?_
  · cases env.genPrivate p.path with
    | none => exact .ret _ _
    | some secret =>
      refine (yields_schnorrFinish env p.hash secret p.key).map' rfl ?_
      rintro r rfl
      exact ⟨_, .inr (.inr (.inr rfl)), rfl⟩
  · rintro r rfl
    exact .ret ⟨_, .inr (.inl rfl), rfl⟩

theorem yields_opStart (p : P2pk) (data : Bytes) :
    Yields ok (opStartF ok p data) (opStart p data) OpFault := by
  unfold opStartF opStart
  cases parseStart data with
  | error e => exact .ret _ _
  | ok t => exact p.yields_startTx _ _ _ _

theorem yields_opFrame (env : Env) (key : Bytes) (p : P2pk) (data : Bytes) :
    Yields ok (opFrameF env ok key p data) (opFrame env key p data) OpFault := by
  unfold opFrameF opFrame
  dsimp only
  by_cases h1 : (frameDataLen data).toNat = 0
  · rw [if_pos h1, if_pos h1]; exact .ret _ _
  rw [if_neg h1, if_neg h1]
  by_cases h2 : (env.hmac key (data.take (frameDataLen data).toNat)).take 16 ≠
      (data.drop (frameDataLen data).toNat).take 16
  · rw [if_pos h2, if_pos h2]; exact .ret _ _
  rw [if_neg h2, if_neg h2]
  cases frameParse data with
  | none => exact .ret _ _
  | some f =>
    dsimp only
    cases f.ext with
    | none => exact p.yields_addInputTokens _ _ _
    | some ext =>
      dsimp only
      cases p.addInput f.boxId f.value f.count ext with
      | ok q => exact q.yields_addInputTokens _ _ _
      | err e => exact .ret _ _
      | ub => exact .ret _ _

theorem yields_opOutput (p : P2pk) (data : Bytes) :
    Yields ok (opOutputF ok p data) (opOutput p data) OpFault := by
  unfold opOutputF opOutput
  cases parseOutput data with
  | error e => exact .ret _ _
  | ok t => exact p.yields_addOutput _ _ _ _ _

theorem yields_opFee (env : Env) (p : P2pk) (data : Bytes) :
    Yields ok (opFeeF env ok p data) (opFee env p data) OpFault := by
  unfold opFeeF opFee
  split_ifs
  · exact .ret _ _
  · exact p.yields_addOutputFee env

theorem yields_opChange (env : Env) (p : P2pk) (data : Bytes) :
    Yields ok (opChangeF env ok p data) (opChange env p data) OpFault := by
  unfold opChangeF opChange
  cases readPath data with
  | none => exact .ret _ _
  | some t =>
    obtain ⟨path, rest⟩ := t
    dsimp only
    by_cases h1 : ¬ pathValidate path .addressGe5
    · rw [if_pos h1, if_pos h1]; exact .ret _ _
    rw [if_neg h1, if_neg h1]
    refine (yields_genPublic env path).andThen ?_ ?_
    · cases env.genPublic path with
      | none => exact .ret _ _
      | some pc => exact p.yields_addOutputChange env path pc.1
    · rintro r rfl
      exact .ret opFault_crypto

/-! ## Attestation -/

theorem yields_attestInit (d : Bytes) (hasToken : Bool) (session : UInt8) :
    Yields ok (attestInitF ok d hasToken session) (attestInit d hasToken session)
      (fun r => ∃ sw, FaultCode sw ∧ r = .error sw) := by
  unfold attestInitF attestInit
  cases attestParse d hasToken with
  | error e => exact .ret _ _
  | ok i =>
    dsimp only
    refine Yields.need ?_ ⟨_, .inl rfl, rfl⟩
    refine (yields_boxInit i.value i.treeSize i.height i.tokens i.regs []).map' rfl ?_
    rintro ⟨c, h, r⟩ hr
    cases hr
    exact ⟨_, .inl rfl, rfl⟩

/-- The handler of the attestation ends with such a word. -/
def AttestFault (r : AttestRes) : Prop := ∃ sw, FaultCode sw ∧ r = .err sw

theorem AttestCtx.yields_checkFinished (env : Env) (x : AttestCtx) :
    Yields ok (x.checkFinishedF env ok) (x.checkFinished env) AttestFault := by
  unfold AttestCtx.checkFinishedF AttestCtx.checkFinished
  by_cases h1 : x.st.c.state ≠ .finished
  · rw [if_pos h1, if_pos h1]; exact .ret _ _
  rw [if_neg h1, if_neg h1]
  refine (BoxSt.yields_idHash env x.st x.boxId x.index).map' rfl ?_
  rintro ⟨y, r⟩ hr
  cases hr
  exact ⟨_, .inl rfl, rfl⟩

theorem AttestCtx.yields_part (env : Env) (x : AttestCtx)
    {m : Calls (BoxSt (List (Bytes × UInt64)) × Res BoxErr)}
    {r : BoxSt (List (Bytes × UInt64)) × Res BoxErr} (h : Yields ok m r HashErr) :
    Yields ok (x.partF env ok m) (x.part env r) AttestFault := by
  unfold AttestCtx.partF AttestCtx.part
  by_cases h1 : x.state ≠ .approved
  · rw [if_pos h1, if_pos h1]; exact .ret _ _
  rw [if_neg h1, if_neg h1]
  refine h.andThen ?_ ?_
  · obtain ⟨y, r⟩ := r
    cases r with
    | ok => exact AttestCtx.yields_checkFinished env _
    | more => exact .ret _ _
    | err e => exact .ret _ _
    | ub => exact .ret _ _
  · rintro ⟨y, r⟩ hr
    cases hr
    exact .ret ⟨_, .inl rfl, rfl⟩

end Ergo
