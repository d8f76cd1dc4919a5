import Verif.Proof.Calls
/-!
# Each function with calls against the same function without failures
-/
namespace Ergo
open Calls

variable {ok : Nat → Bool} {σ : Type}

/-! ## Keys, addresses, Schnorr -/

theorem yields_genPublic (env : Env) (path : List UInt32) :
    Yields ok (env.genPublicF ok path) (env.genPublic path) (· = none) := by
  unfold Env.genPublicF Env.genPublic
  refine Yields.need ?_ rfl
  cases env.derive path with
  | none => exact .ret _ _
  | some kc =>
    dsimp only
    refine Yields.needs ?_ (by rfl) 2
    cases env.pubOf kc.1 with
    | none => exact .ret _ _
    | some p => exact .ret _ _

theorem yields_genPrivate (env : Env) (path : List UInt32) :
    Yields ok (env.genPrivateF ok path) (env.genPrivate path) (· = none) := by
  unfold Env.genPrivateF Env.genPrivate
  refine Yields.need ?_ rfl
  cases env.derive path with
  | none => exact .ret _ _
  | some kc => exact Yields.need (.ret _ _) rfl

theorem yields_addressFromPubkey (env : Env) (network : UInt8) (pk : Bytes) :
    Yields ok (addressFromPubkeyF env ok network pk) (addressFromPubkey env network pk) (· = none) := by
  unfold addressFromPubkeyF addressFromPubkey
  split_ifs
  · exact Yields.need (.ret _ _) rfl
  · exact .ret _ _

theorem yields_addressFromCompressed (env : Env) (network : UInt8) (pk : Bytes) :
    Yields ok (addressFromCompressedF env ok network pk) (addressFromCompressed env network pk)
      (· = none) := by
  unfold addressFromCompressedF addressFromCompressed
  split_ifs
  · exact Yields.need (.ret _ _) rfl
  · exact .ret _ _

theorem yields_addressFromScriptHash (env : Env) (network : UInt8) (h : Bytes) :
    Yields ok (addressFromScriptHashF env ok network h) (addressFromScriptHash env network h)
      (· = none) := by
  unfold addressFromScriptHashF addressFromScriptHash
  split_ifs
  · exact Yields.need (.ret _ _) rfl
  · exact .ret _ _

theorem yields_schnorrTry (env : Env) (secret draw : Bytes) :
    Yields ok (schnorrTryF env ok secret draw) (schnorrTry env secret draw) (· = none) := by
  have hs : ∀ k : Bytes, (¬ scalarOk k = true) = (beNat k = 0 ∨ beNat k > secpN) := by
    intro k
    simp only [scalarOk, Bool.and_eq_true, decide_eq_true_eq, Bool.not_eq_true', decide_eq_false_iff_not,
      ne_eq, eq_iff_iff]
    omega
  unfold schnorrTryF schnorrTry
  simp only [hs]
  refine Yields.needs ?_ (by rfl) 2
  by_cases h1 : beNat secret = 0
  · simp only [h1, true_or, if_true]
    exact .ret _ _
  · simp only [h1, false_or, if_false]
    refine Yields.need ?_ rfl
    by_cases h2 : beNat secret > secpN
    · simp only [h2, if_true]
      exact .ret _ _
    · simp only [h2, if_false]
      refine Yields.need ?_ rfl
      cases env.mulG secret with
      | none => exact .ret _ _
      | some pk =>
        dsimp only
        refine Yields.needs ?_ (by rfl) 2
        by_cases h3 : beNat draw = 0
        · simp only [h3, true_or, if_true]
          exact .ret _ _
        · simp only [h3, false_or, if_false]
          refine Yields.need ?_ rfl
          by_cases h4 : beNat draw > secpN
          · simp only [h4, if_true]
            exact .ret _ _
          · simp only [h4, if_false]
            refine Yields.need ?_ rfl
            cases env.mulG draw with
            | none => exact .ret _ _
            | some w => exact Yields.need (.ret _ _) rfl

/-- What a loop with failures may give: nothing, or the result of one of the draws. -/
def SomeDraw (env : Env) (secret : Bytes) (draws : Nat → Bytes) (r : Option (Bytes × Bytes)) : Prop :=
  r = none ∨ ∃ i, r = schnorrTry env secret (draws i) ∧ r ≠ none

theorem ends_schnorrInitLoop (env : Env) (secret : Bytes) (draws : Nat → Bytes) :
    ∀ fuel i, CallEnds (schnorrInitLoopF env ok secret draws fuel i) (SomeDraw env secret draws)
  | 0, _ => .ret (.inl rfl)
  | fuel + 1, i => by
    have h := yields_schnorrTry (ok := ok) env secret (draws i)
    have ih := ends_schnorrInitLoop env secret draws fuel (i + 1)
    refine ⟨fun n => ?_, fun n => ?_⟩
    · have h1 := h.le n
      simp only [schnorrInitLoopF, andThen]
      cases (schnorrTryF env ok secret (draws i) n).1 with
      | none => exact Nat.le_trans h1 (ih.le _)
      | some r => exact h1
    · simp only [schnorrInitLoopF, andThen]
      cases hr : (schnorrTryF env ok secret (draws i) n).1 with
      | none => exact ih.res _
      | some r =>
        refine .inr ⟨i, ?_, by simp [ret]⟩
        have he : CallEnds (schnorrTryF env ok secret (draws i))
            (fun r => r = schnorrTry env secret (draws i) ∨ r = none) :=
          h.ends (.inl rfl) (fun r hr => .inr hr)
        rcases he.res n with h1 | h1
        · rw [hr] at h1
          exact h1
        · rw [hr] at h1
          cases h1

theorem yields_schnorrInitLoop (env : Env) (secret : Bytes) (draws : Nat → Bytes) :
    ∀ fuel i, Yields ok (schnorrInitLoopF env ok secret draws fuel i)
      (schnorrInitLoop env secret draws fuel i) (SomeDraw env secret draws)
  | 0, _ => .ret _ _
  | fuel + 1, i => by
    refine (yields_schnorrTry env secret (draws i)).andThen ?_ ?_
    · unfold schnorrInitLoop
      cases he : schnorrTry env secret (draws i) with
      | none => exact yields_schnorrInitLoop env secret draws fuel (i + 1)
      | some r => exact .ret _ _
    · rintro r rfl
      exact ends_schnorrInitLoop env secret draws fuel (i + 1)

theorem yields_schnorrFinish (env : Env) (t secret key : Bytes) :
    Yields ok (schnorrFinishF env ok t secret key) (schnorrFinish env t secret key) (· = none) := by
  unfold schnorrFinishF schnorrFinish
  refine Yields.need ?_ rfl
  dsimp only
  split_ifs
  · exact .ret _ _
  · exact Yields.needs (.ret _ _) (by rfl) 2

/-! ## Box serializer -/

/-- The result is the hash error. -/
abbrev HashErr {α : Type} (r : α × Res BoxErr) : Prop := r.2 = .err .hasher

theorem BoxSt.yields_check {x : BoxSt σ} {r : Res BoxErr} {m : Calls (BoxSt σ × Res BoxErr)}
    {k : BoxSt σ × Res BoxErr} (h : Yields ok m k HashErr) :
    Yields ok (x.checkF r m) (x.check r k) HashErr := by
  cases r with
  | ok => exact h
  | more => exact h
  | err e => exact .ret _ _
  | ub => exact .ret _ _

/-- The callback at the end of a box, with and without failures. -/
def BoxCbsF.Good (ok : Nat → Bool) (c : BoxCbsF σ) : Prop :=
  ∀ ty s, Yields ok (c.onFinished ty s) (c.cbs.onFinished ty s) HashErr

theorem BoxSt.yields_finish {c : BoxCbsF σ} (hc : c.Good ok) (x : BoxSt σ) :
    Yields ok (BoxSt.finishF c x) (BoxSt.finish c.cbs x) HashErr := by
  unfold BoxSt.finishF BoxSt.finish
  refine (hc _ _).map' rfl ?_
  rintro ⟨s, r⟩ hr
  cases hr
  rfl

theorem BoxSt.yields_treeAdded {c : BoxCbsF σ} (hc : c.Good ok) (x : BoxSt σ) :
    Yields ok (BoxSt.treeAddedF ok c x) (BoxSt.treeAdded c.cbs x) HashErr := by
  unfold BoxSt.treeAddedF BoxSt.treeAdded
  dsimp only
  refine BoxSt.yields_check (Yields.needs ?_ (by rfl) 2)
  split_ifs
  · exact Yields.need (BoxSt.yields_finish hc _) rfl
  · exact .ret _ _
  · exact .ret _ _

theorem yields_boxInit (value : UInt64) (treeSize height : UInt32) (tokens : UInt8) (regs : UInt32)
    (h : Bytes) : Yields ok (boxInitF ok value treeSize height tokens regs h)
      (boxInit value treeSize height tokens regs h) (fun r => r.2.2 = .err .hasher) := by
  unfold boxInitF boxInit
  dsimp only
  split_ifs
  · exact .ret _ _
  · exact .ret _ _
  · exact .ret _ _
  · exact Yields.need (.ret _ _) rfl

theorem BoxSt.yields_addTree {c : BoxCbsF σ} (hc : c.Good ok) (x : BoxSt σ) (chunk : Bytes) :
    Yields ok (x.addTreeF ok c chunk) (x.addTree c.cbs chunk) HashErr := by
  unfold BoxSt.addTreeF BoxSt.addTree
  by_cases h1 : x.c.state ≠ .initialized
  · rw [if_pos h1, if_pos h1]; exact .ret _ _
  rw [if_neg h1, if_neg h1]
  by_cases h2 : x.c.treeSize.toNat < chunk.length
  · rw [if_pos h2, if_pos h2]; exact .ret _ _
  rw [if_neg h2, if_neg h2]
  by_cases h3 : x.c.treeSize.toNat > chunk.length ∧ chunk.length < maxChunk
  · rw [if_pos h3, if_pos h3]; exact .ret _ _
  rw [if_neg h3, if_neg h3]
  refine Yields.need ?_ rfl
  dsimp only
  split_ifs
  · exact BoxSt.yields_treeAdded hc _
  · exact .ret _ _

theorem BoxSt.yields_addFeeTree {c : BoxCbsF σ} (hc : c.Good ok) (x : BoxSt σ) :
    Yields ok (x.addFeeTreeF ok c) (x.addFeeTree c.cbs) HashErr := by
  unfold BoxSt.addFeeTreeF BoxSt.addFeeTree
  split_ifs
  · exact .ret _ _
  · exact Yields.need (BoxSt.yields_treeAdded hc _) rfl

theorem BoxSt.yields_addChangeTree {c : BoxCbsF σ} (hc : c.Good ok) (x : BoxSt σ) (pk : Bytes) :
    Yields ok (x.addChangeTreeF ok c pk) (x.addChangeTree c.cbs pk) HashErr := by
  unfold BoxSt.addChangeTreeF BoxSt.addChangeTree
  split_ifs
  · exact .ret _ _
  · exact Yields.need (BoxSt.yields_treeAdded hc _) rfl

theorem BoxSt.yields_tokensLoop (c : BoxCbsF σ) (table : Option TableArg) :
    ∀ (n : Nat) (input : Bytes) (x : BoxSt σ),
      Yields ok (BoxSt.tokensLoopF ok c table n input x) (BoxSt.tokensLoop c.cbs table n input x) HashErr
  | _, [], x => by
    unfold BoxSt.tokensLoopF BoxSt.tokensLoop
    exact .ret _ _
  | 0, _ :: _, x => .ret _ _
  | n + 1, b :: bs, x => by
    unfold BoxSt.tokensLoopF BoxSt.tokensLoop
    split_ifs
    · exact .ret _ _
    cases boxTokenId table (b :: bs) with
    | error e =>
      obtain ⟨e, f⟩ := e
      cases f with
      | true => exact .ret _ _
      | false => exact .ret _ _
    | ok t =>
      obtain ⟨id, rest, hashed⟩ := t
      dsimp only
      refine Yields.need ?_ rfl
      cases bufU64 rest with
      | none => exact .ret _ _
      | some v =>
        dsimp only
        refine Yields.need ?_ rfl
        exact BoxSt.yields_check (BoxSt.yields_tokensLoop c table n _ _)

theorem BoxSt.yields_addTokens {c : BoxCbsF σ} (hc : c.Good ok) (table : Option TableArg) (x : BoxSt σ)
    (input : Bytes) : Yields ok (x.addTokensF ok c table input) (x.addTokens c.cbs table input) HashErr := by
  unfold BoxSt.addTokensF BoxSt.addTokens
  split_ifs
  · exact .ret _ _
  refine (BoxSt.yields_tokensLoop c table input.length input x).andThen ?_ ?_
  · cases hr : BoxSt.tokensLoop c.cbs table input.length input x with
    | mk y r =>
      cases r with
      | ok =>
        dsimp only
        split_ifs
        · exact Yields.need (BoxSt.yields_finish hc _) rfl
        · exact .ret _ _
        · exact .ret _ _
      | more => exact .ret _ _
      | err e => exact .ret _ _
      | ub => exact .ret _ _
  · rintro ⟨y, r⟩ hr
    cases hr
    exact .ret rfl

theorem BoxSt.yields_addRegisters {c : BoxCbsF σ} (hc : c.Good ok) (x : BoxSt σ) (chunk : Bytes) :
    Yields ok (x.addRegistersF ok c chunk) (x.addRegisters c.cbs chunk) HashErr := by
  unfold BoxSt.addRegistersF BoxSt.addRegisters
  by_cases h1 : x.c.state ≠ .tokensAdded
  · rw [if_pos h1, if_pos h1]; exact .ret _ _
  rw [if_neg h1, if_neg h1]
  by_cases h2 : x.c.regsSize.toNat < chunk.length
  · rw [if_pos h2, if_pos h2]; exact .ret _ _
  rw [if_neg h2, if_neg h2]
  refine Yields.need ?_ rfl
  dsimp only
  split_ifs
  · exact BoxSt.yields_finish hc _
  · exact .ret _ _

theorem BoxSt.yields_idHash (env : Env) (x : BoxSt σ) (txId : Bytes) (index : UInt16) :
    Yields ok (x.idHashF env ok txId index) (x.idHash env txId index) (fun r => r.2 = .error .hasher) := by
  unfold BoxSt.idHashF BoxSt.idHash
  split_ifs
  · exact .ret _ _
  · exact Yields.needs (.ret _ _) (by rfl) 3

/-! ## Input serializer -/

theorem InputSt.yields_addTokens (x : InputSt) (boxId : Bytes) (index : UInt8) (tokens : Bytes) :
    Yields ok (x.addTokensF ok boxId index tokens) (x.addTokens boxId index tokens)
      (fun r => r.2 = .err .hasher) := by
  unfold InputSt.addTokensF InputSt.addTokens
  by_cases h1 : x.c.state ≠ .framesStarted
  · rw [if_pos h1, if_pos h1]; exact .ret _ _
  rw [if_neg h1, if_neg h1]
  by_cases h2 : x.c.boxId ≠ boxId
  · rw [if_pos h2, if_pos h2]; exact .ret _ _
  rw [if_neg h2, if_neg h2]
  by_cases h3 : index ≥ x.c.framesCount
  · rw [if_pos h3, if_pos h3]; exact .ret _ _
  rw [if_neg h3, if_neg h3]
  by_cases h4 : index ≠ x.c.framesProcessed
  · rw [if_pos h4, if_pos h4]; exact .ret _ _
  rw [if_neg h4, if_neg h4]
  cases InputSt.tokensLoop tokens.length tokens x with
  | mk y r =>
    cases r with
    | ok =>
      dsimp only
      by_cases h5 : y.c.framesProcessed + 1 = y.c.framesCount
      · rw [if_pos h5, if_pos h5]
        refine Yields.needs ?_ (by rfl) 2
        split_ifs
        · exact Yields.need (.ret _ _) rfl
        · exact .ret _ _
      · rw [if_neg h5, if_neg h5]
        exact .ret _ _
    | more => exact .ret _ _
    | err e => exact .ret _ _
    | ub => exact .ret _ _

theorem InputSt.yields_addExtension (x : InputSt) (chunk : Bytes) :
    Yields ok (x.addExtensionF ok chunk) (x.addExtension chunk) (fun r => r.2 = .err .hasher) := by
  unfold InputSt.addExtensionF InputSt.addExtension
  by_cases h1 : x.c.state ≠ .extensionStarted
  · rw [if_pos h1, if_pos h1]; exact .ret _ _
  rw [if_neg h1, if_neg h1]
  by_cases h2 : x.c.extSize.toNat < chunk.length
  · rw [if_pos h2, if_pos h2]; exact .ret _ _
  rw [if_neg h2, if_neg h2]
  refine Yields.need ?_ rfl
  dsimp only
  split_ifs
  · exact .ret _ _
  · exact .ret _ _

theorem yields_tableHash (distinct : UInt8) :
    Yields ok (tableHashF ok distinct) .ok (fun r => r = .err .hasher) :=
  Yields.needs (.ret _ _) (by rfl) _

/-! ## Output info -/

theorem OutInfo.yields_maybeFinished (env : Env) (o : OutInfo) :
    Yields ok (o.maybeFinishedF env ok) (some (o.maybeFinished env)) (· = none) := by
  unfold OutInfo.maybeFinishedF OutInfo.maybeFinished
  by_cases h1 : o.finished = true
  · rw [if_pos h1, if_pos h1]
    by_cases h2 : o.type = .script
    · rw [if_pos h2, if_pos h2]
      refine Yields.need ?_ rfl
      cases o.data <;> exact .ret _ _
    · rw [if_neg h2, if_neg h2]
      exact .ret _ _
  · rw [if_neg h1, if_neg h1]
    exact .ret _ _

theorem OutInfo.yields_ofMaybe (env : Env) (o : OutInfo) :
    Yields ok (outOfMaybeF (o.maybeFinishedF env ok)) (some (.ofMaybe (o.maybeFinished env)))
      (· = none) :=
  (OutInfo.yields_maybeFinished env o).map' rfl (by rintro r rfl; rfl)

theorem OutInfo.yields_setBip32 (env : Env) (o : OutInfo) (p : List UInt32) :
    Yields ok (o.setBip32F env ok p) (some (o.setBip32 env p)) (· = none) := by
  unfold OutInfo.setBip32F OutInfo.setBip32
  split_ifs
  · exact .ret _ _
  · exact OutInfo.yields_ofMaybe env _

theorem OutInfo.yields_setFee (env : Env) (o : OutInfo) :
    Yields ok (o.setFeeF env ok) (some (o.setFee env)) (· = none) := by
  unfold OutInfo.setFeeF OutInfo.setFee
  split_ifs
  · exact .ret _ _
  · exact OutInfo.yields_ofMaybe env _

theorem OutInfo.yields_addTreeChunk (env : Env) (o : OutInfo) (chunk : Bytes) (fin : Bool) :
    Yields ok (o.addTreeChunkF env ok chunk fin) (some (o.addTreeChunk env chunk fin)) (· = none) := by
  unfold OutInfo.addTreeChunkF OutInfo.addTreeChunk
  by_cases h1 : o.type ≠ .unknown ∧ o.type ≠ .script
  · rw [if_pos h1, if_pos h1]; exact .ret _ _
  rw [if_neg h1, if_neg h1]
  by_cases h2 : o.treeSet = true
  · rw [if_pos h2, if_pos h2]; exact .ret _ _
  rw [if_neg h2, if_neg h2]
  dsimp only
  refine Yields.needs ?_ (by rfl) _
  generalize (if o.type = .unknown then o.classify chunk fin else o) = q
  by_cases h3 : q.type = .script
  · rw [if_pos h3, if_pos h3]
    refine Yields.need ?_ rfl
    cases q.data with
    | hashing bs => exact OutInfo.yields_ofMaybe env _
    | _ => exact .ret _ _
  · rw [if_neg h3, if_neg h3]
    exact OutInfo.yields_ofMaybe env _

theorem OutInfo.yields_setBoxFinished (env : Env) (o : OutInfo) :
    Yields ok (o.setBoxFinishedF env ok) (o.setBoxFinished env) HashErr := by
  unfold OutInfo.setBoxFinishedF OutInfo.setBoxFinished
  refine (OutInfo.yields_maybeFinished env _).map' ?_ ?_
  · cases ({ o with boxFinished := true } : OutInfo).maybeFinished env <;> rfl
  · rintro r rfl
    rfl

end Ergo
