import Verif.Model.Failing
import Mathlib.Tactic.SplitIfs
/-!
# Number of calls
-/
namespace Ergo
open Calls

/-- At most `k` calls. -/
structure Costs {α : Type} (m : Calls α) (k : Nat) : Prop where
  le : ∀ n, (m n).2 ≤ n + k

variable {α β σ : Type} {ok : Nat → Bool} {env : Env}

theorem Costs.ret (a : α) (k : Nat) : Costs (ret a) k := ⟨fun n => Nat.le_add_right n k⟩

theorem Costs.mono {m : Calls α} {k l : Nat} (h : Costs m k) (hl : k ≤ l) : Costs m l :=
  ⟨fun n => Nat.le_trans (h.le n) (by omega)⟩

theorem Costs.need {bad : α} {rest : Calls α} {k : Nat} (h : Costs rest k) :
    Costs (need ok bad rest) (k + 1) := by
  refine ⟨fun n => ?_⟩
  unfold Calls.need
  split
  · have := h.le (n + 1); omega
  · simp only; omega

theorem Costs.needs {bad : α} {rest : Calls α} {k : Nat} (h : Costs rest k) :
    ∀ j, Costs (needs ok j bad rest) (k + j)
  | 0 => h
  | j + 1 => (Costs.needs h j).need

theorem Costs.map {f : α → β} {m : Calls α} {k : Nat} (h : Costs m k) : Costs (map f m) k := ⟨h.le⟩

theorem Costs.andThen {m : Calls α} {f : α → Calls β} {k l : Nat} (h : Costs m k)
    (h' : ∀ r, Costs (f r) l) : Costs (andThen m f) (k + l) := by
  refine ⟨fun n => ?_⟩
  have h1 := h.le n
  have h2 := (h' (m n).1).le (m n).2
  simp only [Calls.andThen]
  omega

theorem Costs.ite {c : Prop} [Decidable c] {m m' : Calls α} {k : Nat} (h : Costs m k) (h' : Costs m' k) :
    Costs (if c then m else m') k := by
  split
  · exact h
  · exact h'

theorem costs_genPublic (path : List UInt32) : Costs (env.genPublicF ok path) 3 := by
  unfold Env.genPublicF
  refine Costs.need (k := 2) ?_
  split
  · exact .ret _ _
  · refine Costs.needs (k := 0) ?_ 2
    split <;> exact .ret _ _

theorem costs_genPrivate (path : List UInt32) : Costs (env.genPrivateF ok path) 2 := by
  unfold Env.genPrivateF
  refine Costs.need (k := 1) ?_
  split
  · exact .ret _ _
  · exact Costs.need (.ret _ 0)

theorem costs_addressFromPubkey (n : UInt8) (pk : Bytes) : Costs (addressFromPubkeyF env ok n pk) 1 :=
  .ite (Costs.need (.ret _ 0)) (.ret _ _)
theorem costs_addressFromCompressed (n : UInt8) (pk : Bytes) :
    Costs (addressFromCompressedF env ok n pk) 1 := .ite (Costs.need (.ret _ 0)) (.ret _ _)
theorem costs_addressFromScriptHash (n : UInt8) (pk : Bytes) :
    Costs (addressFromScriptHashF env ok n pk) 1 := .ite (Costs.need (.ret _ 0)) (.ret _ _)

theorem costs_schnorrTry (secret draw : Bytes) : Costs (schnorrTryF env ok secret draw) 9 := by
  unfold schnorrTryF
  refine Costs.needs (k := 7) (.ite (.ret _ _) (Costs.need (k := 6) (.ite (.ret _ _) (Costs.need (k := 5) ?_)))) 2
  split
  · exact .ret _ _
  · refine Costs.needs (k := 3) (.ite (.ret _ _) (Costs.need (k := 2) (.ite (.ret _ _) (Costs.need (k := 1) ?_)))) 2
    split
    · exact .ret _ _
    · exact Costs.need (.ret _ 0)

theorem costs_schnorrInitLoop (secret : Bytes) (draws : Nat → Bytes) :
    ∀ fuel i, Costs (schnorrInitLoopF env ok secret draws fuel i) (9 * fuel)
  | 0, _ => .ret _ _
  | fuel + 1, i => by
    unfold schnorrInitLoopF
    refine Costs.mono (k := 9 + 9 * fuel) (Costs.andThen (costs_schnorrTry _ _) ?_) (by omega)
    intro r
    cases r with
    | some r => exact .ret _ _
    | none => exact costs_schnorrInitLoop secret draws fuel (i + 1)

theorem costs_schnorrFinish (t s k : Bytes) : Costs (schnorrFinishF env ok t s k) 3 := by
  unfold schnorrFinishF
  exact Costs.need (k := 2) (.ite (.ret _ _) (Costs.needs (k := 0) (.ret _ _) 2))

theorem costs_check (x : BoxSt σ) (r : Res BoxErr) {k : Calls (BoxSt σ × Res BoxErr)} {n : Nat}
    (h : Costs k n) : Costs (x.checkF r k) n := by
  cases r with
  | ok => exact h
  | more => exact h
  | err e => exact .ret _ _
  | ub => exact .ret _ _

/-- The callback at the end of a box makes at most one call. -/
def BoxCbsF.Cheap (cbs : BoxCbsF σ) : Prop := ∀ t s, Costs (cbs.onFinished t s) 1

theorem costs_finish {cbs : BoxCbsF σ} (hc : cbs.Cheap) (x : BoxSt σ) : Costs (x.finishF cbs) 1 :=
  Costs.map (hc _ _)

theorem costs_treeAdded {cbs : BoxCbsF σ} (hc : cbs.Cheap) (x : BoxSt σ) : Costs (x.treeAddedF ok cbs) 4 :=
  costs_check _ _ (Costs.needs (k := 2) (.ite (.ite (Costs.need (costs_finish hc _)) (.ret _ _)) (.ret _ _)) 2)

theorem costs_boxInit (v : UInt64) (t h : UInt32) (k : UInt8) (r : UInt32) (b : Bytes) :
    Costs (boxInitF ok v t h k r b) 1 :=
  .ite (.ret _ _) (.ite (.ret _ _) (.ite (.ret _ _) (Costs.need (.ret _ 0))))

theorem costs_addTree {cbs : BoxCbsF σ} (hc : cbs.Cheap) (x : BoxSt σ) (b : Bytes) :
    Costs (x.addTreeF ok cbs b) 5 :=
  .ite (.ret _ _) (.ite (.ret _ _) (.ite (.ret _ _) (Costs.need (.ite (costs_treeAdded hc _) (.ret _ _)))))

theorem costs_addFeeTree {cbs : BoxCbsF σ} (hc : cbs.Cheap) (x : BoxSt σ) :
    Costs (x.addFeeTreeF ok cbs) 5 := .ite (.ret _ _) (Costs.need (costs_treeAdded hc _))

theorem costs_addChangeTree {cbs : BoxCbsF σ} (hc : cbs.Cheap) (x : BoxSt σ) (pk : Bytes) :
    Costs (x.addChangeTreeF ok cbs pk) 5 := .ite (.ret _ _) (Costs.need (costs_treeAdded hc _))

theorem costs_tokensLoop (cbs : BoxCbsF σ) (table : Option TableArg) :
    ∀ n b x, Costs (BoxSt.tokensLoopF ok cbs table n b x) (2 * n)
  | _, [], _ => by unfold BoxSt.tokensLoopF; exact .ret _ _
  | 0, _ :: _, _ => .ret _ _
  | n + 1, b :: bs, x => by
    unfold BoxSt.tokensLoopF
    refine .ite (.ret _ _) ?_
    split
    · exact .ret _ _
    · exact .ret _ _
    · refine Costs.need (k := 2 * n + 1) ?_
      dsimp only
      split
      · exact .ret _ _
      · exact Costs.need (costs_check _ _ (costs_tokensLoop cbs table n _ _))

theorem costs_addTokens {cbs : BoxCbsF σ} (hc : cbs.Cheap) (table : Option TableArg) (x : BoxSt σ)
    (b : Bytes) : Costs (x.addTokensF ok cbs table b) (2 * b.length + 2) := by
  refine .ite (.ret _ _) (Costs.andThen (costs_tokensLoop ..) ?_)
  intro r
  split
  · exact .ite (.ite (Costs.need (costs_finish hc _)) (.ret _ _)) (.ret _ _)
  · exact .ret _ _

theorem costs_addRegisters {cbs : BoxCbsF σ} (hc : cbs.Cheap) (x : BoxSt σ) (b : Bytes) :
    Costs (x.addRegistersF ok cbs b) 2 :=
  .ite (.ret _ _) (.ite (.ret _ _) (Costs.need (.ite (costs_finish hc _) (.ret _ _))))

theorem costs_idHash (x : BoxSt σ) (t : Bytes) (i : UInt16) : Costs (x.idHashF env ok t i) 3 :=
  .ite (.ret _ _) (Costs.needs (k := 0) (.ret _ _) 3)

theorem costs_inputTokens (x : InputSt) (b : Bytes) (i : UInt8) (t : Bytes) :
    Costs (x.addTokensF ok b i t) 3 := by
  refine .ite (.ret _ _) (.ite (.ret _ _) (.ite (.ret _ _) (.ite (.ret _ _) ?_)))
  split
  · exact .ite (Costs.needs (k := 1) (.ite (Costs.need (.ret _ 0)) (.ret _ _)) 2) (.ret _ _)
  · exact .ret _ _

theorem costs_inputExtension (x : InputSt) (b : Bytes) : Costs (x.addExtensionF ok b) 1 :=
  .ite (.ret _ _) (.ite (.ret _ _) (Costs.need (k := 0) (.ite (.ret _ _) (.ret _ _))))

theorem costs_tableHash (n : UInt8) : Costs (tableHashF ok n) 256 :=
  Costs.mono (Costs.needs (k := 0) (.ret _ _) _) (by have := n.toNat_lt; omega)

theorem costs_maybeFinished (o : OutInfo) : Costs (o.maybeFinishedF env ok) 1 := by
  refine .ite (.ite (Costs.need (k := 0) ?_) (.ret _ _)) (.ret _ _)
  split <;> exact .ret _ _

theorem costs_setBip32 (o : OutInfo) (p : List UInt32) : Costs (o.setBip32F env ok p) 1 :=
  .ite (.ret _ _) (Costs.map (costs_maybeFinished _))

theorem costs_setFee (o : OutInfo) : Costs (o.setFeeF env ok) 1 :=
  .ite (.ret _ _) (Costs.map (costs_maybeFinished _))

theorem costs_addTreeChunk (o : OutInfo) (b : Bytes) (f : Bool) : Costs (o.addTreeChunkF env ok b f) 3 := by
  refine .ite (.ret _ _) (.ite (.ret _ _) ?_)
  refine Costs.mono (Costs.needs (k := 2) ?_ _) (show 2 + _ ≤ 3 by split_ifs <;> omega)
  refine .ite (Costs.need (k := 1) ?_) ((Costs.map (costs_maybeFinished _)).mono (by omega))
  split
  · exact Costs.map (costs_maybeFinished _)
  · exact .ret _ _

theorem accCbs_cheap : (accCbsF env ok).Cheap := by
  intro t s
  have h : Costs (s.o.setBoxFinishedF env ok) 1 := Costs.map (costs_maybeFinished _)
  exact ⟨h.le⟩

theorem attestCbs_cheap : attestCbsF.Cheap := fun _ _ => .ret _ _

theorem costs_dataInputsFinished (x : FullSt) : Costs (x.dataInputsFinishedF ok) 257 := by
  refine Costs.andThen (costs_tableHash _) (l := 1) ?_
  intro r
  split
  · exact .ret _ _
  · exact Costs.need (.ret _ 0)

theorem costs_inputFinished (x : FullSt) : Costs (x.inputFinishedF ok) 258 :=
  .ite (Costs.need (.ite (costs_dataInputsFinished _) (.ret _ _))) (.ret _ _)

theorem costs_fullInit (i d o : UInt16) (t : UInt8) (table : List Bytes) (h : Bytes) :
    Costs (fullInitF ok i d o t table h) 1 := .ite (.ret _ _) (.ite (.ret _ _) (Costs.need (.ret _ 0)))

theorem costs_fullInputTokens (x : FullSt) (b : Bytes) (i : UInt8) (t : Bytes) :
    Costs (x.addInputTokensF ok b i t) 261 := by
  refine .ite (.ret _ _) ?_
  split
  · refine Costs.andThen (costs_inputTokens ..) (l := 258) ?_
    intro r
    dsimp only
    split
    · exact .ite (costs_inputFinished _) (.ret _ _)
    all_goals exact .ret _ _
  · exact .ret _ _

theorem costs_fullExtension (x : FullSt) (b : Bytes) : Costs (x.addInputExtensionF ok b) 259 := by
  refine .ite (.ret _ _) ?_
  split
  · refine Costs.andThen (costs_inputExtension ..) (l := 258) ?_
    intro r
    dsimp only
    split
    · exact costs_inputFinished _
    all_goals exact .ret _ _
  · exact .ret _ _

theorem costs_dataInputsLoop : ∀ n b (x : FullSt), Costs (FullSt.dataInputsLoopF ok n b x) n
  | _, [], _ => by unfold FullSt.dataInputsLoopF; exact .ret _ _
  | 0, _ :: _, _ => .ret _ _
  | n + 1, b :: bs, x => by
    unfold FullSt.dataInputsLoopF
    refine .ite (.ret _ _) ?_
    split
    · exact .ret _ _
    · exact Costs.need (costs_dataInputsLoop n _ _)

theorem costs_fullDataInputs (x : FullSt) (b : Bytes) :
    Costs (x.addDataInputsF ok b) (b.length + 257) := by
  refine .ite (.ret _ _) (Costs.andThen (costs_dataInputsLoop ..) ?_)
  intro r
  split
  · exact .ite (costs_dataInputsFinished _) (.ret _ _)
  · exact .ret _ _

theorem costs_addBox (x : FullSt) (v : UInt64) (t h : UInt32) (k : UInt8) (r : UInt32) :
    Costs (x.addBoxF ok v t h k r) 1 := .ite (.ret _ _) (.ite (.ret _ _) (Costs.map (costs_boxInit ..)))

theorem costs_boxPart (x : FullSt) {f : BoxSt Acc → Calls (BoxSt Acc × Res BoxErr)} {k : Nat}
    (h : ∀ b, Costs (f b) k) : Costs (x.boxPartF f) k := by
  refine .ite (.ret _ _) ?_
  split
  · exact Costs.map (h _)
  · exact .ret _ _

theorem costs_p2pkInit (path : List UInt32) (n : UInt8) (draws : Nat → Bytes) :
    Costs (p2pkInitF env ok path n draws) 902 := by
  refine .ite (.ret _ _) (.ite (.ret _ _) (Costs.andThen (costs_genPrivate _) (l := 900) ?_))
  intro r
  split
  · exact .ret _ _
  · exact Costs.map (costs_schnorrInitLoop _ _ 100 0)

theorem costs_startTx (p : P2pk) (i d o : UInt16) (t : UInt8) : Costs (p.startTxF ok i d o t) 1 :=
  .ite (.ret _ _) (Costs.map (costs_fullInit ..))

theorem costs_withTx (p : P2pk) {f : FullSt → Calls (FullSt × Res FullErr)} {k : Nat}
    (h : ∀ x, Costs (f x) k) : Costs (p.withTxF f) k := by
  unfold P2pk.withTxF
  split
  · exact Costs.map (h _)
  · exact .ret _ _

theorem costs_withOut (p : P2pk) {f : FullSt → Calls (FullSt × Res FullErr)}
    {g : OutInfo → Bool → Calls (Option OutRes)} {k l : Nat} (h : ∀ x, Costs (f x) k)
    (h' : ∀ o b, Costs (g o b) l) : Costs (p.withOutF f g) (k + l) := by
  refine .ite (.ret _ _) ?_
  split
  · split
    · exact .ret _ _
    · refine Costs.andThen (h _) ?_
      intro r
      split
      · exact .ret _ _
      · exact .ret _ _
      · exact Costs.map (h' _ _)
  · exact .ret _ _

theorem costs_sendResponse (p : P2pk) : Costs (p.sendResponseF env ok) 5 := by
  refine .ite (.ret _ _) (Costs.andThen (costs_genPrivate _) (l := 3) ?_)
  intro r
  split
  · exact .ret _ _
  · exact Costs.map (costs_schnorrFinish ..)

theorem costs_attestInit (d : Bytes) (t : Bool) (s : UInt8) : Costs (attestInitF ok d t s) 2 := by
  unfold attestInitF
  split
  · exact .ret _ _
  · exact Costs.need (Costs.map (costs_boxInit ..))

theorem costs_checkFinished (x : AttestCtx) : Costs (x.checkFinishedF env ok) 3 :=
  .ite (.ret _ _) (Costs.map (costs_idHash ..))

theorem costs_part (x : AttestCtx) {r : Calls (BoxSt (List (Bytes × UInt64)) × Res BoxErr)} {k : Nat}
    (h : Costs r k) : Costs (x.partF env ok r) (k + 3) := by
  refine .ite (.ret _ _) (Costs.andThen h ?_)
  intro r
  split
  · exact costs_checkFinished _
  all_goals exact .ret _ _

theorem costs_extPubKey (d : Device) (data : Bytes) (t : Bool) : Costs (d.extPubKeyF env ok data t) 3 := by
  refine .ite (.ret _ _) ?_
  dsimp only
  split
  · exact .ret _ _
  · exact .ite (.ret _ _) (Costs.map (costs_genPublic _))

theorem costs_deriveAddress (d : Device) (data : Bytes) (s t : Bool) :
    Costs (d.deriveAddressF env ok data s t) 4 := by
  refine .ite (.ret _ _) ?_
  dsimp only
  split
  · exact .ret _ _
  · split
    · exact .ret _ _
    · refine .ite (.ret _ _) (Costs.andThen (costs_genPublic _) (l := 1) ?_)
      intro r
      split
      · exact .ret _ _
      · exact Costs.map (costs_addressFromPubkey ..)

theorem costs_attestSub (d : Device) (sub s : UInt8) (data : Bytes) (hl : data.length ≤ 255) :
    Costs (d.attestSubF env ok sub s data) 515 := by
  refine .ite (.ret _ _) ?_
  split
  · refine .ite (.ret _ _) (.ite ?_ (.ite ?_ (.ite ?_ (.ret _ _))))
    · exact (Costs.map (costs_part _ (costs_addTree attestCbs_cheap _ _))).mono (by omega)
    · exact (Costs.map (costs_part _ (costs_addTokens attestCbs_cheap _ _ _))).mono (by omega)
    · exact (Costs.map (costs_part _ (costs_addRegisters attestCbs_cheap _ _))).mono (by omega)
  · exact .ret _ _

theorem costs_addInputTokens (p : P2pk) (b : Bytes) (i : UInt8) (t : Bytes) :
    Costs (p.addInputTokensF ok b i t) 261 := by
  unfold P2pk.addInputTokensF
  exact .ite (.ret _ _) (costs_withTx _ fun _ => costs_fullInputTokens ..)

theorem costs_opFrame (key : Bytes) (p : P2pk) (data : Bytes) : Costs (opFrameF env ok key p data) 261 := by
  refine .ite (.ret _ _) (.ite (.ret _ _) ?_)
  split
  · exact .ret _ _
  · split
    · exact costs_addInputTokens ..
    · split
      · exact costs_addInputTokens ..
      · exact .ret _ _

theorem costs_opStart (p : P2pk) (data : Bytes) : Costs (opStartF ok p data) 1 := by
  unfold opStartF
  split
  · exact .ret _ _
  · exact costs_startTx ..

theorem costs_addExtension (p : P2pk) (data : Bytes) : Costs (p.addExtensionF ok data) 259 := by
  unfold P2pk.addExtensionF
  exact .ite (.ret _ _) (costs_withTx _ fun _ => costs_fullExtension ..)

theorem costs_addDataInputs (p : P2pk) (data : Bytes) :
    Costs (p.addDataInputsF ok data) (data.length + 257) := by
  unfold P2pk.addDataInputsF
  exact .ite (.ret _ _) (costs_withTx _ fun _ => costs_fullDataInputs ..)

theorem costs_opOutput (p : P2pk) (data : Bytes) : Costs (opOutputF ok p data) 1 := by
  unfold opOutputF
  split
  · exact .ret _ _
  · exact .ite (.ret _ _) (Costs.map (costs_withTx _ fun _ => costs_addBox ..))

theorem costs_addOutputTree (p : P2pk) (data : Bytes) : Costs (p.addOutputTreeF env ok data) 8 :=
  costs_withOut _ (fun _ => costs_boxPart _ fun _ => costs_addTree accCbs_cheap _ _)
    fun _ _ => costs_addTreeChunk ..

theorem costs_opFee (p : P2pk) (data : Bytes) : Costs (opFeeF env ok p data) 6 :=
  .ite (.ret _ _) (costs_withOut _ (fun _ => costs_boxPart _ fun _ => costs_addFeeTree accCbs_cheap _)
    fun _ _ => costs_setFee _)

theorem costs_opChange (p : P2pk) (data : Bytes) : Costs (opChangeF env ok p data) 9 := by
  unfold opChangeF
  split
  · exact .ret _ _
  · refine .ite (.ret _ _) (Costs.andThen (costs_genPublic _) (l := 6) ?_)
    intro r
    split
    · exact .ret _ _
    · exact costs_withOut _ (fun _ => costs_boxPart _ fun _ => costs_addChangeTree accCbs_cheap _ _)
        fun _ _ => costs_setBip32 ..

theorem costs_addOutputTokens (p : P2pk) (data : Bytes) :
    Costs (p.addOutputTokensF env ok data) (2 * data.length + 2) :=
  costs_withOut (l := 0) _ (fun _ => costs_boxPart _ fun _ => costs_addTokens accCbs_cheap _ _ _)
    fun _ _ => .ret _ _

theorem costs_addOutputRegisters (p : P2pk) (data : Bytes) :
    Costs (p.addOutputRegistersF env ok data) 2 :=
  costs_withOut (l := 0) _ (fun _ => costs_boxPart _ fun _ => costs_addRegisters accCbs_cheap _ _)
    fun _ _ => .ret _ _

theorem costs_signSub (d : Device) (sub s : UInt8) (data : Bytes) (hl : data.length ≤ 255) :
    Costs (d.signSubF env ok sub s data) 515 := by
  refine .ite (.ret _ _) ?_
  split
  · refine .ite (.ret _ _) (.ite (.ret _ _) (.ite ?_ (.ite (.ret _ _) (.ite ?_ (.ite ?_ (.ite ?_ (.ite ?_
      (.ite ?_ (.ite ?_ (.ite ?_ (.ite ?_ (.ite ?_ (.ret _ _)))))))))))))
    · exact (costs_opStart _ _).map.mono (by omega)
    · exact (costs_opFrame _ _ _).map.mono (by omega)
    · exact (costs_addExtension _ _).map.mono (by omega)
    · exact (costs_addDataInputs _ _).map.mono (by omega)
    · exact (costs_opOutput _ _).map.mono (by omega)
    · exact (costs_addOutputTree _ _).map.mono (by omega)
    · exact (costs_opFee _ _).map.mono (by omega)
    · exact (costs_opChange _ _).map.mono (by omega)
    · exact (costs_addOutputTokens _ _).map.mono (by omega)
    · exact (costs_addOutputRegisters _ _).map.mono (by omega)
  · exact .ret _ _

theorem costs_attestStart (d : Device) (data : Bytes) (t : Bool) (rnd : Rnd) :
    Costs (d.attestStartF ok data t rnd) 2 := by
  unfold Device.attestStartF
  exact (costs_attestInit _ _ _).map

theorem costs_attestInput (d : Device) (sub p2 : UInt8) (data : Bytes) (rnd : Rnd)
    (hl : data.length ≤ 255) : Costs (d.attestInputF env ok sub p2 data rnd) 515 :=
  .ite (.ret _ _) (.ite (.ite (.ret _ _) ((costs_attestStart _ _ _ _).mono (by omega)))
    (.ite (costs_attestSub _ _ _ _ hl) (.ret _ _)))

theorem costs_signStart (d : Device) (data : Bytes) (t : Bool) (rnd : Rnd) :
    Costs (d.signStartF env ok data t rnd) 902 := by
  unfold Device.signStartF
  dsimp only
  split
  · exact .ret _ _
  · exact (costs_p2pkInit _ _ _).map

theorem costs_signTransaction (d : Device) (sub p2 : UInt8) (data : Bytes) (rnd : Rnd)
    (hl : data.length ≤ 255) :
    Costs (d.signTransactionF env ok sub p2 data rnd) (if sub = 0x01 then 902 else 515) := by
  unfold Device.signTransactionF
  refine .ite (.ret _ _) ?_
  split_ifs with h1 h2 h3
  · exact .ret _ _
  · exact costs_signStart ..
  · exact costs_signSub _ _ _ _ hl
  · exact .ret _ _

theorem costs_act (d : Device) (cb : Callback) (a : Bool) : Costs (d.actF env ok cb a) 5 := by
  unfold Device.actF
  split
  · exact .ite (costs_sendResponse _).map (.ret _ _)
  · exact .ret _ _

theorem costs_printAddress (o : OutInfo) (n : UInt8) : Costs (printAddressF env ok o n) 1 := by
  refine .ite (.ret _ _) ?_
  split
  · split
    · exact (costs_addressFromCompressed _ _).map
    · exact .ret _ _
  · split
    · exact (costs_addressFromScriptHash _ _).map
    · exact .ret _ _
  · split
    · exact (costs_addressFromScriptHash _ _).map
    · exact .ret _ _
  · exact .ret _ _

theorem costs_show (nanoS : Bool) (d : Device) (cb : Callback) (k : Nat) :
    Costs (d.showF env ok nanoS cb k) 1 := by
  unfold Device.showF
  split
  · split
    · split
      · unfold showOutputF
        split
        · exact costs_printAddress ..
        · exact .ret _ _
      · exact .ret _ _
    · exact .ret _ _
  · exact .ret _ _

theorem costs_move (nanoS : Bool) (d : Device) (s : Screen) (m : Move) :
    Costs (d.moveF env ok nanoS s m) 1 := by
  unfold Device.moveF
  dsimp only
  split
  · exact .ret _ _
  · exact (costs_show ..).map

theorem costs_both (d : Device) (s : Screen) : Costs (d.bothF env ok s) 5 := by
  unfold Device.bothF
  split
  · exact costs_act ..
  · exact costs_act ..
  · exact costs_act ..
  · exact .ret _ _

theorem costs_dispatch (d : Device) (cla ins p1 p2 : UInt8) (data : Bytes) (rnd : Rnd)
    (hl : data.length ≤ 255) :
    Costs (d.dispatchF env ok cla ins p1 p2 data rnd) (if ins = 0x21 ∧ p1 = 0x01 then 902 else 515) := by
  unfold Device.dispatchF
  have hm : 515 ≤ if ins = 0x21 ∧ p1 = 0x01 then 902 else 515 := by split <;> omega
  refine .ite (.ret _ _) (.ite (.ite (.ret _ _) (.ret _ _)) (.ite (.ite (.ret _ _) (.ret _ _))
    (.ite (.ite (.ret _ _) ?_) (.ite (.ite (.ret _ _) ?_) (.ite (.ite (.ret _ _) ?_) ?_)))))
  · exact (costs_extPubKey ..).mono (by omega)
  · exact (costs_deriveAddress ..).mono (by omega)
  · exact (costs_attestInput _ _ _ _ _ hl).mono hm
  · by_cases hi : ins = 0x21
    · rw [if_pos hi]
      refine .ite (.ret _ _) ?_
      simp only [hi, true_and]
      exact costs_signTransaction _ _ _ _ _ hl
    · rw [if_neg hi]
      exact .ret _ _

end Ergo
