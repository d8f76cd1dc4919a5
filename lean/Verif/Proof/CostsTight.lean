import Verif.Proof.Costs
import Verif.Proof.SignRel
import Verif.Proof.Lengths
/-!
# Number of calls in devices that can be reached
-/
namespace Ergo
open Calls Spec

variable {α β σ : Type} {ok : Nat → Bool} {env : Env}

theorem Costs.bind {m : Calls α} {f : α → Calls β} {k l : Nat} {P : α → Prop} (h : Costs m k)
    (hp : ∀ n, P (m n).1) (h' : ∀ r, P r → Costs (f r) l) : Costs (Calls.andThen m f) (k + l) := by
  refine ⟨fun n => ?_⟩
  have h1 := h.le n
  have h2 := (h' (m n).1 (hp n)).le (m n).2
  simp only [Calls.andThen]
  omega

theorem tight_dataInputsFinished {x : FullSt} (hd : x.c.distinct.toNat ≤ 20) :
    Costs (x.dataInputsFinishedF ok) 22 := by
  have h1 : Costs (tableHashF ok x.c.distinct) 21 :=
    Costs.mono (Costs.needs (k := 0) (.ret _ _) _) (by omega)
  refine Costs.andThen h1 (l := 1) ?_
  intro r
  split
  · exact .ret _ _
  · exact Costs.need (.ret _ 0)

theorem tight_inputFinished {x : FullSt} (hd : x.c.distinct.toNat ≤ 20) :
    Costs (x.inputFinishedF ok) 23 :=
  .ite (Costs.need (.ite (tight_dataInputsFinished (by exact hd)) (.ret _ _))) (.ret _ _)

theorem tight_fullInputTokens {x : FullSt} (hd : x.c.distinct.toNat ≤ 20) (b : Bytes) (i : UInt8)
    (t : Bytes) : Costs (x.addInputTokensF ok b i t) 26 := by
  refine .ite (.ret _ _) ?_
  split
  · refine Costs.andThen (costs_inputTokens ..) (l := 23) ?_
    intro r
    dsimp only
    split
    · exact .ite (tight_inputFinished (by exact hd)) (.ret _ _)
    all_goals exact .ret _ _
  · exact .ret _ _

theorem tight_fullExtension {x : FullSt} (hd : x.c.distinct.toNat ≤ 20) (b : Bytes) :
    Costs (x.addInputExtensionF ok b) 24 := by
  refine .ite (.ret _ _) ?_
  split
  · refine Costs.andThen (costs_inputExtension ..) (l := 23) ?_
    intro r
    dsimp only
    split
    · exact tight_inputFinished (by exact hd)
    all_goals exact .ret _ _
  · exact .ret _ _

theorem bufBytes_length {n : Nat} {b id rest : Bytes} (h : bufBytes n b = some (id, rest)) :
    rest.length + n = b.length := by
  unfold bufBytes at h
  split at h
  · cases h
  · cases h
    rw [List.length_drop]
    omega

theorem tight_dataInputsLoop : ∀ n b (x : FullSt), Costs (FullSt.dataInputsLoopF ok n b x) (b.length / 32)
  | _, [], _ => by unfold FullSt.dataInputsLoopF; exact .ret _ _
  | 0, _ :: _, _ => .ret _ _
  | n + 1, b :: bs, x => by
    unfold FullSt.dataInputsLoopF
    refine .ite (.ret _ _) ?_
    split
    · exact .ret _ _
    · rename_i id rest hb
      have hl := bufBytes_length hb
      refine (Costs.need (tight_dataInputsLoop n _ _)).mono ?_
      simp only [idLen] at hl
      omega

theorem dataInputsLoopF_distinct : ∀ n b (x : FullSt) k,
    (FullSt.dataInputsLoopF ok n b x k).1.1.c.distinct = x.c.distinct
  | _, [], _, _ => by unfold FullSt.dataInputsLoopF; rfl
  | 0, _ :: _, _, _ => rfl
  | n + 1, b :: bs, x, k => by
    unfold FullSt.dataInputsLoopF
    split
    · rfl
    · cases bufBytes idLen (b :: bs) with
      | none => rfl
      | some r =>
        simp only [Calls.need]
        split
        · exact dataInputsLoopF_distinct n _ _ _
        · rfl

theorem tight_fullDataInputs {x : FullSt} (hd : x.c.distinct.toNat ≤ 20) {b : Bytes}
    (hl : b.length ≤ 255) : Costs (x.addDataInputsF ok b) 29 := by
  refine .ite (.ret _ _) (Costs.mono (k := b.length / 32 + 22) (Costs.bind (tight_dataInputsLoop ..)
    (P := fun r => r.1.c.distinct = x.c.distinct) (fun n => dataInputsLoopF_distinct _ _ _ _) ?_) (by omega))
  intro r hr
  split
  · exact .ite (tight_dataInputsFinished (by rw [hr]; exact hd)) (.ret _ _)
  · exact .ret _ _

theorem tight_tokensLoop (cbs : BoxCbsF σ) (table : Option TableArg) :
    ∀ n b (x : BoxSt σ), Costs (BoxSt.tokensLoopF ok cbs table n b x) (2 * x.c.tokensCount.toNat)
  | _, [], _ => by unfold BoxSt.tokensLoopF; exact .ret _ _
  | 0, _ :: _, _ => .ret _ _
  | n + 1, b :: bs, x => by
    unfold BoxSt.tokensLoopF
    by_cases h0 : x.c.tokensCount = 0
    · rw [if_pos h0]; exact .ret _ _
    · rw [if_neg h0]
      have h1 : (x.c.tokensCount - 1).toNat + 1 = x.c.tokensCount.toNat := by
        have h2 : x.c.tokensCount.toNat ≠ 0 := fun h => h0 (UInt8.toNat.inj h)
        have h3 := UInt8.toNat_sub_of_le x.c.tokensCount 1
          (UInt8.le_iff_toNat_le.2 (by simp only [UInt8.reduceToNat]; omega))
        simp only [UInt8.reduceToNat] at h3
        omega
      rw [← h1]
      split
      · exact .ret _ _
      · exact .ret _ _
      · refine Costs.mono (k := 2 * (x.c.tokensCount - 1).toNat + 1 + 1) (Costs.need ?_) (by omega)
        dsimp only
        split
        · exact .ret _ _
        · exact Costs.need (costs_check _ _ (tight_tokensLoop cbs table n _ _))

theorem tight_addTokens {cbs : BoxCbsF σ} (hc : cbs.Cheap) (table : Option TableArg) {x : BoxSt σ}
    (hx : x.c.state = .treeAdded → x.c.tokensCount.toNat ≤ 20) (b : Bytes) :
    Costs (x.addTokensF ok cbs table b) 42 := by
  unfold BoxSt.addTokensF
  by_cases hs : x.c.state = .treeAdded
  · rw [if_neg (by simpa using hs)]
    refine Costs.andThen (k := 40) (l := 2) ((tight_tokensLoop cbs table _ _ x).mono (by have := hx hs; omega)) ?_
    intro r
    split
    · exact .ite (.ite (Costs.need (costs_finish hc _)) (.ret _ _)) (.ret _ _)
    · exact .ret _ _
  · rw [if_pos (by simpa using hs)]
    exact .ret _ _

theorem tight_attestTokensLoop (cbs : BoxCbsF σ) :
    ∀ n b (x : BoxSt σ), Costs (BoxSt.tokensLoopF ok cbs none n b x) (b.length / 20 + 1)
  | _, [], _ => by unfold BoxSt.tokensLoopF; exact .ret _ _
  | 0, _ :: _, _ => .ret _ _
  | n + 1, b :: bs, x => by
    unfold BoxSt.tokensLoopF
    refine .ite (.ret _ _) ?_
    simp only [boxTokenId]
    cases hb : bufBytes idLen (b :: bs) with
    | none => exact .ret _ _
    | some r =>
      obtain ⟨id, rest⟩ := r
      dsimp only
      have hl := bufBytes_length hb
      simp only [idLen] at hl
      cases hv : bufU64 rest with
      | none => exact (Costs.need (.ret _ 0)).mono (by omega)
      | some r =>
        obtain ⟨v, rest'⟩ := r
        dsimp only
        have hv' : rest'.length + 8 = rest.length := by
          rcases bufU64_cases rest with ⟨_, h⟩ | ⟨h1, v', h⟩
          · rw [h] at hv; cases hv
          · rw [h] at hv
            cases hv
            rw [List.length_drop]
            omega
        refine Costs.mono (k := rest'.length / 20 + 1 + 1 + 1) (Costs.need (Costs.need (costs_check _ _ (tight_attestTokensLoop cbs n _ _)))) ?_
        omega

theorem tight_attestTokens {cbs : BoxCbsF σ} (hc : cbs.Cheap) (x : BoxSt σ) {b : Bytes}
    (hl : b.length ≤ 255) : Costs (x.addTokensF ok cbs none b) 15 := by
  refine .ite (.ret _ _) (Costs.mono (k := b.length / 20 + 1 + 2)
    (Costs.andThen (tight_attestTokensLoop ..) ?_) (by omega))
  intro r
  split
  · exact .ite (.ite (Costs.need (costs_finish hc _)) (.ret _ _)) (.ret _ _)
  · exact .ret _ _

theorem tight_attestSub (d : Device) (sub s : UInt8) (data : Bytes) (hl : data.length ≤ 255) :
    Costs (d.attestSubF env ok sub s data) 18 := by
  refine .ite (.ret _ _) ?_
  split
  · refine .ite (.ret _ _) (.ite ?_ (.ite ?_ (.ite ?_ (.ret _ _))))
    · exact (Costs.map (costs_part _ (costs_addTree attestCbs_cheap _ _))).mono (by omega)
    · exact (Costs.map (costs_part _ (tight_attestTokens attestCbs_cheap _ hl))).mono (by omega)
    · exact (Costs.map (costs_part _ (costs_addRegisters attestCbs_cheap _ _))).mono (by omega)
  · exact .ret _ _

/-- The numbers that bound the work of a signing session. -/
structure SmallTx (p : P2pk) : Prop where
  distinct : p.state = .txStarted ∨ p.state = .inputsStarted ∨ p.state = .outputsStarted →
    ∀ t, p.u = .transaction t → t.tx.distinct.toNat ≤ 20
  tokens : p.state = .outputsStarted → ∀ t, p.u = .transaction t → ∀ b, t.tx.sub = .box b →
    b.state = .treeAdded → b.tokensCount.toNat ≤ 20

theorem PRel.small {h0 : Bytes} {p : P2pk} {D : TxDesc} (h : PRel env h0 p D) : SmallTx p := by
  have key : p.state = .txStarted ∨ p.state = .inputsStarted ∨ p.state = .outputsStarted →
      ∃ t, p.u = .transaction t ∧ TxSim env h0 p.state p.hash p.amounts t D := by
    intro hs
    unfold PRel at h
    rcases hs with hs | hs | hs <;> simpa [hs] using h
  refine ⟨fun hs t ht => ?_, fun hs t ht b hb hst => ?_⟩
  · obtain ⟨t', ht', hT⟩ := key hs
    rw [ht] at ht'
    cases ht'
    have h1 := hT.full.distinct
    have h2 := hT.full.nTok
    simp only at h1
    omega
  · obtain ⟨t', ht', hT⟩ := key (.inr (.inr hs))
    rw [ht] at ht'
    cases ht'
    have h1 := hT.state
    rw [hs] at h1
    obtain ⟨h1, h2⟩ := h1
    have h3 := hT.full.phase
    simp only [FullPhase, h2] at h3
    obtain ⟨_, h3⟩ := h3
    obtain ⟨_, _, _, _, _, h3⟩ := h3
    cases ho : D.outputs with
    | nil => exact absurd ho h1
    | cons o os =>
      rw [ho] at h3
      obtain ⟨b', h4, h5⟩ := h3
      rw [hb] at h4
      cases h4
      have h6 := h5.phase
      have h7 := h5.tok_le
      simp only [BoxPhase, hst] at h6
      omega

theorem tight_withTx {p : P2pk} {f : FullSt → Calls (FullSt × Res FullErr)} {k : Nat}
    (hd : ∀ t, p.u = .transaction t → t.tx.distinct.toNat ≤ 20)
    (h : ∀ x : FullSt, x.c.distinct.toNat ≤ 20 → Costs (f x) k) : Costs (p.withTxF f) k := by
  unfold P2pk.withTxF
  split
  · rename_i t ht
    exact Costs.map (h _ (hd t ht))
  · exact .ret _ _

theorem tight_addInputTokens {p : P2pk} (hp : SmallTx p) (b : Bytes) (i : UInt8) (t : Bytes) :
    Costs (p.addInputTokensF ok b i t) 26 := by
  unfold P2pk.addInputTokensF
  by_cases hs : p.state = .inputsStarted
  · rw [if_neg (by simpa using hs)]
    exact tight_withTx (hp.distinct (.inr (.inl hs))) fun _ hd => tight_fullInputTokens hd ..
  · rw [if_pos (by simpa using hs)]
    exact .ret _ _

theorem addInput_small {p p' : P2pk} (hp : SmallTx p) {b : Bytes} {v : UInt64} {c : UInt8} {e : UInt32}
    (h : p.addInput b v c e = .ok p') : SmallTx p' := by
  unfold P2pk.addInput at h
  split at h
  · cases h
  rename_i hs
  have hpre : p.state = .txStarted ∨ p.state = .inputsStarted := by
    simp only [ne_eq, not_and_or, Classical.not_not] at hs
    exact hs
  have hw : ∀ q, p.withTx (fun x => x.addInput b c e) = .ok q →
      ∀ t', q.u = .transaction t' → ∃ t, p.u = .transaction t ∧ t'.tx.distinct = t.tx.distinct := by
    intro q hq t' ht'
    unfold P2pk.withTx at hq
    split at hq
    · rename_i t ht
      refine ⟨t, ht, ?_⟩
      have hx : ∀ x : FullSt, (x.addInput b c e).1.c.distinct = x.c.distinct := by
        intro x
        unfold FullSt.addInput
        split
        · rfl
        split
        · split
          · rfl
          split
          · rfl
          dsimp only
          split <;> rfl
        · rfl
      have hx := hx ⟨t.tx, p.hash, ⟨p.amounts, t.out.getD (.init 0)⟩⟩
      split at hq
      · rename_i y hy
        cases hq
        cases ht'
        dsimp only at hy
        rw [hy] at hx
        exact hx
      · rename_i y hy
        cases hq
        cases ht'
        dsimp only at hy
        rw [hy] at hx
        exact hx
      · cases hq
      · cases hq
    · cases hq
  have hst : p'.state = .inputsStarted ∧
      ∀ t', p'.u = .transaction t' → ∃ t, p.u = .transaction t ∧ t'.tx.distinct = t.tx.distinct := by
    split at h
    · rename_i q hq
      split at h
      · cases h
      · cases h
        exact ⟨rfl, fun t' ht' => hw q hq t' ht'⟩
    · rename_i hne
      exact absurd h (hne p')
  refine ⟨fun _ t ht => ?_, fun hs => ?_⟩
  · obtain ⟨t0, h1, h2⟩ := hst.2 t ht
    rw [h2]
    exact hp.distinct (hpre.imp id .inl) t0 h1
  · rw [hst.1] at hs
    cases hs

theorem tight_opFrame (key : Bytes) {p : P2pk} (hp : SmallTx p) (data : Bytes) :
    Costs (opFrameF env ok key p data) 26 := by
  refine .ite (.ret _ _) (.ite (.ret _ _) ?_)
  split
  · exact .ret _ _
  · split
    · exact tight_addInputTokens hp ..
    · split
      · rename_i p' h'
        exact tight_addInputTokens (addInput_small hp h') ..
      · exact .ret _ _

theorem tight_addExtension {p : P2pk} (hp : SmallTx p) (data : Bytes) :
    Costs (p.addExtensionF ok data) 24 := by
  unfold P2pk.addExtensionF
  by_cases hs : p.state = .inputsStarted
  · rw [if_neg (by simpa using hs)]
    exact tight_withTx (hp.distinct (.inr (.inl hs))) fun _ hd => tight_fullExtension hd ..
  · rw [if_pos (by simpa using hs)]
    exact .ret _ _

theorem tight_addDataInputs {p : P2pk} (hp : SmallTx p) {data : Bytes} (hl : data.length ≤ 255) :
    Costs (p.addDataInputsF ok data) 29 := by
  unfold P2pk.addDataInputsF
  by_cases hs : p.state = .inputsStarted
  · rw [if_neg (by simpa using hs)]
    exact tight_withTx (hp.distinct (.inr (.inl hs))) fun _ hd => tight_fullDataInputs hd hl
  · rw [if_pos (by simpa using hs)]
    exact .ret _ _

theorem tight_addOutputTokens {p : P2pk} (hp : SmallTx p) (data : Bytes) :
    Costs (p.addOutputTokensF env ok data) 42 := by
  unfold P2pk.addOutputTokensF P2pk.withOutF
  by_cases hs : p.state = .outputsStarted
  · rw [if_neg (by simpa using hs)]
    split
    · rename_i t ht
      split
      · exact .ret _ _
      · refine Costs.andThen (k := 42) (l := 0) ?_ ?_
        · refine .ite (.ret _ _) ?_
          split
          · rename_i b hb
            exact Costs.map (tight_addTokens accCbs_cheap _ (hp.tokens hs t ht b hb) _)
          · exact .ret _ _
        · intro r
          split
          · exact .ret _ _
          · exact .ret _ _
          · exact Costs.map (.ret _ _)
    · exact .ret _ _
  · rw [if_pos (by simpa using hs)]
    exact .ret _ _

theorem tight_signSub {d : Device} (hp : d.command = .signTransaction → ∀ x, d.ctx = .sign x → x.approved = true → SmallTx x.p)
    (sub s : UInt8) (data : Bytes) (hl : data.length ≤ 255) : Costs (d.signSubF env ok sub s data) 42 := by
  unfold Device.signSubF
  by_cases hc : d.command = .signTransaction
  swap
  · rw [if_pos hc]
    exact .ret _ _
  rw [if_neg (by simpa using hc)]
  split
  · rename_i x hx
    refine .ite (.ret _ _) ?_
    by_cases ha : x.approved = true
    · rw [if_neg (by simpa using ha)]
      have hp := hp hc x hx ha
      refine (.ite ?_ (.ite (.ret _ _) (.ite ?_ (.ite ?_ (.ite ?_ (.ite ?_
        (.ite ?_ (.ite ?_ (.ite ?_ (.ite ?_ (.ite ?_ (.ret _ _))))))))))))
      · exact (costs_opStart _ _).map.mono (by omega)
      · exact (tight_opFrame _ hp _).map.mono (by omega)
      · exact (tight_addExtension hp _).map.mono (by omega)
      · exact (tight_addDataInputs hp hl).map.mono (by omega)
      · exact (costs_opOutput _ _).map.mono (by omega)
      · exact (costs_addOutputTree _ _).map.mono (by omega)
      · exact (costs_opFee _ _).map.mono (by omega)
      · exact (costs_opChange _ _).map.mono (by omega)
      · exact (tight_addOutputTokens hp _).map
      · exact (costs_addOutputRegisters _ _).map.mono (by omega)
    · rw [if_pos (by simpa using ha)]
      exact .ret _ _
  · exact .ret _ _

theorem tight_dispatch {d : Device}
    (hp : d.busy = false → d.command = .signTransaction → ∀ x, d.ctx = .sign x → x.approved = true → SmallTx x.p)
    (cla ins p1 p2 : UInt8) (data : Bytes) (rnd : Rnd) (hn : ¬ (ins = 0x21 ∧ p1 = 0x01))
    (hl : data.length ≤ 255) : Costs (d.dispatchF env ok cla ins p1 p2 data rnd) 42 := by
  unfold Device.dispatchF
  refine .ite (.ret _ _) (.ite (.ite (.ret _ _) (.ret _ _)) (.ite (.ite (.ret _ _) (.ret _ _))
    (.ite (.ite (.ret _ _) ?_) (.ite (.ite (.ret _ _) ?_) (.ite (.ite (.ret _ _) ?_) ?_)))))
  · exact (costs_extPubKey ..).mono (by omega)
  · exact (costs_deriveAddress ..).mono (by omega)
  · exact .ite (.ret _ _) (.ite (.ite (.ret _ _) ((costs_attestStart _ _ _ _).mono (by omega)))
      (.ite ((tight_attestSub _ _ _ _ hl).mono (by omega)) (.ret _ _)))
  · by_cases hi : ins = 0x21
    · rw [if_pos hi]
      refine .ite (.ret _ _) ?_
      unfold Device.signTransactionF
      by_cases hb : d.busy = true
      · rw [if_pos hb]
        exact .ret _ _
      · rw [if_neg hb, if_neg (fun h => hn ⟨hi, h⟩)]
        exact .ite (tight_signSub (hp (by simpa using hb)) _ _ _ hl) (.ret _ _)
    · rw [if_neg hi]
      exact .ret _ _

end Ergo
