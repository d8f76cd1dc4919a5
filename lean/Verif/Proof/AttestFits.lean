import Verif.Proof.AttSim
import Verif.Props.Union
import Verif.Proof.AcceptDev
import Verif.Spec.AttestFits

/-! # Acceptance of attestation commands by the device -/

namespace Ergo
open Spec

/-- An open attestation session that goes on is the current command, with the menu on display. -/
theorem live_inAttest {env : Env} {nanoS : Bool} {key : Bytes} {tr : List Obs} {d : Device}
    (h : Runs env nanoS key tr d) :
    ∀ S, (know tr).attest = some S → LiveAttest tr → d.command = .attestInput ∧ d.screen = none := by
  induction h with
  | boot => intro S h2 _; simp [know, Ghost.start] at h2
  | @step tr d e h hh hu ih =>
    have hI := h.inv
    obtain ⟨d', r, hst, hT⟩ := step_cases env nanoS d e
    rw [show know (d.observe env nanoS e :: tr) = (know tr).next (d.observe env nanoS e) from rfl,
      observe_eq hst]
    rw [hst] at hh hu ⊢
    simp only at hh hu ⊢
    generalize know tr = g at hI ih
    intro S hS hL
    cases hT with
    | neutral h =>
      obtain ⟨h1, h2⟩ := neutral_ghost h
      simp only [Ghost.next, status, if_neg h1, h2, if_true] at hS
      rcases hL with ⟨⟨out, hL⟩, _⟩ | hL
      · simp only [Device.observe, hst, status, Reply.sw.injEq] at hL
        exact absurd hL.1 h1
      · exact ih S hS hL.1
    | version hl =>
      rcases hL with ⟨⟨out, hL⟩, hL2⟩ | hL
      · rcases hL2 with ⟨hL2, _⟩ | ⟨_, _, _, _, hL2⟩ <;> simp [Device.observe] at hL2
      exact ih S (by simpa [Ghost.next, Ghost.onOk, Sw.ok] using hS) hL.1
    | name hl =>
      rcases hL with ⟨⟨out, hL⟩, hL2⟩ | hL
      · rcases hL2 with ⟨hL2, _⟩ | ⟨_, _, _, _, hL2⟩ <;> simp [Device.observe] at hL2
      exact ih S (by simpa [Ghost.next, Ghost.onOk, Sw.ok] using hS) hL.1
    | @abort ins p1 p2 data rnd sw hb hsw hi he =>
      rcases he with he | ⟨rfl, rfl, rfl, h2⟩
      · have hc := ends_closes he
        have hsw' : ¬ sw = 0x9000 := hsw
        simp [Ghost.next, status, hc, hsw', Ghost.close] at hS
      · rcases hL with ⟨⟨out, hL⟩, _⟩ | hL
        · simp [Device.observe, hst, status, Sw.wrongP1P2] at hL
        · refine absurd ⟨0xE0, p2, data, rnd, [], rfl, h2, ?_⟩ hL.2
          simp [Device.observe, hst, status, Sw.wrongP1P2]
    | deriveFail hb =>
      simp [Ghost.next, status, Ghost.close, harmless, Sw.addressGenerationFailed] at hS
    | epkSend hb h1 hp hv hg hk =>
      simp [Ghost.next, Ghost.onOk, Sw.ok, Ghost.close] at hS
    | epkAsk hb h1 hp hv hg hk hf => simp [Ghost.next, Ghost.onWait, Ghost.close] at hS
    | daSend hb h1 h2 hd hp hv hg ha hk =>
      simp [Ghost.next, Ghost.onOk, Sw.ok, Ghost.close] at hS
    | daAskSend hb h1 h2 hd hp hv hg ha hk hf => simp [Ghost.next, Ghost.onWait, Ghost.close] at hS
    | daAskShow hb h1 h2 hd hp hv hg ha hf hs hl =>
      simp [Ghost.next, Ghost.onWait, Ghost.close] at hS
    | attestHang hb => exact absurd rfl hh
    | attestKnown hb h2 hi hs hk =>
      have hsc := idle_of hI hb
      exact ⟨rfl, hsc⟩
    | attestAsk hb h2 hi hs hk => simp [Ghost.next, Ghost.onWait, Ghost.close] at hS
    | @attestOk sub p2 data rnd x x' out hb hl hsub hc hy hs ho =>
      have hsc := idle_of hI hb
      exact ⟨hc, hsc⟩
    | attestUb => exact absurd rfl hu
    | signHang => exact absurd rfl hh
    | signInitUb => exact absurd rfl hu
    | signAsk hb h2 hp hi hs hf => simp [Ghost.next, Ghost.onWait, Ghost.close] at hS
    | @signOk sub p2 data rnd y p hb hl hsub hc hy hs ha ho hn =>
      have e1 : g.next ⟨d.asks, d.here, .apdu 0xE0 0x21 sub p2 data rnd, status Sw.ok⟩ =
          g.log (.cmd sub data) := rfl
      rw [e1] at hS
      rcases hL with ⟨_, hL⟩ | hL
      · rcases hL with ⟨hL2, _⟩ | ⟨_, _, _, _, hL2⟩ <;> simp [Device.observe] at hL2
      · have := ih S hS hL.1
        rw [hc] at this; cases this.1
    | @signShow sub p2 data rnd y p t o hb hl hsub hc hy hs ha ho hn hu' hout =>
      have hne : ¬ sub = 0x01 := by
        rintro rfl; exact absurd hsub.1 (by decide)
      have hne' : ¬ sub = 0x20 := by
        rintro rfl; exact absurd hsub.2 (by decide)
      have e1 : g.next ⟨d.asks, d.here, .apdu 0xE0 0x21 sub p2 data rnd, .wait⟩ =
          { g.log (.cmd sub data) with pending := some ⟨0x21, sub, p2, data, rnd⟩ } := by
        simp [Ghost.next, Ghost.onWait, hne, hne']
      rw [e1] at hS
      rcases hL with ⟨_, hL⟩ | hL
      · rcases hL with ⟨hL2, _⟩ | ⟨_, _, _, _, hL2⟩ <;> simp [Device.observe] at hL2
      · have := ih S hS hL.1
        rw [hc] at this; cases this.1
    | signUb => exact absurd rfl hu
    | @signConfirm p2 data rnd y hb hl hc hy hs ha hp =>
      have e1 : (g.next ⟨d.asks, d.here, .apdu 0xE0 0x21 0x20 p2 data rnd, .wait⟩).attest =
          g.attest := by
        simp [Ghost.next, Ghost.onWait]
      rw [e1] at hS
      rcases hL with ⟨_, hL⟩ | hL
      · rcases hL with ⟨hL2, _⟩ | ⟨_, _, _, _, hL2⟩ <;> simp [Device.observe] at hL2
      · have := ih S hS hL.1
        rw [hc] at this; cases this.1
    | idle he hs =>
      rcases hL with ⟨⟨_, hL⟩, _⟩ | hL
      · simp [Device.observe, hst] at hL
      · rcases he with rfl | rfl | rfl <;> exact ih S hS hL.1
    | move he hs hm =>
      rcases hL with ⟨⟨_, hL⟩, _⟩ | hL
      · simp [Device.observe, hst] at hL
      · have := ih S (by rcases he with ⟨rfl, _⟩ | ⟨rfl, _⟩ <;> exact hS) hL.1
        rw [hs] at this; cases this.2
    | moveErr he hs hm hk =>
      rcases he with ⟨rfl, _⟩ | ⟨rfl, _⟩ <;> simp [Ghost.next, status, Ghost.close] at hS
    | moveUb => exact absurd rfl hu
    | click hs h1 h2 h3 =>
      rcases hL with ⟨⟨_, hL⟩, _⟩ | hL
      · simp [Device.observe, hst] at hL
      · exact ih S hS hL.1
    | reject hs h1 => simp [Ghost.next, status, Ghost.close, Sw.deny] at hS
    | @okEpk s x hs h1 hcb hx' =>
      have hq := hI.asks hs
      rw [hcb] at hq
      simp only [AsksFor] at hq
      rcases hL with ⟨_, ⟨_, hL⟩ | ⟨_, _, _, _, hL⟩⟩ | hL
      · simp [Device.observe, hq] at hL
      · simp [Device.observe] at hL
      · have := ih S (by rw [hq] at hS; exact hS) hL.1
        rw [hs] at this; cases this.2
    | @okDa s x hs h1 hcb hx' =>
      have hq := hI.asks hs
      rw [hcb] at hq
      rcases hL with ⟨_, ⟨_, hL⟩ | ⟨_, _, _, _, hL⟩⟩ | hL
      · rcases hq with hq | hq <;> simp [Device.observe, hq] at hL
      · simp [Device.observe] at hL
      · have := ih S (by rcases hq with hq | hq <;> rw [hq] at hS <;> exact hS) hL.1
        rw [hs] at this; cases this.2
    | okAttest hs h1 hcb hx' =>
      obtain ⟨a, f0, p1, p2, p3⟩ := hI.asking _ hs
      rw [hcb] at p3
      exact ⟨p3.2.2.2.1, rfl⟩
    | @okSignInit s y token hs h1 hcb hy hu' =>
      have hq := hI.asks hs
      rw [hcb] at hq
      simp only [AsksFor] at hq
      rcases hL with ⟨_, ⟨_, hL⟩ | ⟨_, _, _, _, hL⟩⟩ | hL
      · simp [Device.observe, hq] at hL
      · simp [Device.observe] at hL
      · have := ih S (by
          rw [hq] at hS
          simp only [Ghost.next, Ghost.onApprove, Sw.ok] at hS
          revert hS
          cases g.pending <;> simp [Ghost.close]) hL.1
        rw [hs] at this; cases this.2
    | @okSignOutput s y t o last hs h1 hcb hy hu' hout hl =>
      have hq := hI.asks hs
      rw [hcb] at hq
      simp only [AsksFor] at hq
      rw [hq] at hS
      have e1 : g.next ⟨some .confirmOutput, d.here, .both, status Sw.ok⟩ = g.log .approve := rfl
      rw [e1] at hS
      rcases hL with ⟨_, ⟨_, hL⟩ | ⟨_, _, _, _, hL⟩⟩ | hL
      · simp [Device.observe, hq] at hL
      · simp [Device.observe] at hL
      · have := ih S hS hL.1
        rw [hs] at this; cases this.2
    | @okSignTx s x sig hs h1 hcb hx' hsig =>
      have hq := hI.asks hs
      rw [hcb] at hq
      simp only [AsksFor] at hq
      rw [hq] at hS
      simp [Ghost.next, Ghost.onApprove, Ghost.close, Sw.ok] at hS
    | @failSignTx s x sw hs h1 hcb hx' hsig =>
      have hq := hI.asks hs
      rw [hcb] at hq
      simp only [AsksFor] at hq
      rw [hq] at hS
      by_cases he : sw = 0x9000 <;>
        simp [Ghost.next, Ghost.onApprove, Ghost.close, status, he] at hS
    | actUb => exact absurd rfl hu

/-! ## The box serializer of an attestation -/

variable {env : Env} {start : Bytes} {o : BoxDesc Bytes} {x : AttestCtx}

theorem attFinish_passes (x : BoxSt (List (Bytes × UInt64))) : (x.finish attestCbs).2.passes := by
  unfold BoxSt.finish
  rw [check_passes_iff]
  exact ⟨rfl, rfl⟩

theorem attTreeAdded_passes (x : BoxSt (List (Bytes × UInt64))) :
    (x.treeAdded attestCbs).2.passes := by
  unfold BoxSt.treeAdded
  rw [check_passes_iff]
  refine ⟨rfl, ?_⟩
  dsimp only
  split
  · split
    · exact attFinish_passes _
    · rfl
  · rfl

theorem attInit_iff {b : BoxCtx} {h : Bytes}
    (hB : BoxRel (fun id => id) (fun _ => []) [] b h o) :
    b.state = .initialized ↔ o.scriptDone = false := by
  have hph := hB.phase
  unfold BoxPhase at hph
  constructor
  · intro hs
    rw [hs] at hph
    simp only at hph
    unfold BoxDesc.scriptDone
    rcases hph.1 with ⟨h1, _⟩ | ⟨bs, h1, h2, h3⟩
    · rw [h1]
    · rw [h1]
      simp only [decide_eq_false_iff_not]
      omega
  · intro hs
    split at hph
    · assumption
    · rw [hs] at hph; simp at hph
    · rw [hs] at hph; simp at hph
    · simp [BoxDesc.complete, hs] at hph
    · simp [BoxDesc.complete, hs] at hph
    · exact hph.elim

theorem attTree_iff {y : BoxSt (List (Bytes × UInt64))}
    (hB : BoxRel (fun id => id) (fun _ => []) [] y.c y.h o) (chunk : Bytes) :
    (y.addTree attestCbs chunk).2.passes ↔ AttestFits o 0x02 chunk := by
  have hin := attInit_iff hB
  rw [show AttestFits o 0x02 chunk = (o.scriptDone = false ∧
    scriptLen o + chunk.length ≤ o.treeSize ∧
      (scriptLen o + chunk.length = o.treeSize ∨ 255 ≤ chunk.length)) from rfl]
  unfold BoxSt.addTree
  by_cases hbs : y.c.state = .initialized
  · rw [if_neg (by simpa using hbs)]
    have hsd := hin.1 hbs
    have hlen : scriptLen o + y.c.treeSize.toNat = o.treeSize := by
      have hph := hB.phase
      unfold BoxPhase at hph
      rw [hbs] at hph
      simp only at hph
      unfold scriptLen
      rcases hph.1 with ⟨h1, h2⟩ | ⟨bs, h1, h2, _⟩
      · rw [h1]; simpa using h2
      · rw [h1]; exact h2
    have h255 : maxChunk = 255 := rfl
    by_cases h1 : y.c.treeSize.toNat < chunk.length
    · rw [if_pos h1]
      exact iff_of_false (by simp [BoxSt.fail, Res.passes]) (by omega)
    rw [if_neg h1]
    by_cases h2 : y.c.treeSize.toNat > chunk.length ∧ chunk.length < maxChunk
    · rw [if_pos h2]
      exact iff_of_false (by simp [BoxSt.fail, Res.passes]) (by omega)
    rw [if_neg h2]
    refine iff_of_true ?_ ⟨hsd, by omega, by omega⟩
    dsimp only
    split
    · exact attTreeAdded_passes _
    · rfl
  · rw [if_pos hbs]
    exact iff_of_false (by simp [BoxSt.fail, Res.passes]) (fun hc => hbs (hin.2 hc.1))

theorem attRegs_iff {y : BoxSt (List (Bytes × UInt64))}
    (hB : BoxRel (fun id => id) (fun _ => []) [] y.c y.h o) (chunk : Bytes) :
    (y.addRegisters attestCbs chunk).2.passes ↔ AttestFits o 0x04 chunk := by
  have hph := hB.phase
  rw [show AttestFits o 0x04 chunk = (o.scriptDone = true ∧ o.tokens.length = o.nTokens ∧
    o.regs.length < o.regsSize ∧ o.regs.length + chunk.length ≤ o.regsSize) from rfl]
  unfold BoxSt.addRegisters
  by_cases hbs : y.c.state = .tokensAdded
  · rw [if_neg (by simpa using hbs)]
    unfold BoxPhase at hph
    rw [hbs] at hph
    simp only at hph
    obtain ⟨hsd, _, ht, hr, hpos⟩ := hph
    by_cases h1 : y.c.regsSize.toNat < chunk.length
    · rw [if_pos h1]
      exact iff_of_false (by simp [BoxSt.fail, Res.passes]) (by omega)
    rw [if_neg h1]
    refine iff_of_true ?_ ⟨hsd, ht, by omega, by omega⟩
    dsimp only
    split
    · exact attFinish_passes _
    · rfl
  · rw [if_pos hbs]
    refine iff_of_false (by simp [BoxSt.fail, Res.passes]) ?_
    rintro ⟨g1, g2, g3, _⟩
    unfold BoxPhase at hph
    split at hph
    · rename_i he
      rw [(attInit_iff hB).1 he] at g1; simp at g1
    · omega
    · rename_i he; exact hbs he
    · simp only [BoxDesc.complete, Bool.and_eq_true, decide_eq_true_eq] at hph
      omega
    · simp only [BoxDesc.complete, Bool.and_eq_true, decide_eq_true_eq] at hph
      omega
    · exact hph.elim

theorem attTokensLoop_iff :
    ∀ (n : Nat) (input : Bytes) (y : BoxSt (List (Bytes × UInt64))), input.length ≤ n →
    y.s.length + y.c.tokensCount.toNat ≤ 20 → (y.s.map (·.1)).Nodup →
    ((BoxSt.tokensLoop attestCbs none n input y).2.passes ↔
      input.length % 40 = 0 ∧ input.length / 40 ≤ y.c.tokensCount.toNat ∧
      (y.s.map (·.1) ++ (pieces 40 input).map (·.take 32)).Nodup) := by
  intro n
  induction n with
  | zero =>
    intro input y h _ hn
    have : input = [] := by simpa using h
    subst this
    simp only [BoxSt.tokensLoop, pieces_nil, List.map_nil, List.append_nil]
    exact iff_of_true rfl ⟨by simp, by simp, hn⟩
  | succ n ih =>
    intro input y h hle hn
    cases input with
    | nil =>
      simp only [BoxSt.tokensLoop, pieces_nil, List.map_nil, List.append_nil]
      exact iff_of_true rfl ⟨by simp, by simp, hn⟩
    | cons b bs =>
      obtain ⟨d, hd⟩ : ∃ d, b :: bs = d := ⟨_, rfl⟩
      have hpos : 0 < d.length := by rw [← hd]; simp
      simp only [BoxSt.tokensLoop]
      rw [hd] at h ⊢
      by_cases hc0 : y.c.tokensCount = 0
      · rw [if_pos hc0]
        refine iff_of_false (by simp [BoxSt.fail, Res.passes]) ?_
        rintro ⟨g1, g2, _⟩
        rw [u8_eq_zero.1 hc0] at g2
        omega
      rw [if_neg hc0]
      have hcnt := u8_ne_zero.1 hc0
      have hsub : (y.c.tokensCount - 1).toNat = y.c.tokensCount.toNat - 1 :=
        u8_sub_ofNat y.c.tokensCount (k := 1) hcnt
      simp only [boxTokenId]
      unfold bufBytes
      by_cases hid : d.length < idLen
      · rw [if_pos hid]
        have : idLen = 32 := rfl
        exact iff_of_false (by simp [BoxSt.fail, Res.passes]) (fun hc => by omega)
      rw [if_neg hid]
      have h32 : idLen = 32 := rfl
      rw [h32] at hid ⊢
      simp only
      rcases bufU64_cases (d.drop 32) with ⟨h3, h4⟩ | ⟨h3, v, h4⟩
      · simp only [List.length_drop] at h3
        simp only [h4]
        exact iff_of_false (by simp [BoxSt.fail, Res.passes]) (fun hc => by omega)
      simp only [List.length_drop] at h3
      simp only [h4]
      have hp : pieces 40 d = d.take 40 :: pieces 40 (d.drop 40) := by
        have e : d = d.take 40 ++ d.drop 40 := (List.take_append_drop 40 d).symm
        conv_lhs => rw [e]
        exact pieces_append _ (by rw [List.length_take]; omega) (by decide)
      have ht : (d.take 40).take 32 = d.take 32 := by
        rw [List.take_take]; rfl
      rw [check_passes_iff]
      have hdd : (d.drop 32).drop 8 = d.drop 40 := by rw [List.drop_drop]
      simp only [hp, List.map_cons, ht, hdd]
      have hmax : tokenMax = 20 := rfl
      have h1 : ¬ y.s.length ≥ tokenMax := by omega
      simp only [attestCbs]
      rw [if_neg h1]
      by_cases hdup : (y.s.any fun t => t.1 == d.take 32) = true
      · rw [if_pos hdup]
        refine iff_of_false (by simp [Res.passes]) ?_
        rintro ⟨_, _, g⟩
        rw [List.nodup_append] at g
        simp only [List.any_eq_true, beq_iff_eq] at hdup
        obtain ⟨t, ht1, ht2⟩ := hdup
        exact g.2.2 (d.take 32) (List.mem_map.2 ⟨t, ht1, ht2⟩) (d.take 32) (by simp) rfl
      rw [if_neg hdup]
      have hn' : ((y.s ++ [(d.take 32, v)]).map (·.1)).Nodup := by
        rw [List.map_append, List.nodup_append]
        refine ⟨hn, by simp, ?_⟩
        simp only [List.any_eq_true, beq_iff_eq, not_exists, not_and] at hdup
        intro a ha c hc
        simp only [List.map_cons, List.map_nil, List.mem_singleton] at hc
        subst hc
        simp only [List.mem_map] at ha
        obtain ⟨t, ht, rfl⟩ := ha
        exact hdup t ht
      have hrec := ih (d.drop 40)
        { c := { y.c with tokensCount := y.c.tokensCount - 1 }
          h := y.h ++ d.take 32 ++ gvePutU64 v, s := y.s ++ [(d.take 32, v)] }
        (by rw [List.length_drop]; omega) (by simp [hsub]; omega) hn'
      simp only [attestCbs] at hrec
      rw [hrec]
      simp only [List.length_drop, hsub, List.map_append, List.map_cons, List.map_nil,
        List.append_assoc, List.cons_append, List.nil_append]
      constructor
      · rintro ⟨_, g1, g2, g3⟩
        exact ⟨by omega, by omega, g3⟩
      · rintro ⟨g1, g2, g3⟩
        exact ⟨rfl, by omega, by omega, g3⟩

theorem attTokens_iff {y : BoxSt (List (Bytes × UInt64))}
    (hB : BoxRel (fun id => id) (fun _ => []) [] y.c y.h o) (hT : y.s = toks64 o.tokens)
    (hn : (o.tokens.map (·.1)).Nodup) (data : Bytes) :
    (y.addTokens attestCbs none data).2.passes ↔ AttestFits o 0x03 data := by
  have hph := hB.phase
  have hids : (y.s.map (·.1)) = o.tokens.map (·.1) := by
    rw [hT, toks64, List.map_map]; rfl
  rw [show AttestFits o 0x03 data = (o.scriptDone = true ∧ o.tokens.length < o.nTokens ∧
    data.length % 40 = 0 ∧ o.tokens.length + data.length / 40 ≤ o.nTokens ∧
    ((o.tokens ++ (pieces 40 data).map tok40).map (·.1)).Nodup) from rfl]
  unfold BoxSt.addTokens
  by_cases hbs : y.c.state = .treeAdded
  · rw [if_neg (by simpa using hbs)]
    unfold BoxPhase at hph
    rw [hbs] at hph
    simp only at hph
    obtain ⟨hsd, _, ht, hpos, _⟩ := hph
    have hle := hB.tok_le
    have hl : y.s.length = o.tokens.length := by rw [hT]; simp [toks64]
    have key := attTokensLoop_iff data.length data y (Nat.le_refl _) (by omega) (by rw [hids]; exact hn)
    have hpm : (pieces 40 data).map (·.take 32) = ((pieces 40 data).map tok40).map (·.1) := by
      rw [List.map_map]; rfl
    have : (BoxSt.tokensLoop attestCbs none data.length data y).2.passes ↔
        o.scriptDone = true ∧ o.tokens.length < o.nTokens ∧ data.length % 40 = 0 ∧
        o.tokens.length + data.length / 40 ≤ o.nTokens ∧
        ((o.tokens ++ (pieces 40 data).map tok40).map (·.1)).Nodup := by
      rw [key, hids, hpm, ← List.map_append]
      constructor
      · rintro ⟨g1, g2, g3⟩; exact ⟨hsd, by omega, g1, by omega, g3⟩
      · rintro ⟨_, _, g1, g2, g3⟩; exact ⟨g1, by omega, g3⟩
    rw [← this]
    split
    · rename_i z hz
      rw [hz]
      refine iff_of_true ?_ rfl
      split
      · split
        · exact attFinish_passes _
        · rfl
      · rfl
    · rfl
  · rw [if_pos hbs]
    refine iff_of_false (by simp [BoxSt.fail, Res.passes]) ?_
    rintro ⟨g1, g2, _⟩
    unfold BoxPhase at hph
    split at hph
    · rename_i he
      rw [(attInit_iff hB).1 he] at g1; simp at g1
    · rename_i he; exact hbs he
    · omega
    · simp only [BoxDesc.complete, Bool.and_eq_true, decide_eq_true_eq] at hph
      omega
    · simp only [BoxDesc.complete, Bool.and_eq_true, decide_eq_true_eq] at hph
      omega
    · exact hph.elim

/-! ## Replies -/

/-- A part is accepted when the serializer accepts it and the box is not complete. -/
theorem attPart_iff (hA : AttRel env start o x) (hs : x.state ≠ .initialized)
    {q : BoxSt (List (Bytes × UInt64)) × Res BoxErr} :
    (∃ x' out, x.part env q = .ok x' out) ↔ o.complete = false ∧ q.2.passes := by
  have hph := hA.phase
  obtain ⟨st, r⟩ := q
  by_cases hf : x.state = .finished
  · rw [if_pos hf] at hph
    refine iff_of_false ?_ (fun hc => by rw [hph.1] at hc; simp at hc)
    rintro ⟨x', out, h⟩
    rw [(part_passes h).1] at hf
    cases hf
  · rw [if_neg hf] at hph
    have hap : x.state = .approved := by
      cases hx : x.state with
      | initialized => exact absurd hx hs
      | finished => exact absurd hx hf
      | approved => rfl
    constructor
    · rintro ⟨x', out, h⟩
      exact ⟨hph.2.1, (part_passes h).2⟩
    · rintro ⟨_, hp⟩
      unfold AttestCtx.part
      rw [if_neg (by simpa using hap)]
      cases r with
      | ok =>
        simp only
        unfold AttestCtx.checkFinished
        by_cases hfin : st.c.state = .finished
        · rw [if_neg (by simpa using hfin)]
          unfold BoxSt.idHash
          simp only [hfin, ne_eq, not_true_eq_false, if_false]
          exact ⟨_, _, rfl⟩
        · rw [if_pos (by simpa using hfin)]
          exact ⟨_, _, rfl⟩
      | more => exact ⟨_, _, rfl⟩
      | err e => simp [Res.passes] at hp
      | ub => simp [Res.passes] at hp

theorem fits_incomplete {sub : UInt8} {data : Bytes} (h : AttestFits o sub data)
    (hs : sub = 2 ∨ sub = 3 ∨ sub = 4) : o.complete = false := by
  by_contra hc
  simp only [Bool.not_eq_false, BoxDesc.complete, Bool.and_eq_true, decide_eq_true_eq] at hc
  rcases hs with rfl | rfl | rfl
  · have : o.scriptDone = false := h.1
    rw [this] at hc
    simp at hc
  · have : o.tokens.length < o.nTokens := h.2.1
    omega
  · have : o.regs.length < o.regsSize := h.2.2.1
    omega

/-- Which continuation commands an open attestation accepts. -/
theorem attestOp_fits (hA : AttRel env start o x) (hs : x.state ≠ .initialized) (key : Bytes)
    {sub : UInt8} (hsub : sub = 2 ∨ sub = 3 ∨ sub = 4 ∨ sub = 5) (data : Bytes) :
    (∃ x' out, attestOp env key x sub data = .ok x' out) ↔ AttestFits o sub data := by
  have hph := hA.phase
  have part : ∀ {q : BoxSt (List (Bytes × UInt64)) × Res BoxErr},
      (sub = 2 ∨ sub = 3 ∨ sub = 4) →
      (o.complete = false → (q.2.passes ↔ AttestFits o sub data)) →
      ((∃ x' out, x.part env q = .ok x' out) ↔ AttestFits o sub data) := by
    intro q h3 hq
    rw [attPart_iff hA hs]
    constructor
    · rintro ⟨h1, h2⟩; exact (hq h1).1 h2
    · intro h
      have hc := fits_incomplete h h3
      exact ⟨hc, (hq hc).2 h⟩
  have rel : o.complete = false → BoxRel (fun id => id) (fun _ => []) [] x.st.c x.st.h o := by
    intro hc
    split at hph
    · rw [hc] at hph; simp at hph
    · exact hph.1
  rcases hsub with rfl | rfl | rfl | rfl
  · exact part (q := x.st.addTree attestCbs data) (by simp) fun hc => attTree_iff (rel hc) data
  · exact part (q := x.st.addTokens attestCbs none data) (by simp)
      fun hc => attTokens_iff (rel hc) hA.toks hA.nodup data
  · exact part (q := x.st.addRegisters attestCbs data) (by simp) fun hc => attRegs_iff (rel hc) data
  · show (∃ x' out, x.getFrame env key data = .ok x' out) ↔
      o.complete ∧ ∃ i, data = [i] ∧ i.toNat < framesFor o.nTokens
    constructor
    · rintro ⟨x', out, h⟩
      obtain ⟨_, h1, h2, i, h3, h4, _⟩ := getFrame_rel hA h
      rw [h2] at h4
      exact ⟨h1, i, h3, h4⟩
    · rintro ⟨hc, i, rfl, hi⟩
      have hfin : x.state = .finished := by
        by_contra hne
        rw [if_neg hne] at hph
        rw [hph.2.1] at hc; cases hc
      have hn : o.tokens.length = o.nTokens := by
        simp only [BoxDesc.complete, Bool.and_eq_true, decide_eq_true_eq] at hc
        exact hc.1.2
      have hlen : (toks64 o.tokens).length = o.nTokens := by simp [toks64, hn]
      unfold AttestCtx.getFrame
      rw [if_neg (by simp [hfin])]
      simp only [bufU8, ne_eq, not_true_eq_false, if_false, framesCount_eq]
      rw [hA.toks, hlen, if_neg (by omega)]
      exact ⟨_, _, rfl⟩

/-- An attestation command reaches its handler. -/
theorem attest_step {nanoS : Bool} {d : Device} (hb : d.busy = false)
    (hc : d.command = .attestInput) (hx : d.ctx = .attest x) (hid0 : x.session ≠ 0) {sub : UInt8}
    {data : Bytes} (hl : data.length ≤ 255) (hsub : sub = 2 ∨ sub = 3 ∨ sub = 4 ∨ sub = 5)
    {rnd : Rnd} : d.step env nanoS (.apdu 0xE0 0x20 sub x.session data rnd) =
      d.attestResult (attestOp env d.sessionKey x sub data) := by
  have e1 : d.step env nanoS (.apdu 0xE0 0x20 sub x.session data rnd) =
      d.attestSub env sub x.session data := by
    have h0 : sub ≠ 0 := by rcases hsub with rfl | rfl | rfl | rfl <;> decide
    have h1 : sub ≠ 1 := by rcases hsub with rfl | rfl | rfl | rfl <;> decide
    have hl' : ¬ 255 < data.length := by omega
    simp [Device.step, Device.dispatch, hid0, Device.attestInput, hb, h0, h1, hsub, hl']
  rw [e1]
  unfold Device.attestSub attestOp
  rw [if_neg (by simp [hc]), hx]
  simp only [ne_eq, not_true_eq_false, if_false]
  rcases hsub with rfl | rfl | rfl | rfl <;> rfl

/-- When the attestation goes on. -/
theorem ready_attest {nanoS : Bool} {key : Bytes} {tr : List Obs} {d : Device}
    (h : Runs env nanoS key tr d) {S : AttestSess} (hS : (know tr).attest = some S)
    (hL : LiveAttest tr) :
    d.busy = false ∧ d.command = .attestInput ∧ d.screen = none ∧ d.sessionKey = key ∧
      ∃ x, d.ctx = .attest x ∧ AttestBase S x ∧ AttRel env S.start.data S.box x := by
  have hI := h.inv
  obtain ⟨hc, hs⟩ := live_inAttest h S hS hL
  have hb := hI.busy
  rw [hs] at hb
  have hid := hI.idle hs
  simp only [Idle, hc] at hid
  obtain ⟨y, S', hy, hS', hB⟩ := hid
  rw [hS] at hS'; cases hS'
  exact ⟨hb, hc, hs, hI.key, y, hy, hB, h.attRel hs hy hS⟩

/-- The reply to an attestation command in a session that goes on. -/
theorem attest_reply {nanoS : Bool} {key : Bytes} {tr : List Obs} {d : Device}
    (h : Runs env nanoS key tr d) {S : AttestSess} (hS : (know tr).attest = some S)
    (hL : LiveAttest tr) {sub : UInt8} {data : Bytes} (hl : data.length ≤ 255)
    (hsub : sub = 2 ∨ sub = 3 ∨ sub = 4 ∨ sub = 5) (rnd : Rnd) {r : Reply}
    (hr : (d.step env nanoS (.apdu 0xE0 0x20 sub S.id data rnd)).2 = r) :
    AttestFits S.box sub data ∧ r = .sw 0x9000 (S.answer env key sub data) ∨
      ¬ AttestFits S.box sub data ∧ IsError r := by
  obtain ⟨hb, hc, hs, hk, x, hx, hB, hA⟩ := ready_attest h hS hL
  rw [hB.id, attest_step hb hc hx hB.id0 hl hsub, hk] at hr
  rw [← attestOp_fits hA hB.state key hsub data]
  cases ho : attestOp env key x sub data with
  | ub => exact absurd ho (attestOp_noub env key x sub data)
  | err e =>
    rw [ho] at hr
    refine .inr ⟨by simp, ?_⟩
    rw [← hr]
    exact isError_of (attestOp_err ho)
  | ok x' out =>
    rw [ho] at hr
    refine .inl ⟨⟨_, _, rfl⟩, ?_⟩
    rw [← hr]
    show Reply.sw _ out = _
    congr 1
    unfold AttestSess.answer
    obtain ⟨_, h2⟩ := attestOp_rel hA ho
    rcases hsub with rfl | rfl | rfl | rfl
    · rw [if_neg (by decide), h2 (by simp)]
      unfold attestReply
      have : (attestStep S.box (2, data)).nTokens = S.box.nTokens := by
        show (S.box.addTree data).nTokens = _
        unfold BoxDesc.addTree; split <;> rfl
      rw [this]
    · rw [if_neg (by decide), h2 (by simp)]; rfl
    · rw [if_neg (by decide), h2 (by simp)]; rfl
    · rw [if_pos rfl]
      obtain ⟨_, _, _, i, rfl, _, hout⟩ := getFrame_rel hA
        (show x.getFrame env key data = .ok x' out from ho)
      rw [hout]
      have : field [i] 0 1 = i.toNat := by simp [field, be]
      rw [this]
      rfl

end Ergo
