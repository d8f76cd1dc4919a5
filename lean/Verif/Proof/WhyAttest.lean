import Verif.Proof.WhyStart
import Verif.Proof.AttestFits
import Verif.Proof.WhyDev
/-!
# The status word of a refused command: attestation
-/
namespace Ergo
open Spec

variable {env : Env} {start : Bytes} {o : BoxDesc Bytes} {x : AttestCtx}

theorem attFinish_noerr {y : BoxSt (List (Bytes × UInt64))} {e : BoxErr} :
    (y.finish attestCbs).2 ≠ .err e := by
  intro h
  have := attFinish_passes y
  rw [h] at this
  simp [Res.passes] at this

theorem attTreeAdded_noerr {y : BoxSt (List (Bytes × UInt64))} {e : BoxErr} :
    (y.treeAdded attestCbs).2 ≠ .err e := by
  intro h
  have := attTreeAdded_passes y
  rw [h] at this
  simp [Res.passes] at this

theorem attTree_why {y : BoxSt (List (Bytes × UInt64))}
    (hB : BoxRel (fun id => id) (fun _ => []) [] y.c y.h o) {chunk : Bytes} {e : BoxErr}
    (h : (y.addTree attestCbs chunk).2 = .err e) : FirstUnmet (attestDemands o 0x02 chunk) e.sw := by
  show FirstUnmet [(o.scriptDone = false, 0xB0FF), (scriptLen o + chunk.length ≤ o.treeSize, 0xE015),
      (scriptLen o + chunk.length = o.treeSize ∨ 255 ≤ chunk.length, 0xE01A)] e.sw
  have hin := attInit_iff hB
  unfold BoxSt.addTree at h
  by_cases hbs : y.c.state = .initialized
  case neg =>
    rw [if_pos hbs] at h
    simp only [BoxSt.fail, Res.err.injEq] at h
    rw [← h]
    exact .here (fun hc => hbs (hin.2 hc))
  rw [if_neg (by simpa using hbs)] at h
  refine .later (hin.1 hbs) ?_
  have hlen : scriptLen o + y.c.treeSize.toNat = o.treeSize := by
    have hph := hB.phase
    unfold BoxPhase at hph
    rw [hbs] at hph
    simp only at hph
    unfold scriptLen
    rcases hph.1 with ⟨h1, h2⟩ | ⟨bs, h1, h2, _⟩
    · rw [h1]; simpa using h2
    · rw [h1]; exact h2
  have h255 : maxChunk = 255 := rfl
  by_cases h1 : y.c.treeSize.toNat < chunk.length
  · rw [if_pos h1] at h
    simp only [BoxSt.fail, Res.err.injEq] at h
    rw [← h]
    exact .here (by omega)
  rw [if_neg h1] at h
  refine .later (by omega) ?_
  by_cases h2 : y.c.treeSize.toNat > chunk.length ∧ chunk.length < maxChunk
  · rw [if_pos h2] at h
    simp only [BoxSt.fail, Res.err.injEq] at h
    rw [← h]
    exact .here (by omega)
  rw [if_neg h2] at h
  dsimp only at h
  split at h
  · exact absurd h attTreeAdded_noerr
  · cases h

theorem attRegs_why {y : BoxSt (List (Bytes × UInt64))}
    (hB : BoxRel (fun id => id) (fun _ => []) [] y.c y.h o) {chunk : Bytes} {e : BoxErr}
    (h : (y.addRegisters attestCbs chunk).2 = .err e) :
    FirstUnmet (attestDemands o 0x04 chunk) e.sw := by
  have hfits := attRegs_iff hB chunk
  have hph := hB.phase
  show FirstUnmet [(o.scriptDone = true ∧ o.tokens.length = o.nTokens ∧ o.regs.length < o.regsSize, 0xB0FF),
      (o.regs.length + chunk.length ≤ o.regsSize, 0xE015)] e.sw
  have hnp : ¬ AttestFits o 0x04 chunk := by
    rw [← hfits, h]; simp [Res.passes]
  rw [show AttestFits o 0x04 chunk = (o.scriptDone = true ∧ o.tokens.length = o.nTokens ∧
    o.regs.length < o.regsSize ∧ o.regs.length + chunk.length ≤ o.regsSize) from rfl] at hnp
  unfold BoxSt.addRegisters at h
  by_cases hbs : y.c.state = .tokensAdded
  · unfold BoxPhase at hph
    rw [hbs] at hph
    simp only at hph
    obtain ⟨hsd, _, ht, hr, hpos⟩ := hph
    rw [if_neg (by simpa using hbs)] at h
    have hA : o.scriptDone = true ∧ o.tokens.length = o.nTokens ∧ o.regs.length < o.regsSize :=
      ⟨hsd, ht, by omega⟩
    refine .later hA ?_
    by_cases h1 : y.c.regsSize.toNat < chunk.length
    · rw [if_pos h1] at h
      simp only [BoxSt.fail, Res.err.injEq] at h
      rw [← h]
      exact .here (by omega)
    · rw [if_neg h1] at h
      dsimp only at h
      split at h
      · exact absurd h attFinish_noerr
      · cases h
  · rw [if_pos hbs] at h
    simp only [BoxSt.fail, Res.err.injEq] at h
    rw [← h]
    refine .here ?_
    rintro ⟨g1, g2, g3⟩
    unfold BoxPhase at hph
    split at hph
    · rename_i he
      rw [(attInit_iff hB).1 he] at g1; simp at g1
    · omega
    · rename_i he; exact hbs he
    · simp only [BoxDesc.complete, Bool.and_eq_true, decide_eq_true_eq] at hph
      omega
    · simp only [BoxDesc.complete, Bool.and_eq_true, decide_eq_true_eq] at hph
      omega
    · exact hph.elim

theorem attTokensLoop_why :
    ∀ (n : Nat) (input : Bytes) (y : BoxSt (List (Bytes × UInt64))) (got : List (Bytes × Nat))
      (e : BoxErr), y.s.map (·.1) = (o.tokens ++ got).map (·.1) →
    o.tokens.length + got.length + y.c.tokensCount.toNat = o.nTokens → o.nTokens ≤ 20 →
    (BoxSt.tokensLoop attestCbs none n input y).2 = .err e →
    FirstUnmet (attestTokDemands o got (pieces 40 input)) e.sw := by
  intro n
  induction n with
  | zero =>
    intro input y got e _ _ _ h
    cases input <;> simp [BoxSt.tokensLoop] at h
  | succ n ih =>
    intro input y got e hs hc h20 h
    cases input with
    | nil => simp [BoxSt.tokensLoop] at h
    | cons b bs =>
      obtain ⟨d, hd⟩ : ∃ d, b :: bs = d := ⟨_, rfl⟩
      have hne : d ≠ [] := by rw [← hd]; simp
      simp only [BoxSt.tokensLoop] at h
      rw [hd] at h ⊢
      rw [pieces_ne (by decide) hne]
      unfold attestTokDemands
      have hsl : y.s.length = o.tokens.length + got.length := by
        have := congrArg List.length hs
        simpa using this
      by_cases hc0 : y.c.tokensCount = 0
      · rw [if_pos hc0] at h
        simp only [BoxSt.fail, Res.err.injEq] at h
        rw [← h]
        refine .here ?_
        rw [u8_eq_zero.1 hc0] at hc
        omega
      rw [if_neg hc0] at h
      have hcnt := u8_ne_zero.1 hc0
      have hsub : (y.c.tokensCount - 1).toNat = y.c.tokensCount.toNat - 1 :=
        u8_sub_ofNat y.c.tokensCount (k := 1) hcnt
      refine .later (by omega) ?_
      simp only [boxTokenId] at h
      unfold bufBytes at h
      have h32 : idLen = 32 := rfl
      by_cases hid : d.length < idLen
      · rw [if_pos hid] at h
        simp only [BoxSt.fail, Res.err.injEq] at h
        rw [← h]
        refine .here ?_
        rw [List.length_take]; omega
      rw [if_neg hid] at h
      rw [h32] at hid h
      simp only at h
      refine .later (by rw [List.length_take]; omega) ?_
      rcases bufU64_cases (d.drop 32) with ⟨h3, h4⟩ | ⟨h3, v, h4⟩
      · simp only [List.length_drop] at h3
        simp only [h4, BoxSt.fail, Res.err.injEq] at h
        rw [← h]
        refine .here ?_
        rw [List.length_take]; omega
      simp only [List.length_drop] at h3
      simp only [h4] at h
      refine .later (by rw [List.length_take]; omega) ?_
      have ht : (d.take 40).take 32 = d.take 32 := by
        rw [List.take_take]; rfl
      have hdd : (d.drop 32).drop 8 = d.drop 40 := by rw [List.drop_drop]
      rw [ht]
      simp only [hdd] at h
      have hmax : tokenMax = 20 := rfl
      have h1 : ¬ y.s.length ≥ tokenMax := by omega
      simp only [attestCbs] at h
      rw [if_neg h1] at h
      by_cases hdup : (y.s.any fun t => t.1 == d.take 32) = true
      · rw [if_pos hdup] at h
        simp only [BoxSt.check, BoxSt.fail, Res.err.injEq] at h
        rw [← h]
        refine .here (fun hn => hn ?_)
        simp only [List.any_eq_true, beq_iff_eq] at hdup
        obtain ⟨t, ht1, ht2⟩ := hdup
        rw [← hs]
        exact List.mem_map.2 ⟨t, ht1, ht2⟩
      rw [if_neg hdup] at h
      refine .later ?_ ?_
      · rw [← hs]
        simp only [List.any_eq_true, beq_iff_eq, not_exists, not_and] at hdup
        intro hm
        obtain ⟨t, ht1, ht2⟩ := List.mem_map.1 hm
        exact hdup t ht1 ht2
      · refine ih (d.drop 40) { c := { y.c with tokensCount := y.c.tokensCount - 1 }
                                h := y.h ++ d.take 32 ++ gvePutU64 v, s := y.s ++ [(d.take 32, v)] }
          (got ++ [tok40 (d.take 40)]) e ?_ ?_ h20 ?_
        · simp only [List.map_append, hs, List.map_cons, List.map_nil, List.append_assoc]
          simp only [tok40, ht]
        · simp only [List.length_append, List.length_cons, List.length_nil, hsub]
          omega
        · simpa [BoxSt.check, attestCbs] using h

theorem attTokens_why {y : BoxSt (List (Bytes × UInt64))}
    (hB : BoxRel (fun id => id) (fun _ => []) [] y.c y.h o) (hT : y.s = toks64 o.tokens)
    {data : Bytes} {e : BoxErr} (h : (y.addTokens attestCbs none data).2 = .err e) :
    FirstUnmet (attestDemands o 0x03 data) e.sw := by
  have hph := hB.phase
  have hids : (y.s.map (·.1)) = (o.tokens ++ []).map (fun t : Bytes × Nat => t.1) := by
    rw [hT, toks64, List.map_map, List.append_nil]; rfl
  show FirstUnmet ((o.scriptDone = true ∧ o.tokens.length < o.nTokens, 0xB0FF) ::
    attestTokDemands o [] (pieces 40 data)) e.sw
  unfold BoxSt.addTokens at h
  by_cases hbs : y.c.state = .treeAdded
  · rw [if_neg (by simpa using hbs)] at h
    unfold BoxPhase at hph
    rw [hbs] at hph
    simp only at hph
    obtain ⟨hsd, _, ht, hpos, _⟩ := hph
    have hle := hB.tok_le
    refine .later ⟨hsd, by omega⟩ ?_
    refine attTokensLoop_why data.length data y [] e hids (by simp only [List.length_nil]; omega)
      (by omega) ?_
    split at h
    · rename_i z hz
      split at h
      · split at h
        · exact absurd h attFinish_noerr
        · cases h
      · cases h
    · exact h
  · rw [if_pos hbs] at h
    simp only [BoxSt.fail, Res.err.injEq] at h
    rw [← h]
    refine .here ?_
    rintro ⟨g1, g2⟩
    unfold BoxPhase at hph
    split at hph
    · rename_i he
      rw [(attInit_iff hB).1 he] at g1; simp at g1
    · rename_i he; exact hbs he
    · omega
    · simp only [BoxDesc.complete, Bool.and_eq_true, decide_eq_true_eq] at hph
      omega
    · simp only [BoxDesc.complete, Bool.and_eq_true, decide_eq_true_eq] at hph
      omega
    · exact hph.elim

/-! ## What fits meets all demands -/

theorem attestTokDemands_met : ∀ (l : List Bytes) (got : List (Bytes × Nat)),
    (∀ b ∈ l, b.length = 40) → o.tokens.length + got.length + l.length ≤ o.nTokens →
    ((o.tokens ++ got ++ l.map tok40).map (·.1)).Nodup → AllMet (attestTokDemands o got l)
  | [], _, _, _, _ => allMet_nil
  | b :: bs, got, hl, hn, hd => by
    have hb := hl b (by simp)
    unfold attestTokDemands
    simp only [allMet_cons]
    refine ⟨by simp only [List.length_cons] at hn; omega, by omega, hb, ?_,
      attestTokDemands_met bs (got ++ [tok40 b]) (fun c hc => hl c (by simp [hc])) ?_ ?_⟩
    · intro hm
      rw [List.map_append, List.nodup_append] at hd
      exact hd.2.2 _ hm (b.take 32) (by simp [tok40]) rfl
    · simp only [List.length_append, List.length_cons, List.length_nil] at hn ⊢
      omega
    · simpa [List.append_assoc] using hd

theorem attestFits_met {sub : UInt8} {data : Bytes} (h : AttestFits o sub data) :
    AllMet (attestDemands o sub data) := by
  unfold AttestFits at h
  unfold attestDemands
  by_cases e : sub = 0x02
  · rw [if_pos e] at h ⊢
    simp only [allMet_cons]
    exact ⟨h.1, h.2.1, h.2.2, allMet_nil⟩
  rw [if_neg e] at h ⊢
  by_cases e : sub = 0x03
  · rw [if_pos e] at h ⊢
    obtain ⟨h1, h2, h3, h4, h5⟩ := h
    refine allMet_cons.2 ⟨⟨h1, h2⟩, attestTokDemands_met _ [] (pieces_all (by decide) h3) ?_
      (by simpa using h5)⟩
    have := pieces_length (n := 40) (by decide) (data.length / 40) data (by omega)
    simp only [List.length_nil]
    omega
  rw [if_neg e] at h ⊢
  by_cases e : sub = 0x04
  · rw [if_pos e] at h ⊢
    simp only [allMet_cons]
    exact ⟨⟨h.1, h.2.1, h.2.2.1⟩, h.2.2.2, allMet_nil⟩
  rw [if_neg e] at h ⊢
  by_cases e : sub = 0x05
  · rw [if_pos e] at h
    obtain ⟨h1, i, rfl, h2⟩ := h
    simp only [allMet_cons]
    exact ⟨h1, by simp, by simp, by simpa [field, be] using h2, allMet_nil⟩
  · rw [if_neg e] at h
    exact h.elim

/-! ## Replies -/

theorem attPart_why (hA : AttRel env start o x) (hs : x.state ≠ .initialized)
    {q : BoxSt (List (Bytes × UInt64)) × Res BoxErr} {c : UInt16} (h : x.part env q = .err c) :
    (o.complete = true ∧ c = 0xB0FF) ∨
    BoxRel (fun id => id) (fun _ => []) [] x.st.c x.st.h o ∧ ∃ e, q.2 = .err e ∧ c = e.sw := by
  have hph := hA.phase
  obtain ⟨st, r⟩ := q
  by_cases hf : x.state = .finished
  · rw [if_pos hf] at hph
    refine .inl ⟨hph.1, ?_⟩
    unfold AttestCtx.part at h
    rw [if_pos (by rw [hf]; decide)] at h
    cases h; rfl
  · rw [if_neg hf] at hph
    have hap : x.state = .approved := by
      cases hx : x.state with
      | initialized => exact absurd hx hs
      | finished => exact absurd hx hf
      | approved => rfl
    refine .inr ⟨hph.1, ?_⟩
    unfold AttestCtx.part at h
    rw [if_neg (by simpa using hap)] at h
    cases r with
    | ok =>
      simp only at h
      unfold AttestCtx.checkFinished at h
      by_cases hfin : st.c.state = .finished
      · rw [if_neg (by simpa using hfin)] at h
        unfold BoxSt.idHash at h
        simp only [hfin, ne_eq, not_true_eq_false, if_false] at h
        cases h
      · rw [if_pos (by simpa using hfin)] at h
        cases h
    | more => cases h
    | err e => exact ⟨e, rfl, by cases h; rfl⟩
    | ub => cases h

theorem complete_unmet {sub : UInt8} {data : Bytes} (hs : sub = 2 ∨ sub = 3 ∨ sub = 4)
    (hc : o.complete = true) : FirstUnmet (attestDemands o sub data) 0xB0FF := by
  simp only [BoxDesc.complete, Bool.and_eq_true, decide_eq_true_eq] at hc
  rcases hs with rfl | rfl | rfl
  · exact .here (by rw [hc.1.1]; simp)
  · exact .here (by omega)
  · exact .here (by omega)

theorem attestOp_why (hA : AttRel env start o x) (hs : x.state ≠ .initialized) {key : Bytes}
    {sub : UInt8} (hsub : sub = 2 ∨ sub = 3 ∨ sub = 4 ∨ sub = 5) {data : Bytes} {c : UInt16}
    (h : attestOp env key x sub data = .err c) : FirstUnmet (attestDemands o sub data) c := by
  have hph := hA.phase
  rcases hsub with rfl | rfl | rfl | rfl
  · rcases attPart_why hA hs (q := x.st.addTree attestCbs data) h with ⟨h1, rfl⟩ | ⟨h1, e, h2, rfl⟩
    · exact complete_unmet (by simp) h1
    · exact attTree_why h1 h2
  · rcases attPart_why hA hs (q := x.st.addTokens attestCbs none data) h with
      ⟨h1, rfl⟩ | ⟨h1, e, h2, rfl⟩
    · exact complete_unmet (by simp) h1
    · exact attTokens_why h1 hA.toks h2
  · rcases attPart_why hA hs (q := x.st.addRegisters attestCbs data) h with
      ⟨h1, rfl⟩ | ⟨h1, e, h2, rfl⟩
    · exact complete_unmet (by simp) h1
    · exact attRegs_why h1 h2
  · show FirstUnmet [((o.complete : Prop), 0xB0FF), (1 ≤ data.length, 0xE014), (data.length ≤ 1, 0xE015),
      (field data 0 1 < framesFor o.nTokens, 0xE007)] c
    change x.getFrame env key data = .err c at h
    unfold AttestCtx.getFrame at h
    by_cases hf : x.state = .finished
    · rw [if_pos hf] at hph
      rw [if_neg (by simpa using hf)] at h
      have hc := hph.1
      refine .later hc ?_
      cases data with
      | nil => cases h; exact .here (by simp)
      | cons i rest =>
        refine .later (by simp) ?_
        simp only [bufU8] at h
        by_cases hr : rest = []
        · subst hr
          refine .later (by simp) ?_
          have hn : o.tokens.length = o.nTokens := by
            simp only [BoxDesc.complete, Bool.and_eq_true, decide_eq_true_eq] at hc
            exact hc.1.2
          have hlen : (toks64 o.tokens).length = o.nTokens := by simp [toks64, hn]
          have hi : field [i] 0 1 = i.toNat := by simp [field, be]
          rw [if_neg (by simp), framesCount_eq, hA.toks, hlen] at h
          split at h
          · cases h
            exact .here (by rw [hi]; omega)
          · cases h
        · rw [if_pos hr] at h
          cases h
          refine .here ?_
          have := List.length_pos_iff.2 hr
          simp only [List.length_cons]; omega
    · rw [if_neg hf] at hph
      rw [if_pos (by simpa using hf)] at h
      cases h
      exact .here (by rw [hph.2.1]; simp)

/-- The reply to an attestation command in a session that goes on. -/
theorem why_attestCont {nanoS : Bool} {key : Bytes} {tr : List Obs} {d : Device}
    (h : Runs env nanoS key tr d) {S : AttestSess} (hS : (know tr).attest = some S)
    (hL : LiveAttest tr) {sub : UInt8} {data : Bytes} (hl : data.length ≤ 255)
    (hsub : sub = 2 ∨ sub = 3 ∨ sub = 4 ∨ sub = 5) (rnd : Rnd) :
    Answers rnd (attestDemands S.box sub data) (d.step env nanoS (.apdu 0xE0 0x20 sub S.id data rnd)).2 := by
  rcases attest_reply h hS hL hl hsub rnd rfl with ⟨h1, h2⟩ | ⟨h1, h2⟩
  · exact .inl ⟨attestFits_met h1, .inl ⟨_, h2⟩⟩
  · right
    obtain ⟨c', hc', hrc⟩ := h2
    obtain ⟨hb, hc, hs, hk, x, hx, hB, hA⟩ := ready_attest h hS hL
    refine ⟨c', ?_, hc', hrc⟩
    rw [hB.id, attest_step hb hc hx hB.id0 hl hsub, hk] at hrc
    cases ho : attestOp env key x sub data with
    | ub => exact absurd ho (attestOp_noub env key x sub data)
    | ok x' out => exact absurd ((attestOp_fits hA hB.state key hsub data).1 ⟨_, _, ho⟩) h1
    | err c =>
      rw [ho] at hrc
      have := attestOp_why hA hB.state hsub ho
      change Reply.sw c [] = _ at hrc
      cases hrc
      exact this

end Ergo
