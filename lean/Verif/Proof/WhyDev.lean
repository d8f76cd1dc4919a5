import Verif.Proof.WhyOp
import Verif.Proof.AcceptDev
import Mathlib.Data.List.Perm.Subperm
/-!
# The status word of a refused command: the device
-/
namespace Ergo
open Spec

variable {D : TxDesc}

/-! ## What fits meets all demands -/

/-- More tokens in the newest input. -/
def plusToks (D : TxDesc) (l : List (Bytes × Nat)) : TxDesc :=
  D.onInput (fun i => { i with tokens := i.tokens ++ l })

theorem plusToks_cons {i : InDesc} {is : List InDesc} (hD : D.inputs = i :: is)
    (l : List (Bytes × Nat)) :
    plusToks D l = { D with inputs := { i with tokens := i.tokens ++ l } :: is } := by
  unfold plusToks TxDesc.onInput; rw [hD]

theorem tokIn_le_plus {i : InDesc} {is : List InDesc} (hD : D.inputs = i :: is)
    (l : List (Bytes × Nat)) (id : Bytes) : D.tokIn id ≤ (plusToks D l).tokIn id := by
  rw [plusToks_cons hD, tokIn_cons (D := { D with inputs := _ :: is }) _ is id rfl,
    tokIn_cons (D := D) i is id hD, sumOf_append]
  simp only
  omega

theorem otherIds_le_plus {i : InDesc} {is : List InDesc} (hD : D.inputs = i :: is)
    (l : List (Bytes × Nat)) : D.otherIds.length ≤ (plusToks D l).otherIds.length := by
  rw [plusToks_cons hD]
  unfold TxDesc.otherIds
  refine ((List.nodup_dedup _).subperm ?_).length_le
  intro id
  rw [List.mem_dedup, List.mem_dedup, hD]
  simp only [List.flatMap_cons, List.map_append, List.mem_filter, List.mem_append]
  tauto

theorem inTokDemands_met : ∀ (l : List Bytes) (D : TxDesc), D.inputs ≠ [] →
    (∀ b ∈ l, b.length = 40) → (∀ id, (plusToks D (l.map tok40)).tokIn id < 2 ^ 63) →
    D.table.length + (plusToks D (l.map tok40)).otherIds.length ≤ 20 → AllMet (inTokDemands D l)
  | [], _, _, _, _, _ => allMet_nil
  | b :: bs, D, hne, hl, ht, hc => by
    obtain ⟨i, is, hD⟩ := List.exists_cons_of_ne_nil hne
    have hb := hl b (by simp)
    have e1 : D.inToken (tok40 b) = plusToks D [tok40 b] := rfl
    have hD' : (D.inToken (tok40 b)).inputs = { i with tokens := i.tokens ++ [tok40 b] } :: is := by
      rw [e1, plusToks_cons hD]
    have e2 : plusToks (D.inToken (tok40 b)) (bs.map tok40) = plusToks D ((b :: bs).map tok40) := by
      rw [plusToks_cons hD', e1, plusToks_cons hD, plusToks_cons hD]
      simp
    have e3 : (D.inToken (tok40 b)).table = D.table := inToken_table _
    rw [← e2] at ht hc
    unfold inTokDemands
    simp only [allMet_cons]
    refine ⟨by omega, hb, ?_, ?_, inTokDemands_met bs _ (by rw [hD']; simp)
      (fun c hc => hl c (by simp [hc])) ht (by rw [e3]; exact hc)⟩
    · have := otherIds_le_plus hD' (bs.map tok40)
      rw [e3]; omega
    · exact Nat.lt_of_le_of_lt (tokIn_le_plus hD' _ _) (ht _)

theorem outTokDemands_met {o : OutDesc} : ∀ (l : List Bytes) (got : List (Nat × Nat)),
    (∀ b ∈ l, b.length = 12) → o.box.tokens.length + got.length + l.length ≤ o.box.nTokens →
    (∀ t ∈ l.map tok12, t.1 < D.nTok) → NoRepeat D.table (o.box.tokens ++ got ++ l.map tok12) →
    (∀ id, D.tokOut id + tokRefs D.table (got ++ l.map tok12) id ≤ D.tokIn id + 2 ^ 63) →
    AllMet (outTokDemands D o got l)
  | [], _, _, _, _, _, _ => allMet_nil
  | b :: bs, got, hl, hn, hi, hr, hb => by
    have h12 := hl b (by simp)
    unfold outTokDemands
    simp only [allMet_cons]
    refine ⟨by simp only [List.length_cons] at hn; omega, by omega, hi _ (by simp), h12, ?_, ?_,
      outTokDemands_met bs (got ++ [tok12 b]) (fun c hc => hl c (by simp [hc])) ?_
      (fun t ht => hi t ?_) ?_ ?_⟩
    · intro id hid
      exact hr (o.box.tokens ++ got) (tok12 b) (bs.map tok12) (by simp) id hid
    · intro id hid
      have := hb id
      rw [tokRefs_append, List.map_cons, tokRefs_cons, if_pos (by simpa using hid)] at this
      omega
    · simp only [List.length_append, List.length_cons, List.length_nil] at hn ⊢
      omega
    · rw [List.map_cons]; exact List.mem_cons_of_mem _ ht
    · simpa [List.append_assoc] using hr
    · intro id
      simpa [List.append_assoc] using hb id

theorem pieces_all {n : Nat} (hn : 0 < n) {d : Bytes} (h : d.length % n = 0) :
    ∀ b ∈ pieces n d, b.length = n :=
  pieces_mem_length hn (d.length / n) d (by
    have := Nat.div_add_mod d.length n
    rw [h] at this
    rw [Nat.mul_comm]; omega)

theorem frameDemands_met {env : Env} {key data : Bytes} (hn : 0 < D.nIn) (hl : data.length ≤ 255)
    (h : FrameFits env key D data) : AllMet (frameDemands env key D data) := by
  obtain ⟨h1, h2, h3, h4, h5, h6⟩ := h
  have h1' := h1
  unfold leastLen at h1'
  rw [if_pos ⟨rfl, rfl⟩] at h1'
  have hfl : frameLen data % 256 = frameLen data := by
    refine Nat.mod_eq_of_lt ?_
    unfold frameLen
    omega
  have hfl' : frameLen data + 16 = 59 + 40 * field data 42 1 % 256 := by unfold frameLen; omega
  have hlen : ((data.drop 43).take (40 * field data 42 1 % 256)).length = 40 * field data 42 1 % 256 := by
    rw [List.length_take, List.length_drop]; omega
  have hp : ∀ b ∈ pieces 40 ((data.drop 43).take (40 * field data 42 1 % 256)), b.length = 40 :=
    pieces_all (by decide) (by rw [hlen]; exact h2)
  unfold frameDemands
  simp only
  rw [allMet_append]
  simp only [allMet_cons, hfl]
  refine ⟨⟨by omega, by omega, h3, h1, allMet_nil⟩, ?_⟩
  by_cases hz : field data 33 1 = 0
  · rw [if_pos hz] at h6 ⊢
    obtain ⟨g1, g2, g3, g4, g5⟩ := h6
    have e : D.frame data = { D with inputs := ⟨data.take 32, field data 34 8, field data 32 1, 1,
        frameToks data, field data (frameLen data + 16) 4, []⟩ :: D.inputs } := by
      unfold TxDesc.frame
      rw [if_pos hz]
      rfl
    rw [allMet_append]
    simp only [allMet_cons]
    refine ⟨⟨⟨hn, h4, g1, g2⟩, ⟨g4, g5⟩, ?_, g3, allMet_nil⟩, inTokDemands_met _ _ (by simp) hp ?_ ?_⟩
    · have := h5.value
      rw [e, sumIn_cons _ D.inputs rfl] at this
      simp only at this
      have e2 : ∀ d : TxDesc, d = D → d.sumIn = D.sumIn := fun d h => by rw [h]
      rw [e2 _ rfl] at this
      omega
    · intro id
      have := h5.toks id
      rw [e] at this
      rw [plusToks_cons rfl]
      exact this
    · have := h5.ids
      rw [e] at this
      rw [plusToks_cons rfl]
      exact this
  · rw [if_neg hz] at h6 ⊢
    obtain ⟨i, is, hD, g1, g2, g3⟩ := h6
    have e : D.frame data = { D with inputs := { i with got := i.got + 1, tokens := i.tokens ++ frameToks data } :: is } := by
      unfold TxDesc.frame TxDesc.onInput
      rw [if_neg hz, hD]
    rw [allMet_append]
    simp only [allMet_cons]
    refine ⟨⟨⟨i, by rw [hD]; rfl, g2⟩, ?_, ?_, ?_, allMet_nil⟩,
      inTokDemands_met _ _ (by rw [hD]; simp) hp ?_ ?_⟩
    · rw [hD]; intro j hj; cases hj; exact g3
    · rw [hD]; intro j hj; cases hj; omega
    · rw [hD]; intro j hj; cases hj; exact g1
    · intro id
      have := h5.toks id
      rw [e] at this
      rw [plusToks_cons hD]
      exact this
    · have := h5.ids
      rw [e] at this
      rw [plusToks_cons hD]
      exact this

theorem ownScript_met {o : OutDesc} {os : List OutDesc} (hD : D.outputs = o :: os)
    (h1 : o.box.script = none) (h2 : ValueFits D o) : AllMet (ownScriptDemands D) := by
  unfold ownScriptDemands
  rw [hD]
  simp only [allMet_cons]
  refine ⟨⟨o, rfl, by simp [BoxDesc.scriptDone, h1]⟩, ?_, ?_, allMet_nil⟩
  · intro j hj; cases hj; exact h2
  · intro j hj; cases hj; exact h1

/-- What fits meets all demands. -/
theorem fits_met {env : Env} {key data : Bytes} {sub : UInt8} (hl : data.length ≤ 255)
    (h : Fits env key D sub data) : AllMet (signDemands env key D sub data) := by
  unfold Fits at h
  unfold signDemands
  by_cases e : sub = 0x10
  · rw [if_pos e] at h ⊢
    obtain ⟨h1, h2, h3, h4, h5⟩ := h
    simp only [allMet_cons]
    exact ⟨by omega, by omega, h1, h3, h4, h5, allMet_nil⟩
  rw [if_neg e] at h ⊢
  obtain ⟨hn, h⟩ := h
  by_cases e : sub = 0x11
  · rw [if_pos e] at h ⊢
    obtain ⟨h1, h2, h3⟩ := h
    exact allMet_cons.2 ⟨⟨hn, h1⟩, idDemands_met h2 h3⟩
  rw [if_neg e] at h ⊢
  by_cases e : sub = 0x12
  · rw [if_pos e] at h ⊢
    exact frameDemands_met hn hl h
  rw [if_neg e] at h ⊢
  by_cases e : sub = 0x13
  · rw [if_pos e] at h ⊢
    obtain ⟨i, is, hD, h1, h2, h3⟩ := h
    rw [hD]
    simp only [allMet_cons]
    refine ⟨⟨i, rfl, h1, h2⟩, ?_, allMet_nil⟩
    intro j hj; cases hj; exact h3
  rw [if_neg e] at h ⊢
  by_cases e : sub = 0x14
  · rw [if_pos e] at h ⊢
    obtain ⟨h1, h2, h3, h4⟩ := h
    exact allMet_cons.2 ⟨⟨hn, h1, h2⟩, idDemands_met h3 h4⟩
  rw [if_neg e] at h ⊢
  by_cases e : sub = 0x15
  · rw [if_pos e] at h ⊢
    obtain ⟨h1, h2, h3, h4, h5, h6, h7⟩ := h
    simp only [allMet_cons]
    exact ⟨by omega, by omega, ⟨hn, h1, h2, h3⟩, h6, h5, h7, allMet_nil⟩
  rw [if_neg e] at h ⊢
  by_cases e : sub = 0x20
  · rw [if_pos e] at h
    subst e
    exact allMet_cons.2 ⟨⟨hn, h⟩, allMet_nil⟩
  rw [if_neg e] at h
  obtain ⟨o, os, hD, h⟩ := h
  by_cases e : sub = 0x16
  · rw [if_pos e] at h ⊢
    obtain ⟨h1, h2, h3⟩ := h
    rw [hD]
    simp only [allMet_cons]
    refine ⟨⟨o, rfl, h1⟩, ?_, ?_, allMet_nil⟩
    · intro j hj; cases hj; exact h2
    · intro j hj; cases hj; exact h3
  rw [if_neg e] at h ⊢
  by_cases e : sub = 0x17
  · rw [if_pos e] at h ⊢
    exact allMet_cons.2 ⟨h.1, ownScript_met hD h.2.1 h.2.2⟩
  rw [if_neg e] at h ⊢
  by_cases e : sub = 0x18
  · rw [if_pos e] at h ⊢
    obtain ⟨h1, h2, h3, h4, h5, h6, h7⟩ := h
    simp only [allMet_cons]
    exact ⟨⟨h1, h2, h3⟩, h4, h5, ownScript_met hD h6 h7⟩
  rw [if_neg e] at h ⊢
  by_cases e : sub = 0x19
  · rw [if_pos e] at h ⊢
    obtain ⟨h1, h2, h3, h4, h5, h6, h7⟩ := h
    rw [hD]
    refine allMet_cons.2 ⟨⟨o, rfl, h1, h2⟩, outTokDemands_met _ [] (pieces_all (by decide) h3) ?_ h5
      (by simpa using h6) (by simpa using h7)⟩
    have := pieces_length (n := 12) (by decide) (data.length / 12) data (by omega)
    simp only [List.length_nil]
    omega
  rw [if_neg e] at h ⊢
  by_cases e : sub = 0x1A
  · rw [if_pos e] at h ⊢
    obtain ⟨h1, h2, h3, h4⟩ := h
    rw [hD]
    simp only [allMet_cons]
    refine ⟨⟨o, rfl, h1, h2, h3⟩, ?_, allMet_nil⟩
    intro j hj; cases hj; exact h4
  rw [if_neg e] at h
  exact h.elim

/-- The reply to a signing command in a session that goes on, when nothing is asked: success when all
demands are met, otherwise the status word of the first that is not. -/
theorem sign_why {env : Env} {nanoS : Bool} {key : Bytes} {tr : List Obs} {d : Device}
    (h : Runs env nanoS key tr d) {S : SignSess} (hS : (know tr).sign = some S) (hL : Live tr)
    (ha : d.asks = none) {sub : UInt8} {data : Bytes} (hl : data.length ≤ 255)
    (hsub : 0x10 ≤ sub ∧ sub ≤ 0x1A ∨ sub = 0x20) (rnd : Rnd) {r : Reply}
    (hr : (d.step env nanoS (.apdu 0xE0 0x21 sub S.id data rnd)).2 = r) :
    AllMet (signDemands env key (describe S.log) sub data) ∧ (r = .sw 0x9000 [] ∨ r = .wait) ∨
      ∃ c, FirstUnmet (signDemands env key (describe S.log) sub data) c ∧ c ≠ 0x9000 ∧ r = .sw c [] := by
  rcases sign_reply h hS hL ha hl hsub rnd hr with ⟨h1, h2⟩ | ⟨h1, h2⟩
  · left
    refine ⟨fits_met hl h1, ?_⟩
    rcases h2 with h2 | h2
    · exact .inl h2.2
    · exact .inr h2.2
  · right
    obtain ⟨c', hc', hrc⟩ := h2
    suffices hs : ∃ c, FirstUnmet (signDemands env key (describe S.log) sub data) c ∧ r = .sw c [] by
      obtain ⟨c, hu, hw⟩ := hs
      rw [hrc] at hw
      cases hw
      exact ⟨c', hu, hc', hrc⟩
    obtain ⟨hb, hc, hk, x, hx, hap, hid, hid0, hnf, h0, hR⟩ := ready_sign h hS hL ha
    rw [sign_step hb hc hx hap hid hid0 hl hsub] at hr
    rcases hsub with ⟨g1, g2⟩ | rfl
    · have hf := signOp_fits hR hnf (got_pos h hS) hl key g1 g2
      rw [← hf] at h1
      have hub := signOp_noub hR d.sessionKey sub data
      rw [signSub_eq hc hx hap g1 g2] at hr
      rw [← hk] at h1 ⊢
      cases ho : signOp env d.sessionKey x.p sub data with
      | ub => exact absurd ho hub
      | ok p => exact absurd ⟨p, ho⟩ h1
      | err c =>
        refine ⟨c, signOp_why hR hnf (got_pos h hS) hl d.sessionKey g1 g2 ho, ?_⟩
        rw [ho] at hr
        rw [← hr]
        split <;> rfl
    · have hf : Fits env key (describe S.log) 0x20 data ↔ x.p.state = .txFinished :=
        (finished_iff hR hnf).symm
      rw [hf] at h1
      have e3 : d.signSub env 0x20 x.session data = d.signConfirm x := by
        unfold Device.signSub
        rw [if_neg (by simp [hc]), hx]
        dsimp only
        rw [if_neg (by simp), if_neg (by simp [hap])]
        rfl
      rw [e3] at hr
      unfold Device.signConfirm at hr
      rw [if_pos h1] at hr
      exact ⟨0xB0FF, .here (fun hc => h1 ((finished_iff hR hnf).2 hc)), hr.symm⟩

end Ergo
