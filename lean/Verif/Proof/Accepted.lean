import Verif.Proof.Limits
import Verif.Props.Frame
import Mathlib.Data.List.Induction
/-!
# Facts about accepted commands of a signing session
-/
namespace Ergo
open Spec

variable {env : Env} {h0 : Bytes} {p p' : P2pk} {D : TxDesc} {data : Bytes}

theorem withTx_state {f : FullSt → FullSt × Res FullErr} (h : p.withTx f = .ok p') :
    p'.state = p.state := by
  unfold P2pk.withTx at h
  split at h
  · split at h
    · cases h; rfl
    · cases h; rfl
    · cases h
    · cases h
  · cases h

theorem addInputTokens_state {b ts : Bytes} {i : UInt8} (h : p.addInputTokens b i ts = .ok p') :
    p'.state = .inputsStarted := by
  unfold P2pk.addInputTokens at h
  split at h
  · cases h
  · rename_i hs
    rw [withTx_state h]; simpa using hs

/-- After an accepted command the operation is between its start and its confirmation. -/
theorem signOp_state {key : Bytes} {sub : UInt8} (hR : PRel env h0 p D)
    (h : signOp env key p sub data = .ok p') (h1 : 0x10 ≤ sub) (h2 : sub ≤ 0x1A) :
    p'.state ≠ .initialized ∧ p'.state ≠ .finalized := by
  by_cases hge : 0x16 ≤ sub
  · obtain ⟨_, _, _, _, _, hs, _⟩ := part_newest hR h hge
    rcases hs with hs | hs <;> rw [hs] <;> simp
  have hlt : sub.toNat < 22 := by
    rw [UInt8.le_iff_toNat_le] at hge
    have : (0x16 : UInt8).toNat = 22 := rfl
    omega
  have hge' : 16 ≤ sub.toNat := by
    rw [UInt8.le_iff_toNat_le] at h1
    exact h1
  have hs : sub = 0x10 ∨ sub = 0x11 ∨ sub = 0x12 ∨ sub = 0x13 ∨ sub = 0x14 ∨ sub = 0x15 := by
    simp only [← UInt8.toNat_inj]
    show sub.toNat = 16 ∨ sub.toNat = 17 ∨ sub.toNat = 18 ∨ sub.toNat = 19 ∨ sub.toNat = 20 ∨
      sub.toNat = 21
    omega
  rcases hs with rfl | rfl | rfl | rfl | rfl | rfl
  · replace h : opStart p data = .ok p' := h
    unfold opStart at h
    split at h
    · cases h
    unfold P2pk.startTx at h
    split at h
    · cases h
    split at h
    · cases h
    · cases h
    · cases h; simp
  · replace h : p.addTokens data = .ok p' := h
    unfold P2pk.addTokens at h
    split at h
    · cases h
    · rename_i hs
      rw [withTx_state h, not_not.1 hs]; simp
  · replace h : opFrame env key p data = .ok p' := h
    unfold opFrame at h
    simp only at h
    split at h
    · cases h
    split at h
    · cases h
    split at h
    · cases h
    split at h
    · rw [addInputTokens_state h]; simp
    · split at h
      · rw [addInputTokens_state h]; simp
      · rename_i hn
        exact absurd h (hn _)
  · replace h : p.addExtension data = .ok p' := h
    unfold P2pk.addExtension at h
    split at h
    · cases h
    · rename_i hs
      rw [withTx_state h, not_not.1 hs]; simp
  · replace h : p.addDataInputs data = .ok p' := h
    unfold P2pk.addDataInputs at h
    split at h
    · cases h
    · rename_i hs
      rw [withTx_state h, not_not.1 hs]; simp
  · replace h : opOutput p data = .ok p' := h
    unfold opOutput at h
    split at h
    · cases h
    unfold P2pk.addOutput at h
    split at h
    · cases h
    split at h
    · split at h
      · cases h; simp
      · cases h
    · rename_i hn
      exact absurd h (hn _)

/-- The extension size of a new input. -/
theorem addInput_ext {boxId : Bytes} {v : UInt64} {n : UInt8} {ext : UInt32}
    (h : p.addInput boxId v n ext = .ok p') : ext.toNat ≠ 1 ∧ ext.toNat ≤ 32768 := by
  unfold P2pk.addInput at h
  split at h
  · cases h
  split at h
  · rename_i q hq
    unfold P2pk.withTx at hq
    split at hq
    · rename_i t hu
      by_cases hb : ext = 1 ∨ ext.toNat > 32768
      · exfalso
        have key : ∀ x : FullSt, (∃ y e, x.addInput boxId n ext = (y, .err e)) ∨
            (∃ y, x.addInput boxId n ext = (y, .ub)) := by
          intro x
          unfold FullSt.addInput FullSt.fail
          simp only [inputInit, if_pos hb]
          split
          · exact .inl ⟨_, _, rfl⟩
          split
          · split
            · exact .inl ⟨_, _, rfl⟩
            split
            · exact .inl ⟨_, _, rfl⟩
            · exact .inl ⟨_, _, rfl⟩
          · exact .inr ⟨_, rfl⟩
        rcases key ⟨t.tx, p.hash, ⟨p.amounts, t.out.getD (.init 0)⟩⟩ with ⟨y, e, hk⟩ | ⟨y, hk⟩ <;>
          (dsimp only at hq; rw [hk] at hq; cases hq)
      · rw [not_or, ← UInt32.toNat_inj] at hb
        exact ⟨hb.1, by omega⟩
    · cases hq
  · rename_i hn
    exact absurd h (hn _)

/-- An accepted frame: number 0 has an admissible extension size and declares at least one frame;
another one is the next of the newest input. -/
theorem opFrame_facts {key : Bytes} (hR : PRel env h0 p D) (h : opFrame env key p data = .ok p') :
    (field data 33 1 = 0 ∧ 0 < field data 32 1 ∧
      field data (43 + 40 * field data 42 1 % 256 + 16) 4 ≠ 1 ∧
      field data (43 + 40 * field data 42 1 % 256 + 16) 4 ≤ 32768) ∨
    (field data 33 1 ≠ 0 ∧ ∃ i is, D.inputs = i :: is ∧ i.boxId = data.take 32 ∧
      i.got = field data 33 1 ∧ i.got < i.frames) := by
  unfold opFrame at h
  simp only at h
  split at h
  · simp at h
  split at h
  · simp at h
  split at h
  · simp at h
  rename_i f hf
  obtain ⟨e1, e2, e3, e4, e5, e6, e7, _⟩ := frameParse_fields hf
  split at h
  · rename_i hext
    obtain ⟨⟨i, is, h1, h2, h3, h4⟩, _, hP⟩ := addInputTokens_rel hR h
    have hne := e7 hext
    right
    rw [e3, e1]
    exact ⟨fun he => hne (u8_eq_zero.2 he), i, is, h1, h2, h3, by omega⟩
  · rename_i ext hext
    obtain ⟨hi, hex⟩ := e6 ext hext
    split at h
    · rename_i q hq
      have hq' := addInput_rel hR hq
      obtain ⟨⟨i, is, h1, h2, h3, h4⟩, _, hP⟩ := addInputTokens_rel hq' h
      simp only [List.cons.injEq] at h1
      obtain ⟨rfl, rfl⟩ := h1
      left
      rw [hex, e2, e3]
      simp only at h4
      exact ⟨by rw [hi]; rfl, by omega, addInput_ext hq⟩
    · rename_i hn
      exact absurd h (by intro he; exact hn _ he)

/-- The inputs after a command. -/
theorem step_inputs (sub : UInt8) :
    (D.step (.cmd sub data)).inputs = D.inputs ∨ (D.step (.cmd sub data)).inputs = [] ∨
    (sub = 0x12 ∧ (D.step (.cmd sub data)) = D.frame data) ∨
    (D.step (.cmd sub data)) = D.onInput (fun i => { i with ext := i.ext ++ data }) := by
  have ho : ∀ f : BoxDesc Nat → BoxDesc Nat, (D.onOutput f).inputs = D.inputs := by
    intro f; unfold TxDesc.onOutput; split <;> rfl
  by_cases e : sub = 0x10
  · subst e; exact .inr (.inl rfl)
  by_cases e1 : sub = 0x12
  · subst e1; exact .inr (.inr (.inl ⟨rfl, rfl⟩))
  by_cases e2 : sub = 0x13
  · subst e2; exact .inr (.inr (.inr rfl))
  left
  unfold TxDesc.step
  dsimp only
  rw [if_neg e]
  by_cases e : sub = 0x11
  · rw [if_pos e]
  rw [if_neg e, if_neg e1, if_neg e2]
  by_cases e : sub = 0x14
  · rw [if_pos e]
  rw [if_neg e]
  by_cases e : sub = 0x15
  · rw [if_pos e]
  rw [if_neg e]
  by_cases e : sub = 0x16
  · rw [if_pos e, ho]
  rw [if_neg e]
  by_cases e : sub = 0x17
  · rw [if_pos e, ho]
  rw [if_neg e]
  by_cases e : sub = 0x18
  · rw [if_pos e, ho]
  rw [if_neg e]
  by_cases e : sub = 0x19
  · rw [if_pos e, ho]
  rw [if_neg e]
  by_cases e : sub = 0x1A
  · rw [if_pos e, ho]
  rw [if_neg e]

/-- The limits after an accepted command. -/
theorem signOp_limits {key : Bytes} {sub : UInt8} (hR : PRel env h0 p D)
    (hin : ∀ i ∈ D.inputs, InLimits i) (hout : ∀ o ∈ D.outputs, BoxLimits o.box)
    (h : signOp env key p sub data = .ok p') (h1 : 0x10 ≤ sub) (h2 : sub ≤ 0x1A) :
    Limits (D.step (.cmd sub data)) := by
  have hR' := signOp_rel hR h h1 h2
  obtain ⟨s1, s2⟩ := signOp_state hR h h1 h2
  obtain ⟨t, hu, hT⟩ := hR'.tx s1 s2
  have hi : ∀ i ∈ (D.step (.cmd sub data)).inputs, (i.extSize ≠ 1 ∧ i.extSize ≤ 32768) ∧
      (0 < i.got ∧ i.got ≤ i.frames) := by
    intro i hi
    rcases step_inputs (D := D) (data := data) sub with e | e | ⟨rfl, e⟩ | e
    · rw [e] at hi
      exact ⟨(hin i hi).ext, (hin i hi).got⟩
    · rw [e] at hi; simp at hi
    · rw [e] at hi
      replace h : opFrame env key p data = .ok p' := h
      unfold TxDesc.frame at hi
      rcases opFrame_facts hR h with ⟨f1, f2, f3, f4⟩ | ⟨f1, j, js, f2, f3, f4, f5⟩
      · rw [if_pos f1] at hi
        rcases List.mem_cons.1 hi with rfl | hi
        · exact ⟨⟨f3, f4⟩, Nat.one_pos, f2⟩
        · exact ⟨(hin i hi).ext, (hin i hi).got⟩
      · rw [if_neg f1] at hi
        unfold TxDesc.onInput at hi
        rw [f2] at hi
        simp only at hi
        rcases List.mem_cons.1 hi with rfl | hi
        · have := hin j (by rw [f2]; simp)
          exact ⟨this.ext, Nat.succ_pos _, f5⟩
        · have := hin i (by rw [f2]; simp [hi])
          exact ⟨this.ext, this.got⟩
    · rw [e] at hi
      unfold TxDesc.onInput at hi
      split at hi
      · exact ⟨(hin i hi).ext, (hin i hi).got⟩
      · rename_i j js f2
        simp only at hi
        rcases List.mem_cons.1 hi with rfl | hi
        · have := hin j (by rw [f2]; simp)
          exact ⟨this.ext, this.got⟩
        · have := hin i (by rw [f2]; simp [hi])
          exact ⟨this.ext, this.got⟩
  refine hT.full.limits (fun i h' => (hi i h').1) (fun i h' => (hi i h').2) ?_ hT.refs
  intro o ho
  by_cases hlt : sub < 0x16
  · rcases step_other (D := D) (data := data) hlt with he | he | he
    · rw [he] at ho; exact hout o (List.mem_of_mem_tail ho)
    · rw [he] at ho; simp at ho
    · rw [he] at ho; exact hout o ho
  · have hge : 0x16 ≤ sub := by
      rw [UInt8.lt_iff_toNat_lt] at hlt
      rw [UInt8.le_iff_toNat_le]; omega
    obtain ⟨o0, os, b, hD, hD', _, hna⟩ := part_newest hR h hge
    rw [hD'] at ho
    exact hout o (by rw [hD]; simp; right; exact ho)

/-- Approving an output changes nothing that is limited. -/
theorem limits_approve (h : Limits D) : Limits (D.step .approve) := by
  cases hD : D.outputs with
  | nil => simpa [TxDesc.step, hD] using h
  | cons o os =>
    simp only [TxDesc.step, hD]
    obtain ⟨a1, a2, a3, a4, a5, a6, a7, a8, a9, a10, a11, a12, a13, a14⟩ := h
    rw [hD] at a7 a9 a13 a14
    refine ⟨a1, a2, a3, a4, a5, a6, ?_, a8, ?_, a10, a11, a12, fun _ => a13 (by simp), ?_⟩
    · simpa [List.countP_cons] using a7
    · intro o' ho'
      rcases List.mem_cons.1 ho' with rfl | ho'
      · exact a9 o (by simp)
      · exact a9 o' (by simp [ho'])
    · intro o' ho'
      rcases List.mem_cons.1 ho' with rfl | ho'
      · exact a14 o (by simp)
      · exact a14 o' (by simp [ho'])

/-- The limits hold at every point of every session. -/
theorem session_limits {env : Env} {nanoS : Bool} {key : Bytes} {tr : List Obs} {d : Device}
    (h : Runs env nanoS key tr d) {S : SignSess} (hS : (know tr).sign = some S) (l : List Entry) :
    ∀ l', S.log = l ++ l' → l = [] ∨ Limits (describe l) := by
  induction l using List.reverseRecOn with
  | nil => intro _ _; exact .inl rfl
  | append_singleton l e ih =>
    intro l' hl
    right
    have hl' : S.log = l ++ e :: l' := by rw [hl]; simp
    have hp := ih _ hl'
    rw [describe_append]
    cases e with
    | approve =>
      rcases hp with rfl | hp
      · obtain ⟨tr2, d1, tr1, x, _, hd1, _, _, hS1, hR, _⟩ := approve_accepted h hS hl'
        obtain ⟨_, _, _, _, _, _, _, _, _, _, _, hw⟩ := hR
        obtain ⟨_, o1, os, hD, hc, hna, _⟩ := hw trivial
        simp [describe, TxDesc.empty] at hD
      · exact limits_approve hp
    | cmd sub data =>
      obtain ⟨tr2, d1, tr1, x, p, p2, rnd, _, hd1, _, _, hS1, hR, hop, h1, h2, _⟩ := cmd_accepted h hS hl'
      obtain ⟨_, _, _, _, _, _, _, _, _, hP, _⟩ := hR
      refine signOp_limits hP ?_ ?_ hop h1 h2
      · rcases hp with rfl | hp
        · simp [describe, TxDesc.empty]
        · exact hp.inLimits
      · rcases hp with rfl | hp
        · simp [describe, TxDesc.empty]
        · exact hp.boxLimits

/-- The fee command is accepted only for an output without script. -/
theorem opFee_script (hR : PRel env h0 p D) (h : opFee env p data = .ok p') :
    data = [] ∧ ∃ o os, D.outputs = o :: os ∧ o.box.script = none := by
  unfold opFee at h
  split at h
  · simp at h
  rename_i hdata
  simp only [ne_eq, Decidable.not_not] at hdata
  refine ⟨hdata, ?_⟩
  obtain ⟨t, oi, o, os, x, r, q, hst, hu, hoi, hD, hT, hF, hO, hf, hrp, hq, rfl⟩ := withOut_ok hR h
  obtain ⟨hsd, ⟨fin, hfin⟩, hnone⟩ := setScript_full (s := .fee) (bytes := minersFeeTree)
    (fun b => rfl) (by simp) feeTree_eq hF hD hO hf hrp
  rcases setFee_rel hO hsd fin (by
    intro hn
    have := (hnone hn).2.2
    rw [hfin] at this
    exact congrArg OutInfo.boxFinished this) with ⟨q', hq', hn, hO'⟩ | hbad
  · exact ⟨o, os, hD, hn⟩
  · rw [hfin] at hq
    simp only at hq
    rw [hbad] at hq; simp at hq

/-- The change command is accepted only for an output without script, with an address path whose key
can be derived. -/
theorem opChange_script (hR : PRel env h0 p D) (h : opChange env p data = .ok p') :
    ∃ o os, D.outputs = o :: os ∧ o.box.script = none ∧ pathValidate (pathOf data) .addressGe5 ∧
      ∃ pub ch, env.genPublic (pathOf data) = some (pub, ch) := by
  unfold opChange at h
  split at h
  · simp at h
  rename_i path rest hpath
  obtain ⟨hpo, _⟩ := readPath_some hpath
  split at h
  · simp at h
  rename_i hval
  simp only [Decidable.not_not] at hval
  split at h
  · simp at h
  rename_i pub cc hpub
  obtain ⟨t, oi, o, os, x, r, q, hst, hu, hoi, hD, hT, hF, hO, hf, hrp, hq, rfl⟩ := withOut_ok hR h
  obtain ⟨hsd, ⟨fin, hfin⟩, hnone⟩ := setScript_full (s := .change path)
    (bytes := treeGenerateP2pk pub)
    (fun b => rfl) (by simp) (by
      simp only [scriptBytes, Env.keyOf, hpub, treeGenerateP2pk]
      rfl) hF hD hO hf hrp
  rcases setBip32_rel hO hsd fin path (by
    intro hn
    have := (hnone hn).2.2
    rw [hfin] at this
    exact congrArg OutInfo.boxFinished this) with ⟨q', hq', hn, hO'⟩ | hbad
  · exact ⟨o, os, hD, hn, by rw [hpo]; exact hval, pub, cc, by rw [hpo]; exact hpub⟩
  · rw [hfin] at hq
    simp only at hq
    rw [hbad] at hq; simp at hq

end Ergo
