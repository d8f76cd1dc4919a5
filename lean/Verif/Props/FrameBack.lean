import Verif.Props.Authentic
import Verif.Props.Accept
import Mathlib.Tactic.Tauto
/-!
# C11 on the device: an emitted frame in a signing session
-/
namespace Ergo
open Spec

/-- C11: a frame the device sent, followed by anything, has a valid tag in the same power cycle and tells
about the attested box exactly what it was built from; a signing session that takes it takes this. -/
theorem C11_device {env : Env} (hwf : env.WF) {nanoS : Bool} {key : Bytes} {tr : List Obs} {d : Device}
    (h : Runs env nanoS key tr d) {out : Bytes} (hs : SentFrame tr out) (rest : Bytes) :
    ∃ A n, Attested tr A ∧ n < framesFor A.box.nTokens ∧ out = A.frame env key n ∧
      TagValid env key (out ++ rest) ∧ frameLen (out ++ rest) + 16 = out.length ∧
      (40 * field (out ++ rest) 42 1 % 256) % 40 = 0 ∧ field (out ++ rest) 33 1 = n ∧
      ∀ D : TxDesc, D.frame (out ++ rest) =
        if n = 0 then
          { D with inputs := ⟨A.boxId env, A.box.value, framesFor A.box.nTokens, 1,
            frameTokens 0 A.box.tokens, be (rest.take 4), []⟩ :: D.inputs }
        else D.onInput (fun i => { i with
          got := i.got + 1, tokens := i.tokens ++ frameTokens n A.box.tokens }) := by
  obtain ⟨o, ho, ⟨cla, p2, data, rnd, he⟩, hr⟩ := hs
  obtain ⟨tr4, tr3, rfl⟩ := List.append_of_mem ho
  obtain ⟨d0, e0, hd0, rfl⟩ := h.split
  have he : e0 = _ := he
  subst he
  obtain ⟨A, y, y', hA, _, _, _, hAR, _, hop, _⟩ := attest_answer hd0 (by decide) hr
  have hg : y.getFrame env key data = .ok y' _ := hop
  obtain ⟨_, hc, hn, i, hi, hlt, hout⟩ := getFrame_rel hAR hg
  have hsm : A.box.value < 2 ^ 64 := by rw [← hAR.value]; exact y.st.c.value.toNat_lt
  have hn20 := hAR.tok_le
  have hout' : out = A.frame env key i.toNat := hout
  generalize hB : frameBytes (env.blake (fullBoxBytes A.start.data A.box)) (UInt64.ofNat A.box.value)
    (toks64 A.box.tokens) i.toNat = B at hout
  have e : out ++ rest = B ++ ((env.hmac key B).take 16 ++ rest) := by rw [hout, List.append_assoc]
  obtain ⟨f1, f2, f3, f4, f5⟩ := frameBytes_says (data := out ++ rest)
    (rest := (env.hmac key B).take 16 ++ rest)
    (hwf.blake_len _) hAR.idLen hAR.small (by omega) i.toNat_lt hsm (by rw [hB]; exact e)
  have hl32 : ∀ t ∈ toks64 A.box.tokens, t.1.length = 32 := by
    intro t ht
    obtain ⟨u, hu, rfl⟩ := List.mem_map.1 ht
    exact hAR.idLen u hu
  have hBl := frameBytes_length (env.blake (fullBoxBytes A.start.data A.box)) (UInt64.ofNat A.box.value)
    (toks64 A.box.tokens) i.toNat (hwf.blake_len _) hl32
  rw [hB] at hBl
  have h4 := frameTokens_length i.toNat (toks64 A.box.tokens)
  have h42 : field (out ++ rest) 42 1 = (frameTokens i.toNat (toks64 A.box.tokens)).length := by
    rw [field_of (d := out ++ rest) (pre := env.blake (fullBoxBytes A.start.data A.box) ++
        [UInt8.ofNat (framesFor (toks64 A.box.tokens).length), UInt8.ofNat i.toNat] ++
        writeU64be (UInt64.ofNat A.box.value))
      (a := [UInt8.ofNat (frameTokens i.toNat (toks64 A.box.tokens)).length])
      (post := (frameTokens i.toNat (toks64 A.box.tokens)).flatMap (fun t => t.1 ++ writeU64be t.2) ++
        ((env.hmac key B).take 16 ++ rest))
      (by rw [e, ← hB]; simp only [frameBytes, amountBytes_eq, List.append_assoc])
      (by simp [hwf.blake_len, writeU64be_length]) (by rfl), be_one, UInt8.toNat_ofNat']
    omega
  have hfl : frameLen (out ++ rest) = B.length := by
    unfold frameLen; rw [h42, hBl]; omega
  have htl : ((env.hmac key B).take 16).length = 16 := by
    rw [List.length_take, hwf.hmac_len]; omega
  refine ⟨A, i.toNat, ⟨⟨_, tr3, by rw [List.append_cons], hA⟩, hc, hn⟩, by rw [← hn]; exact hlt, hout', ?_, ?_,
    ?_, f3, ?_⟩
  · unfold TagValid
    rw [hfl, e, List.drop_left, List.take_left, List.take_left' htl]
  · rw [hfl, hout, List.length_append, htl]
  · rw [h42, show 40 * (frameTokens i.toNat (toks64 A.box.tokens)).length % 256 =
      40 * (frameTokens i.toNat (toks64 A.box.tokens)).length from Nat.mod_eq_of_lt (by omega)]
    exact Nat.mul_mod_right _ _
  · intro D
    unfold TxDesc.frame
    rw [f1, f2, f3, f4, f5, hn]
    split
    · rename_i h0
      rw [h0]
      have : field (out ++ rest) (43 + 40 * field (out ++ rest) 42 1 % 256 + 16) 4 = be (rest.take 4) := by
        change field (out ++ rest) (frameLen (out ++ rest) + 16) 4 = _
        unfold field
        rw [hfl, List.drop_left' (by rw [hout, List.length_append, htl])]
      rw [this]
      rfl
    · rfl

/-- C11: in an open signing session with nothing on the screen, a frame sent by the device, with the
extension size behind frame 0, is accepted exactly if it is the frame that is due and the sums fit; the
tag never stands in the way. -/
theorem C11_session {env : Env} (hwf : env.WF) {nanoS : Bool} {key : Bytes} {tr : List Obs} {d : Device}
    (h : Runs env nanoS key tr d) {S : SignSess} (hS : (know tr).sign = some S) (hL : Live tr)
    (hn : d.asks = none) {out : Bytes} (hs : SentFrame tr out) (rest : Bytes)
    (hl : (out ++ rest).length ≤ 255) (h0 : field out 33 1 = 0 → 4 ≤ rest.length) (rnd : Rnd) :
    ∃ A n, Attested tr A ∧ out = A.frame env key n ∧ field out 33 1 = n ∧
      let D := describe S.log
      let r := (d.step env nanoS (.apdu 0xE0 0x21 0x12 S.id (out ++ rest) rnd)).2
      (r = .sw 0x9000 [] ↔ 0 < D.nIn ∧ D.table.length = D.nTok ∧ SumsFit (D.frame (out ++ rest)) ∧
        if n = 0 then
          D.inputs.length < D.nIn ∧ (∀ i ∈ D.inputs, i.complete) ∧
            be (rest.take 4) ≠ 1 ∧ be (rest.take 4) ≤ 32768
        else ∃ i is, D.inputs = i :: is ∧ n = i.got ∧ i.got < i.frames ∧ A.boxId env = i.boxId) ∧
      (r = .sw 0x9000 [] ∨ IsError r) := by
  obtain ⟨A, n, hA, hlt, hout, htag, hfl, h40, h33, hD⟩ := C11_device hwf h hs rest
  have h33' : field out 33 1 = n := by
    rw [← h33]
    unfold field
    congr 1
    rw [List.drop_append_of_le_length (by unfold frameLen at hfl; omega),
      List.take_append_of_le_length (by rw [List.length_drop]; unfold frameLen at hfl; omega)]
  refine ⟨A, n, hA, hout, h33', ?_⟩
  intro D r
  have hfits : Spec.Fits env key D 0x12 (out ++ rest) ↔
      0 < D.nIn ∧ D.table.length = D.nTok ∧ SumsFit (D.frame (out ++ rest)) ∧
        if n = 0 then
          D.inputs.length < D.nIn ∧ (∀ i ∈ D.inputs, i.complete) ∧
            be (rest.take 4) ≠ 1 ∧ be (rest.take 4) ≤ 32768
        else ∃ i is, D.inputs = i :: is ∧ n = i.got ∧ i.got < i.frames ∧ A.boxId env = i.boxId := by
    have hlen : out.length = frameLen (out ++ rest) + 16 := hfl.symm
    have h32 : (out ++ rest).take 32 = A.boxId env := by
      rw [hout, List.take_append_of_le_length (by rw [← hout]; unfold frameLen at hlen; omega)]
      show ((frameBytes (A.boxId env) _ _ _) ++ _).take 32 = _
      unfold frameBytes
      simp only [List.append_assoc]
      exact List.take_left' (hwf.blake_len _)
    have hext : field (out ++ rest) (frameLen (out ++ rest) + 16) 4 = be (rest.take 4) := by
      unfold field
      rw [List.drop_left' hlen]
    have h321 : 1 ≤ field (out ++ rest) 32 1 ∨ ¬ n = 0 := by
      by_cases hn0 : n = 0
      · left
        have := congrArg (fun D : TxDesc => D.inputs.map (·.frames)) (hD .empty)
        unfold TxDesc.frame at this
        rw [h33, if_pos hn0, if_pos hn0] at this
        simp only [List.map_cons, List.cons.injEq] at this
        rw [this.1]; omega
      · exact .inr hn0
    unfold Spec.Fits
    rw [if_neg (by decide), if_neg (by decide), if_pos rfl]
    unfold FrameFits leastLen
    rw [if_pos ⟨rfl, rfl⟩, h33, h32, hext]
    by_cases hn0 : n = 0
    · have := h0 (by rw [h33', hn0])
      simp only [hn0, if_true]
      have hl' : 59 + 40 * field (out ++ rest) 42 1 % 256 + 4 ≤ (out ++ rest).length := by
        rw [List.length_append]; unfold frameLen at hlen; omega
      have h1 : 1 ≤ field (out ++ rest) 32 1 := by
        rcases h321 with h | h
        · exact h
        · exact absurd hn0 h
      tauto
    · simp only [hn0, if_false]
      have hl' : 59 + 40 * field (out ++ rest) 42 1 % 256 + 0 ≤ (out ++ rest).length := by
        rw [List.length_append]; unfold frameLen at hlen; omega
      tauto
  have hx := C48_exact h hS hL hn 0x12 (out ++ rest) hl (.inl (by decide)) rnd
  have hq := fun hf => (C48_questions h hS hL hn 0x12 (out ++ rest) hl (.inl (by decide)) rnd hf).1 (by decide)
  rw [← hfits]
  rcases hx with ⟨hx, _⟩ | ⟨hx, he⟩
  · exact ⟨⟨fun _ => hx, fun _ => hq hx⟩, .inl (hq hx)⟩
  · refine ⟨⟨fun hr => ?_, fun hf => absurd hf hx⟩, .inr he⟩
    obtain ⟨sw, hsw, he⟩ := he
    have hr' : (d.step env nanoS (.apdu 0xE0 0x21 0x12 S.id (out ++ rest) rnd)).2 = _ := hr
    rw [he] at hr'
    simp only [Reply.sw.injEq] at hr'
    exact absurd hr'.1 hsw

/-- The frame of an attested box with two tokens was sent, and is taken by a later session. -/
example : Runs toyEnv false [1] (seen demoUse.dropLast) (after demoUse.dropLast) ∧
    SentFrame (seen demoUse.dropLast) demoFrameOut ∧ (after demoUse.dropLast).asks = none ∧
    ((know (seen demoUse.dropLast)).sign.map (·.id)) = some 7 ∧
    ((after demoUse.dropLast).step toyEnv false (cmd 0x21 0x12 7 (demoFrameOut ++ [0, 0, 0, 0]))).2 =
      .sw 0x9000 [] := by
  refine ⟨runs_boot _ (by decide +kernel), ?_, by decide +kernel, by decide +kernel, by decide +kernel⟩
  have h : (seen demoUse.dropLast).any (fun o => (match o.event with
      | .apdu _ ins p1 _ _ _ => ins == 0x20 && p1 == 0x05
      | _ => false) && o.reply == .sw 0x9000 demoFrameOut) = true := by decide +kernel
  rw [List.any_eq_true] at h
  obtain ⟨o, ho, h⟩ := h
  simp only [Bool.and_eq_true, beq_iff_eq] at h
  refine ⟨o, ho, ?_, h.2⟩
  revert h
  cases o.event with
  | apdu cla ins p1 p2 data rnd =>
    rintro ⟨h, _⟩
    simp only [Bool.and_eq_true, beq_iff_eq] at h
    obtain ⟨rfl, rfl⟩ := h
    exact ⟨_, _, _, _, rfl⟩
  | _ => simp

end Ergo
