import Verif.Spec.Authentic
import Verif.Props.Frame
import Verif.Props.Attest
import Verif.Proof.Accepted
/-!
# C09: only authenticated frames are counted
-/
namespace Ergo
open Spec

/-- C09: every frame accepted in a signing session carries the truncated HMAC, under the session
key, of exactly the bytes that the description uses (box id, counters, value, tokens). -/
theorem C09_tag {env : Env} {nanoS : Bool} {key : Bytes} {tr : List Obs} {d : Device}
    (h : Runs env nanoS key tr d) {S : SignSess} (hS : (know tr).sign = some S) {data : Bytes}
    (hd : .cmd 0x12 data ∈ S.log) :
    TagValid env key data ∧ frameLen data + 16 ≤ data.length ∧
      data.take 32 = (data.take (frameLen data)).take 32 ∧
      (∀ off len, off + len ≤ 43 → field data off len = field (data.take (frameLen data)) off len) ∧
      frameToks data = frameToks (data.take (frameLen data)) := by
  obtain ⟨l1, l2, hl⟩ := List.append_of_mem hd
  obtain ⟨tr2, d1, tr1, x, p, p2, rnd, _, hd1, _, _, hS1, hR, hop, h1, h2, hlen⟩ := cmd_accepted h hS hl
  replace hop : opFrame env key x.p data = .ok p := hop
  obtain ⟨f, tag, rest, n, hf, e, ht, htag⟩ := C42_authenticated env key data x.p p hlen hop
  obtain ⟨e1, e2, e3, e4, e5, e6, e7, hle⟩ := frameParse_fields hf
  obtain ⟨hdl, tag', rest', n', f1, f2, f3, f4, f5, _⟩ := C42_parse data f hlen hf
  have hn : field data 42 1 = n'.toNat := by
    rw [field_of (d := data) (pre := f.boxId ++ [f.count, f.index] ++ writeU64be f.value) (a := [n'])
      (post := f.tokens ++ tag' ++ rest') (by rw [f1, f3]; simp)
      (by simp [f4, writeU64be_length]) (by rfl), be_one]
  have hL : frameLen data = (frameDataLen data).toNat := by
    rw [hdl, f5, ← hn]; rfl
  have hd16 : frameLen data + 16 ≤ data.length := by unfold frameLen; omega
  have hL43 : 43 ≤ frameLen data := by unfold frameLen; omega
  have hfield : ∀ off len, off + len ≤ 43 →
      field data off len = field (data.take (frameLen data)) off len := by
    intro off len hol
    unfold field
    rw [List.drop_take, List.take_take, Nat.min_eq_left (by omega)]
  refine ⟨?_, hd16, ?_, hfield, ?_⟩
  · have aux : ∀ L, (f.boxId ++ [f.count, f.index] ++ writeU64be f.value ++ [n] ++ f.tokens).length = L →
        data.take L = f.boxId ++ [f.count, f.index] ++ writeU64be f.value ++ [n] ++ f.tokens ∧
        data.drop L = tag ++ rest := by
      intro L hL'
      rw [e, List.append_assoc _ tag rest]
      exact ⟨List.take_left' hL', List.drop_left' hL'⟩
    obtain ⟨hb, hdr⟩ := aux (frameLen data) (by
      rw [hL, hdl]
      have : f.boxId.length = 32 := f4
      simp only [List.length_append, this, writeU64be_length, List.length_cons, List.length_nil])
    show (data.drop (frameLen data)).take 16 = _
    rw [hdr, List.take_left' ht, hb]
    exact htag
  · rw [List.take_take, Nat.min_eq_left (by omega)]
  · have h42 := hfield 42 1 (by omega)
    unfold frameToks
    rw [← h42]
    congr 2
    rw [List.drop_take, List.take_take, Nat.min_eq_left]
    unfold frameLen; omega

/-- What a frame made from a box tells. -/
theorem frameBytes_says {boxId rest data : Bytes} {value : Nat} {toks : List (Bytes × Nat)} {i : Nat}
    (hb : boxId.length = 32) (ht : ∀ t ∈ toks, t.1.length = 32) (hs : ∀ t ∈ toks, t.2 < 2 ^ 64)
    (hn : toks.length ≤ 1000) (hi : i < 256) (hv : value < 2 ^ 64)
    (e : data = frameBytes boxId (UInt64.ofNat value) (toks64 toks) i ++ rest) :
    data.take 32 = boxId ∧ field data 32 1 = framesFor toks.length ∧ field data 33 1 = i ∧
      field data 34 8 = value ∧ frameToks data = frameTokens i toks := by
  have h4 := frameTokens_length i toks
  have hmap : frameTokens i (toks64 toks) = toks64 (frameTokens i toks) := by
    rw [frameTokens_eq, frameTokens_eq, toks64, toks64, List.map_take, List.map_drop]
  have hlen : (toks64 toks).length = toks.length := by simp [toks64]
  have hl64 : (toks64 (frameTokens i toks)).length = (frameTokens i toks).length := by
    simp [toks64]
  have hfr : framesFor toks.length < 256 := by
    unfold framesFor; split <;> omega
  have e0 : data = boxId ++ ([UInt8.ofNat (framesFor toks.length)] ++ ([UInt8.ofNat i] ++
      (writeU64be (UInt64.ofNat value) ++ ([UInt8.ofNat (frameTokens i toks).length] ++
      ((toks64 (frameTokens i toks)).flatMap (fun t => t.1 ++ writeU64be t.2) ++ rest))))) := by
    rw [e]
    simp only [frameBytes, hlen, hmap, hl64, amountBytes_eq, List.append_assoc]
    rfl
  have l8 := writeU64be_length (UInt64.ofNat value)
  have hu : ∀ n, n < 256 → be [UInt8.ofNat n] = n := by
    intro n hn
    rw [be_one, UInt8.toNat_ofNat']; exact Nat.mod_eq_of_lt hn
  have h42 : field data 42 1 = (frameTokens i toks).length := by
    rw [field_of (d := data) (pre := boxId ++ [UInt8.ofNat (framesFor toks.length)] ++ [UInt8.ofNat i]
      ++ writeU64be (UInt64.ofNat value)) (a := [UInt8.ofNat (frameTokens i toks).length])
      (post := (toks64 (frameTokens i toks)).flatMap (fun t => t.1 ++ writeU64be t.2) ++ rest)
      (by rw [e0]; simp) (by simp [hb, l8]) (by rfl), hu _ (by omega)]
  have e3 : ∃ R, data = boxId ++ ([UInt8.ofNat (framesFor toks.length)] ++ ([UInt8.ofNat i] ++
      (writeU64be (UInt64.ofNat value) ++ R))) := ⟨_, e0⟩
  refine ⟨by rw [e0, List.take_left' hb], ?_, ?_, ?_, ?_⟩
  · obtain ⟨R, e3⟩ := e3
    rw [field_of (d := data) (pre := boxId) (a := [UInt8.ofNat (framesFor toks.length)])
      (post := [UInt8.ofNat i] ++ (writeU64be (UInt64.ofNat value) ++ R))
      (by rw [e3, List.append_assoc]) hb (by rfl), hu _ hfr]
  · obtain ⟨R, e3⟩ := e3
    rw [field_of (d := data) (pre := boxId ++ [UInt8.ofNat (framesFor toks.length)])
      (a := [UInt8.ofNat i]) (post := writeU64be (UInt64.ofNat value) ++ R)
      (by rw [e3]; simp only [List.append_assoc]) (by simp [hb]) (by rfl), hu _ hi]
  · obtain ⟨R, e3⟩ := e3
    rw [field_of (d := data) (pre := boxId ++ [UInt8.ofNat (framesFor toks.length)] ++ [UInt8.ofNat i])
      (a := writeU64be (UInt64.ofNat value)) (post := R) (by rw [e3]; simp only [List.append_assoc])
      (by simp [hb]) l8, be_writeU64, UInt64.toNat_ofNat']
    exact Nat.mod_eq_of_lt hv
  · have hl : ∀ t ∈ frameTokens i toks, t.1.length = 32 := fun t h => ht t (frameTokens_mem h)
    have hs' : ∀ t ∈ frameTokens i toks, t.2 < 2 ^ 64 := fun t h => hs t (frameTokens_mem h)
    have hfl : ((toks64 (frameTokens i toks)).flatMap (fun t => t.1 ++ writeU64be t.2)).length =
        40 * (frameTokens i toks).length := by
      rw [flatMap_tokens_length _ (by
        intro t h
        simp only [toks64, List.mem_map] at h
        obtain ⟨a, ha, rfl⟩ := h
        exact hl a ha)]
      simp [toks64]
    have hdrop : data.drop 43 =
        (toks64 (frameTokens i toks)).flatMap (fun t => t.1 ++ writeU64be t.2) ++ rest := by
      rw [e0]
      simp only [← List.append_assoc]
      rw [List.append_assoc _ _ rest]
      apply List.drop_left'
      simp [hb, l8]
    unfold frameToks
    rw [h42, hdrop, Nat.mod_eq_of_lt (by omega), List.take_left' hfl]
    clear hdrop hfl h42 e0 hl64 hmap h4 e3
    generalize frameTokens i toks = l at *
    induction l with
    | nil => simp [toks64, pieces_nil]
    | cons t l ih =>
      have h1 := hl t (by simp)
      have h2 := hs' t (by simp)
      simp only [toks64, List.map_cons, List.flatMap_cons] at ih ⊢
      rw [pieces_append _ (by simp [h1, writeU64be_length]) (by omega), List.map_cons,
        ih (fun t h => hl t (by simp [h])) (fun t h => hs' t (by simp [h]))]
      congr 1
      unfold tok40
      rw [List.take_left' h1, List.drop_left' h1, be_writeU64, UInt64.toNat_ofNat',
        Nat.mod_eq_of_lt (by simpa using h2)]

theorem regroup {α : Type} (a : List α) (x : α) (b : List α) (y : α) (c : List α) :
    a ++ x :: (b ++ y :: c) = (a ++ x :: (b ++ [y])) ++ c := by simp

/-- A frame of a signing session was accepted. -/
theorem frame_entry {env : Env} {nanoS : Bool} {key : Bytes} {tr : List Obs} {d : Device}
    (h : Runs env nanoS key tr d) {S : SignSess} (hS : (know tr).sign = some S) {data : Bytes}
    (hd : .cmd 0x12 data ∈ S.log) :
    ∃ tr2 d1 tr1 p2 rnd out, tr = tr2 ++ d1.observe env nanoS (.apdu 0xE0 0x21 0x12 p2 data rnd) :: tr1 ∧
      Runs env nanoS key tr1 d1 ∧
      (d1.step env nanoS (.apdu 0xE0 0x21 0x12 p2 data rnd)).2 = .sw 0x9000 out := by
  obtain ⟨l1, l2, hl⟩ := List.append_of_mem hd
  obtain ⟨tr2, o, tr1, rfl, h1, h2, h3⟩ := log_entry hS hl
  obtain ⟨d1, e, hd1, rfl⟩ := h.split
  rcases entry_of hd1 h2 h1 h3 with ⟨x, sub', data', p, h4, _, _, _, _, _, _, _, p2, rnd, rfl⟩ | ⟨x, h4, _⟩
  · cases h4
    refine ⟨tr2, d1, tr1, p2, rnd, ?_⟩
    have hw : (d1.step env nanoS (.apdu 0xE0 0x21 0x12 p2 data rnd)).2 ≠ .wait := by
      intro hh
      simp [Device.step, Device.dispatch, Device.signTransaction, Device.signSub, Device.signResult, Device.abort,
        status] at hh
      revert hh
      repeat' split
      all_goals simp
    cases hr : (d1.step env nanoS (.apdu 0xE0 0x21 0x12 p2 data rnd)).2 with
    | wait => exact absurd hr hw
    | sw code out =>
      refine ⟨out, rfl, hd1, ?_⟩
      simp only [signEntry, Device.observe, hr] at h1
      split at h1
      · rename_i hc
        rw [hc.2]
      · simp at h1
    | hang => simp [signEntry, Device.observe, hr] at h1
    | ub => simp [signEntry, Device.observe, hr] at h1
  · simp at h4

/-- If nobody but the device makes tags, only frames of the device are accepted. -/
theorem unforged_own {env : Env} {nanoS : Bool} {key : Bytes} {tr : List Obs} {d : Device}
    (h : Runs env nanoS key tr d) (hun : Unforged env key tr) : OwnFrames tr := by
  rintro tr2 o tr1 rfl cla p2 data rnd out he hr
  obtain ⟨d1, e, hd1, rfl⟩ := h.split
  have he : e = _ := he
  subst he
  obtain ⟨S, _, _, hS, _, _, _, _, hlen, _, hS'⟩ := accepted_op hd1 (by decide) (by decide) (.inl hr)
  have hr : (d1.step env nanoS (.apdu cla 0x21 0x12 p2 data rnd)).2 = .sw 0x9000 out := hr
  obtain ⟨hv, _⟩ := C09_tag (.step _ hd1 (by rw [hr]; simp) (by rw [hr]; simp)) hS' (data := data) (by simp)
  exact hun tr2 _ tr1 rfl _ _ _ _ rfl hlen hv

/-- C09: if only frames of the device are accepted, every frame accepted in a signing session tells what
the device found out about a box that was attested completely in the same power cycle. -/
theorem C09_emitted {env : Env} (hwf : env.WF) {nanoS : Bool} {key : Bytes} {tr : List Obs} {d : Device}
    (h : Runs env nanoS key tr d) (hun : OwnFrames tr) {S : SignSess}
    (hS : (know tr).sign = some S) {data : Bytes} (hd : .cmd 0x12 data ∈ S.log) :
    ∃ A, Attested tr A ∧ TellsOf env A data := by
  obtain ⟨hv, hle, _⟩ := C09_tag h hS hd
  obtain ⟨tr2, d1, tr1, p2, rnd, out, rfl, hd1, hout⟩ := frame_entry h hS hd
  obtain ⟨o, ho, ⟨cla, p2', data', rnd', he⟩, hr⟩ := hun tr2 _ tr1 rfl _ _ _ _ _ rfl hout
  obtain ⟨tr4, tr3, rfl⟩ := List.append_of_mem ho
  obtain ⟨d0, e0, hd0, rfl⟩ := hd1.split
  have he : e0 = _ := he
  subst he
  obtain ⟨A, y, y', hA, _, _, _, hAR, _, hop, _⟩ := attest_answer hd0 (by decide) hr
  have hg : y.getFrame env key data' = .ok y' _ := hop
  obtain ⟨_, hc, hn, i, hi, hlt, hout⟩ := getFrame_rel hAR hg
  have hsm : A.box.value < 2 ^ 64 := by rw [← hAR.value]; exact y.st.c.value.toNat_lt
  have hn20 := hAR.tok_le
  have e : data = frameBytes (A.boxId env) (UInt64.ofNat A.box.value) (toks64 A.box.tokens) i.toNat ++
      ((env.hmac key (frameBytes (A.boxId env) (UInt64.ofNat A.box.value) (toks64 A.box.tokens)
        i.toNat)).take 16 ++ data.drop (frameLen data + 16)) := by
    rw [← List.append_assoc]
    have := (List.take_append_drop (frameLen data + 16) data).symm
    rw [hout] at this
    exact this
  obtain ⟨f1, f2, f3, f4, f5⟩ := frameBytes_says (hwf.blake_len _) hAR.idLen hAR.small (by omega)
    i.toNat_lt hsm e
  refine ⟨A, ⟨⟨_, tr3, regroup tr2 _ tr4 _ tr3, hA⟩, hc, hn⟩, f1, ?_, ?_, f4, ?_⟩
  · rw [f2, hn]
  · rw [f3, ← hn]; exact hlt
  · rw [f5, f3]

/-- C09: if only frames of the device are accepted, every input of a described transaction is put together
from frames of completely attested boxes with the id of the input. -/
theorem C09_inputs {env : Env} (hwf : env.WF) {nanoS : Bool} {key : Bytes} {tr : List Obs} {d : Device}
    (h : Runs env nanoS key tr d) (hun : OwnFrames tr) {S : SignSess}
    (hS : (know tr).sign = some S) :
    ∀ i ∈ (describe S.log).inputs, ∃ As, (∀ A ∈ As, Attested tr A) ∧ MadeFrom env As i := by
  have key2 : ∀ l l', S.log = l ++ l' →
      ∀ i ∈ (describe l).inputs, ∃ As, (∀ A ∈ As, Attested tr A) ∧ MadeFrom env As i := by
    intro l
    induction l using List.reverseRecOn with
    | nil => intro _ _ i hi; simp [describe, TxDesc.empty] at hi
    | append_singleton l e ih =>
      intro l' hl i hi
      have hl' : S.log = l ++ e :: l' := by rw [hl]; simp
      have hp := ih _ hl'
      rw [describe_append] at hi
      cases e with
      | approve =>
        apply hp
        revert hi
        simp only [TxDesc.step]
        split <;> exact id
      | cmd sub data =>
        obtain ⟨tr2, d1, tr1, x, p, p2, rnd, _, hd1, _, _, hS1, hR, hop, h1, h2, _⟩ :=
          cmd_accepted h hS hl'
        obtain ⟨_, _, _, _, _, _, _, _, _, hP, _⟩ := hR
        rcases step_inputs (D := describe l) (data := data) sub with e | e | ⟨rfl, e⟩ | e
        · rw [e] at hi; exact hp i hi
        · rw [e] at hi; simp at hi
        · rw [e] at hi
          obtain ⟨A, hA, t1, t2, t3, t4, t5⟩ := C09_emitted hwf h hun hS (data := data)
            (by rw [hl']; simp)
          replace hop : opFrame env key x.p data = .ok p := hop
          unfold TxDesc.frame at hi
          rcases opFrame_facts hP hop with ⟨f1, _⟩ | ⟨f1, j, js, f2, f3, f4, f5⟩
          · rw [if_pos f1] at hi
            rcases List.mem_cons.1 hi with rfl | hi
            · refine ⟨[A], by simpa using hA, rfl, by simpa using t1.symm, ?_, A, rfl, t4, t2⟩
              simp [t5, f1]
            · exact hp i hi
          · rw [if_neg f1] at hi
            unfold TxDesc.onInput at hi
            have f2' : (describe l).inputs = j :: js := f2
            rw [f2'] at hi
            simp only at hi
            rcases List.mem_cons.1 hi with rfl | hi
            · obtain ⟨As, q1, q2, q3, q4, A0, q5, q6, q7⟩ := hp j (by rw [f2']; simp)
              refine ⟨As ++ [A], ?_, by simp [q2], ?_, ?_, A0, ?_, q6, q7⟩
              · intro B hB
                rcases List.mem_append.1 hB with hB | hB
                · exact q1 B hB
                · simp at hB; subst hB; exact hA
              · intro B hB
                rcases List.mem_append.1 hB with hB | hB
                · exact q3 B hB
                · simp at hB; subst hB
                  exact t1.symm.trans f3.symm
              · simp only [List.zipIdx_append, List.flatMap_append]
                rw [← q4, t5, ← f4, ← q2]
                simp
              · cases As with
                | nil => simp at q5
                | cons B Bs => simpa using q5
            · exact hp i (by rw [f2']; simp [hi])
        · rw [e] at hi
          unfold TxDesc.onInput at hi
          split at hi
          · exact hp i hi
          · rename_i j js f2
            simp only at hi
            rcases List.mem_cons.1 hi with rfl | hi
            · obtain ⟨As, q1, q2⟩ := hp j (by rw [f2]; simp)
              exact ⟨As, q1, q2⟩
            · exact hp i (by rw [f2]; simp [hi])
  exact key2 S.log [] (by simp)

/-- C09: if moreover attested boxes with the same id have the same tokens, every complete input has
exactly the value and the tokens of an attested box with its id. -/
theorem C09_whole {env : Env} (hwf : env.WF) {nanoS : Bool} {key : Bytes} {tr : List Obs} {d : Device}
    (h : Runs env nanoS key tr d) (hun : OwnFrames tr) {S : SignSess}
    (hS : (know tr).sign = some S)
    (hone : ∀ A B, Attested tr A → Attested tr B → A.boxId env = B.boxId env →
      A.box.tokens = B.box.tokens) :
    ∀ i ∈ (describe S.log).inputs, i.complete →
      ∃ A, Attested tr A ∧ i.boxId = A.boxId env ∧ i.value = A.box.value ∧
        i.tokens = A.box.tokens := by
  intro i hi hc
  obtain ⟨As, q1, q2, q3, q4, A, q5, q6, q7⟩ := C09_inputs hwf h hun hS i hi
  have hA : A ∈ As := List.mem_of_head? q5
  refine ⟨A, q1 A hA, (q3 A hA).symm, q6, ?_⟩
  have hg : i.got = i.frames := by
    simp only [InDesc.complete, Bool.and_eq_true, decide_eq_true_eq] at hc; exact hc.1
  have key2 : ∀ (l : List AttestSess) (k : Nat), (∀ B ∈ l, B.box.tokens = A.box.tokens) →
      (l.zipIdx k).flatMap (fun a => frameTokens a.2 a.1.box.tokens) =
        (List.range' k l.length).flatMap (fun j => frameTokens j A.box.tokens) := by
    intro l
    induction l with
    | nil => intro k _; rfl
    | cons B l ih =>
      intro k hB
      rw [List.zipIdx_cons, List.flatMap_cons, ih (k + 1) (fun B hB' => hB B (by simp [hB'])),
        List.length_cons, List.range'_succ, List.flatMap_cons, hB B (by simp)]
  rw [q4, key2 As 0 (fun B hB => hone B A (q1 B hB) (q1 A hA) ((q3 B hB).trans (q3 A hA).symm)),
    ← List.range_eq_range', q2, hg, q7, ← (q1 A hA).2.2, C10_concat]

/-! ## An example -/

/-- The frame that the device sends for the box of `demoAttestTok`. -/
def demoFrameOut : Bytes :=
  match ((after demoAttestTok).step toyEnv false (cmd 0x20 0x05 7 [0])).2 with
  | .sw _ out => out
  | _ => []

/-- Attest a box with two tokens, then present its frame in a signing session. -/
def demoUse : List Event :=
  demoAttestTok ++ [cmd 0x20 0x05 7 [0]] ++ demoOpen ++
    [cmd 0x21 0x10 7 [0, 1, 0, 0, 2, 0, 1], cmd 0x21 0x11 7 (List.replicate 32 6 ++ List.replicate 32 7),
     cmd 0x21 0x12 7 (demoFrameOut ++ [0, 0, 0, 0])]

/-- A check that implies `Unforged`. -/
def unforgedB (env : Env) (key : Bytes) : List Obs → Bool
  | [] => true
  | o :: tr =>
    (match o.event with
     | .apdu _ ins p1 _ data _ =>
       !(ins == 0x21 && p1 == 0x12 && decide ((data.drop (frameLen data)).take 16 =
         (env.hmac key (data.take (frameLen data))).take 16)) ||
       tr.any (fun o => (match o.event with
         | .apdu _ ins p1 _ _ _ => ins == 0x20 && p1 == 0x05
         | _ => false) && o.reply == .sw 0x9000 (data.take (frameLen data + 16)))
     | _ => true) && unforgedB env key tr

theorem unforgedB_sound {env : Env} {key : Bytes} : ∀ {tr : List Obs}, unforgedB env key tr = true →
    Unforged env key tr
  | [], _ => by intro tr2 o tr1 e; simp at e
  | o' :: tr, h => by
    simp only [unforgedB, Bool.and_eq_true] at h
    intro tr2 o tr1 e cla p2 data rnd he hlen hv
    cases tr2 with
    | cons b tr2 =>
      simp only [List.cons_append, List.cons.injEq] at e
      exact unforgedB_sound h.2 tr2 o tr1 e.2 cla p2 data rnd he hlen hv
    | nil =>
      simp only [List.nil_append, List.cons.injEq] at e
      obtain ⟨rfl, rfl⟩ := e
      have h1 := h.1
      rw [he] at h1
      have hv' : (data.drop (frameLen data)).take 16 =
        (env.hmac key (data.take (frameLen data))).take 16 := hv
      simp only [beq_self_eq_true, Bool.true_and, hv', decide_true, Bool.not_true, Bool.false_or,
        List.any_eq_true, Bool.and_eq_true, beq_iff_eq] at h1
      obtain ⟨q, hq, h2, h3⟩ := h1
      refine ⟨q, hq, ?_, h3⟩
      revert h2
      cases hqe : q.event with
      | apdu cla ins p1 p2 data rnd =>
        intro h2
        simp only [Bool.and_eq_true, beq_iff_eq] at h2
        obtain ⟨rfl, rfl⟩ := h2
        exact ⟨_, _, _, _, rfl⟩
      | _ => simp

/-- The hypotheses hold for a session with an attested input that has two tokens. -/
example : Runs toyEnv false [1] (seen demoUse) (after demoUse) ∧ Unforged toyEnv [1] (seen demoUse) ∧
    (know (seen demoUse)).sign.map (fun S => (describe S.log).inputs.map (fun i =>
      (i.complete, i.value, i.tokens.map (·.2)))) = some [(true, 265, [5, 256])] :=
  ⟨runs_boot _ (by decide +kernel), unforgedB_sound (by decide +kernel), by decide +kernel⟩

end Ergo
