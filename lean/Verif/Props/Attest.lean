import Verif.Proof.AttSim
import Verif.Proof.Session
import Verif.Props.Device
/-!
# C10, C12–C15: attestation sessions
-/
namespace Ergo
open Spec

/-- A success answer to a continuation command of attestation, and the session it belongs to. -/
theorem attest_answer {env : Env} {nanoS : Bool} {key : Bytes} {tr : List Obs} {d : Device}
    (h : Runs env nanoS key tr d) {cla p1 p2 : UInt8} {data out : Bytes} {rnd : Rnd}
    (h1 : p1 ≠ 0x01)
    (hr : (d.step env nanoS (.apdu cla 0x20 p1 p2 data rnd)).2 = .sw 0x9000 out) :
    ∃ S x x', (know tr).attest = some S ∧ d.screen = none ∧ d.ctx = .attest x ∧ AttestBase S x ∧
      AttRel env S.start.data S.box x ∧ (p1 = 2 ∨ p1 = 3 ∨ p1 = 4 ∨ p1 = 5) ∧
      attestOp env key x p1 data = .ok x' out ∧
      d.step env nanoS (.apdu cla 0x20 p1 p2 data rnd) = ({ d with ctx := .attest x' }, .sw 0x9000 out) ∧
      p2 = S.id := by
  have hI := h.inv
  generalize he : Event.apdu cla 0x20 p1 p2 data rnd = e at hr
  obtain ⟨d', r, hst, hT⟩ := step_cases env nanoS d e
  rw [hst] at hr ⊢
  cases hT with
  | attestOk hb hl hsub hc hx hs ho =>
    cases he
    simp only [Reply.sw.injEq] at hr
    obtain ⟨_, rfl⟩ := hr
    have hsc := idle_of hI hb
    have hid := hI.idle hsc
    unfold Idle at hid
    rw [hc] at hid
    obtain ⟨y, S, hy, hS, hB⟩ := hid
    rw [hx] at hy
    simp only [Ctx.attest.injEq] at hy
    subst hy
    rw [hI.key] at ho
    exact ⟨S, _, _, hS, hsc, hx, hB, h.attRel hsc hx hS, hsub, ho, rfl, hs.trans hB.id.symm⟩
  | attestKnown => cases he; exact absurd rfl h1
  | neutral hn =>
    simp only [status, Reply.sw.injEq] at hr
    exact absurd hr.1 (neutral_ghost hn).1
  | abort hb hsw => simp only [status, Reply.sw.injEq] at hr; exact absurd hr.1 hsw
  | moveErr h => subst he; simp at h
  | _ => first | (cases he; done) | (cases hr; done)

/-! ## C12: what the frames say -/

/-- C12: every frame released is the frame of the box described in the open session (`S.frame`, whose
box id is the hash of `fullBoxBytes`), and the box is complete; the index is in range. -/
theorem C12_frame {env : Env} {nanoS : Bool} {key : Bytes} {tr : List Obs} {d : Device}
    (h : Runs env nanoS key tr d) {cla p2 : UInt8} {data out : Bytes} {rnd : Rnd}
    (hr : (d.step env nanoS (.apdu cla 0x20 0x05 p2 data rnd)).2 = .sw 0x9000 out) :
    ∃ S i, (know tr).attest = some S ∧ p2 = S.id ∧ S.box.complete ∧ data = [i] ∧
      i.toNat < framesFor S.box.nTokens ∧ out = S.frame env key i.toNat := by
  obtain ⟨S, x, x', hS, _, _, _, hA, _, ho, _, hid⟩ := attest_answer h (by decide) hr
  have hg : x.getFrame env key data = .ok x' out := ho
  obtain ⟨_, hc, hn, i, hd, hi, hout⟩ := getFrame_rel hA hg
  rw [hn] at hi
  exact ⟨S, i, hS, hid, hc, hd, hi, hout⟩

/-- C12: the hashed bytes are the canonical bytes of the box, made of the parameters of the start
command and of the concatenated data of the tree, token and register commands, whatever the
chunks. -/
theorem C12_bytes {env : Env} {nanoS : Bool} {key : Bytes} {tr : List Obs} {d : Device}
    (h : Runs env nanoS key tr d) {S : AttestSess} (hs : d.screen = none)
    (hS : (know tr).attest = some S) (hc : d.command = .attestInput) :
    fullBoxBytes S.start.data S.box =
      vlq (field S.start.data 34 8) ++ S.part 2 ++ vlq (field S.start.data 46 4) ++
      [UInt8.ofNat (field S.start.data 50 1)] ++
      (pieces 40 (S.part 3)).flatMap (fun t => t.take 32 ++ vlq (be (t.drop 32))) ++
      (if field S.start.data 51 4 = 0 then [0] else S.part 4) ++
      S.start.data.take 32 ++ vlq (field S.start.data 32 2) := by
  have hid := h.inv.idle hs
  unfold Idle at hid
  rw [hc] at hid
  obtain ⟨x, S', hx, hS', _⟩ := hid
  rw [hS] at hS'
  cases hS'
  obtain ⟨p1, p2, p3, p4, p5, p6, p7, p8⟩ := attest_parts S.log (attestHeader S.start.data)
    (h.attTok hs hx hS) (by simp [attestHeader])
  unfold fullBoxBytes boxBytes AttestSess.box
  rw [p1, p3, p4, p5, p6, p7, p8]
  simp only [attestHeader, AttestSess.part, Option.map_none, Option.getD_none, List.nil_append,
    List.flatMap_map, tok40]
  rfl

/-- C12: the answer to a tree, token or register command announces the number of frames exactly when
the box is complete with this command, and is empty otherwise. -/
theorem C12_announced {env : Env} {nanoS : Bool} {key : Bytes} {tr : List Obs} {d : Device}
    (h : Runs env nanoS key tr d) {cla p1 p2 : UInt8} {data out : Bytes} {rnd : Rnd}
    (h1 : p1 = 2 ∨ p1 = 3 ∨ p1 = 4)
    (hr : (d.step env nanoS (.apdu cla 0x20 p1 p2 data rnd)).2 = .sw 0x9000 out) :
    ∃ S, (know (d.observe env nanoS (.apdu cla 0x20 p1 p2 data rnd) :: tr)).attest = some S ∧
      out = if S.box.complete then [UInt8.ofNat (framesFor S.box.nTokens)] else [] := by
  have hne : p1 ≠ 0x01 := by rcases h1 with rfl | rfl | rfl <;> decide
  obtain ⟨S, x, x', hS, _, _, _, hA, _, ho, hst, _⟩ := attest_answer h hne hr
  obtain ⟨hA', hout⟩ := attestOp_rel hA ho
  refine ⟨{ S with log := S.log ++ [(p1, data)] }, ?_, ?_⟩
  · show ((know tr).next _).attest = _
    rw [observe_eq hst]
    show ((know tr).onOk ⟨0x20, p1, p2, data, rnd⟩ out).attest = _
    unfold Ghost.onOk
    rw [if_neg (by simp), if_neg (by simp), if_pos rfl, if_neg hne]
    simp [hS]
  · rw [hout h1]
    simp only [attestReply, AttestSess.box, List.foldl_append, List.foldl_cons, List.foldl_nil]
    rfl

/-- C12: everything above concerns the commands accepted since the session was opened. -/
theorem C12_log {tr : List Obs} {S : AttestSess} (hS : (know tr).attest = some S) :
    ∃ tr2 o tr1, tr = tr2 ++ o :: tr1 ∧ OpensAttest o ∧
      S.log = tr2.reverse.filterMap attestEntry ∧ ∀ o' ∈ tr2, ¬ OpensAttest o' := by
  obtain ⟨tr2, o, tr1, e, p1, _, _, _, p5, p6⟩ := attest_opened hS
  exact ⟨tr2, o, tr1, e, p1, p5, fun o' ho' => (p6 o' ho').2.2⟩

/-- A box with two tokens, sent in small chunks. -/
def demoAttestTok : List Event :=
  [cmd 0x20 0x01 1 (List.replicate 32 1 ++ [0, 2, 0, 0, 0, 0, 0, 0, 1, 9, 0, 0, 0, 36, 0, 0, 0, 1, 2,
    0, 0, 0, 3]), .left, .left, .both, cmd 0x20 0x02 7 demoTree,
   cmd 0x20 0x03 7 (List.replicate 32 6 ++ [0, 0, 0, 0, 0, 0, 0, 5]),
   cmd 0x20 0x03 7 (List.replicate 32 7 ++ [0, 0, 0, 0, 0, 0, 1, 0]),
   cmd 0x20 0x04 7 [1, 2], cmd 0x20 0x04 7 [3]]

example : Runs toyEnv false [1] (seen demoAttestTok) (after demoAttestTok) ∧
    (after demoAttestTok).screen = none ∧ (after demoAttestTok).command = .attestInput ∧
    ∃ S, (know (seen demoAttestTok)).attest = some S ∧ S.box.complete ∧
      S.part 2 = demoTree ∧ (S.part 3).length = 80 ∧ S.part 4 = [1, 2, 3] ∧
      ((after demoAttestTok).step toyEnv false (cmd 0x20 0x05 7 [0])).2 =
        .sw 0x9000 (S.frame toyEnv [1] 0) ∧ (S.frame toyEnv [1] 0).length = 139 := by
  refine ⟨runs_boot _ (by decide +kernel), by decide +kernel, by decide +kernel,
    ⟨⟨0x20, 0x01, 1, List.replicate 32 1 ++ [0, 2, 0, 0, 0, 0, 0, 0, 1, 9, 0, 0, 0, 36, 0, 0, 0, 1,
      2, 0, 0, 0, 3], demoRnd⟩, 7, true, 0, _⟩, rfl, ?_⟩
  decide +kernel

/-! ## C14 -/

/-- C14: in every attestation session the token ids are pairwise different, no more than 20 tokens
can be declared; when the box is complete there are exactly as many as declared. -/
theorem C14_tokens {env : Env} {nanoS : Bool} {key : Bytes} {tr : List Obs} {d : Device}
    (h : Runs env nanoS key tr d) {S : AttestSess} (hs : d.screen = none)
    (hS : (know tr).attest = some S) (hc : d.command = .attestInput) :
    (S.box.tokens.map (·.1)).Nodup ∧ S.box.nTokens ≤ 20 ∧
      S.box.nTokens = field S.start.data 50 1 ∧
      S.box.tokens = (pieces 40 (S.part 3)).map tok40 ∧
      (S.box.complete → S.box.tokens.length = S.box.nTokens) := by
  have hid := h.inv.idle hs
  unfold Idle at hid
  rw [hc] at hid
  obtain ⟨x, S', hx, hS', _⟩ := hid
  rw [hS] at hS'
  cases hS'
  have hA := h.attRel hs hx hS
  obtain ⟨_, _, _, p4, _, _, p7, _⟩ := attest_parts S.log (attestHeader S.start.data)
    (h.attTok hs hx hS) (by simp [attestHeader])
  refine ⟨hA.nodup, hA.tok_le, p4, p7.trans (by simp [attestHeader, AttestSess.part]), ?_⟩
  intro hcc
  simp only [BoxDesc.complete, Bool.and_eq_true, decide_eq_true_eq] at hcc
  exact hcc.1.2

/-- C14: sending a token id a second time is refused and ends the session. -/
theorem C14_duplicate {env : Env} {nanoS : Bool} {key : Bytes} {tr : List Obs} {d : Device}
    (h : Runs env nanoS key tr d) {S : AttestSess} (hS : (know tr).attest = some S)
    {cla p2 : UInt8} {data : Bytes} {rnd : Rnd} {t : Bytes} (ht : t ∈ pieces 40 data)
    (hd : t.take 32 ∈ S.box.tokens.map (·.1) ∨ ∃ a b c, pieces 40 data = a ++ t :: b ++ c ∧
      ∃ u ∈ c, u.take 32 = t.take 32) (out : Bytes) :
    (d.step env nanoS (.apdu cla 0x20 0x03 p2 data rnd)).2 ≠ .sw 0x9000 out := by
  intro hr
  obtain ⟨S', x, x', hS', _, _, _, hA, _, ho, hst, _⟩ := attest_answer h (by decide) hr
  rw [hS] at hS'
  cases hS'
  have hn := (attestOp_rel hA ho).1.nodup
  simp only [attestStep, if_true, List.map_append, List.map_map] at hn
  rw [if_neg (by decide)] at hn
  simp only [List.map_append, List.map_map] at hn
  rcases hd with hd | ⟨a, b, c, e, u, hu, e2⟩
  · rw [List.nodup_append] at hn
    exact hn.2.2 _ hd _ (List.mem_map_of_mem ht) rfl
  · rw [List.nodup_append] at hn
    have h2 := hn.2.1
    rw [e] at h2
    simp only [List.map_append, List.map_cons] at h2
    rw [List.nodup_append] at h2
    exact h2.2.2 (t.take 32) (by simp [tok40]) (u.take 32)
      (List.mem_map.2 ⟨u, hu, rfl⟩) e2.symm

example : ∃ S, (know (seen (demoAttestTok.take 6))).attest = some S ∧
    (List.replicate 32 6) ∈ S.box.tokens.map (·.1) ∧
    ((after (demoAttestTok.take 6)).step toyEnv false
      (cmd 0x20 0x03 7 (List.replicate 32 6 ++ [0, 0, 0, 0, 0, 0, 0, 1]))).2 = .sw 0xE001 [] := by
  refine ⟨⟨⟨0x20, 0x01, 1, List.replicate 32 1 ++ [0, 2, 0, 0, 0, 0, 0, 0, 1, 9, 0, 0, 0, 36, 0, 0,
    0, 1, 2, 0, 0, 0, 3], demoRnd⟩, 7, true, 0, _⟩, rfl, ?_⟩
  decide +kernel

/-! ## C15 -/

/-- C15: a frame is released only in a session that was opened by the user's approval, or by a
request with a non-zero application token equal to that of the last approval; since then nothing
failed and nothing else was started; and the whole declared box has been received. -/
theorem C15_consent {env : Env} {nanoS : Bool} {key : Bytes} {tr : List Obs} {d : Device}
    (h : Runs env nanoS key tr d) {cla p2 : UInt8} {data out : Bytes} {rnd : Rnd}
    (hr : (d.step env nanoS (.apdu cla 0x20 0x05 p2 data rnd)).2 = .sw 0x9000 out) :
    ∃ S tr2 o tr1, (know tr).attest = some S ∧ S.box.complete ∧ tr = tr2 ++ o :: tr1 ∧
      OpensAttest o ∧ S.log = tr2.reverse.filterMap attestEntry ∧
      (∀ o' ∈ tr2, ¬ Fails o' ∧ ¬ Restarts o' ∧ ¬ OpensAttest o') ∧
      (Approval o ∧ o.asked = some .confirmAttest ∧ (know tr1).pending = some S.start ∨
        (∃ c, o.event = .apdu c 0x20 0x01 S.start.p2 S.start.data S.start.rnd) ∧
          S.start.token ≠ 0 ∧ S.start.token = (know tr1).app) := by
  obtain ⟨S, x, x', hS, _, _, hB, hA, _, ho, _, hid⟩ := attest_answer h (by decide) hr
  have hg : x.getFrame env key data = .ok x' out := ho
  obtain ⟨_, hc, _⟩ := getFrame_rel hA hg
  obtain ⟨tr2, o, tr1, rfl, p1, p2', p3, p4, p5, p6⟩ := attest_opened hS
  refine ⟨S, tr2, o, tr1, hS, hc, rfl, p1, p5, p6, ?_⟩
  rcases p3 with ⟨q1, q2, q3⟩ | ⟨q1, c, q2⟩
  · left
    -- the observation `o` was made in the execution
    obtain ⟨d1, e1, h1, ho1⟩ := Runs.split h
    subst ho1
    have hask : (d1.observe env nanoS e1).asked = some .confirmAttest := by
      obtain ⟨_, hh | ⟨_, _, _, _, hh⟩⟩ := p1
      · exact hh.2
      · rw [q2] at hh; cases hh
    obtain ⟨⟨out', hout⟩, _⟩ := p1
    exact ⟨approval_of h1 q2 hout, hask, q3⟩
  · right
    rw [hB.ins, hB.p1] at q2
    refine ⟨⟨c, q2⟩, ?_⟩
    rcases hB.consent with hh | ⟨hh, hh2⟩
    · rw [q1] at hh; cases hh
    · exact ⟨hh, hh2.trans p2'⟩

example : ((after (demoAttest.take 5)).step toyEnv false (cmd 0x20 0x05 7 [0])).2 ≠ .wait ∧
    Runs toyEnv false [1] (seen (demoAttest.take 5)) (after (demoAttest.take 5)) ∧
    ∃ out, ((after (demoAttest.take 5)).step toyEnv false (cmd 0x20 0x05 7 [0])).2 =
      .sw 0x9000 out ∧ out.length = 59 :=
  ⟨by decide +kernel, runs_boot _ (by decide +kernel), _, rfl, by decide +kernel⟩

/-- After the approval of application token 5, an attestation with token 5 starts without asking. -/
example : ((after demoAttest).step toyEnv false (demoAttest.headD .left)).2 = .sw 0x9000 [7] ∧
    ((after []).step toyEnv false (demoAttest.headD .left)).2 = .wait := by decide +kernel

/-! ## C10: the frames of a session -/

/-- C10: a frame index that is not below the announced number of frames is refused; every other index
of a complete box is answered, with a reply that fits an APDU. -/
theorem C10_session {env : Env} (hwf : env.WF) {nanoS : Bool} {key : Bytes} {tr : List Obs}
    {d : Device} (h : Runs env nanoS key tr d) (hs : d.screen = none) (hc : d.command = .attestInput)
    {S : AttestSess} (hS : (know tr).attest = some S) (hb : S.box.complete) (i : UInt8) (rnd : Rnd) :
    (i.toNat < framesFor S.box.nTokens →
      (d.step env nanoS (.apdu 0xE0 0x20 0x05 S.id [i] rnd)).2 = .sw 0x9000 (S.frame env key i.toNat) ∧
      (S.frame env key i.toNat).length ≤ 255 ∧
      (S.frame env key i.toNat).length = 59 + 40 * (frameTokens i.toNat S.box.tokens).length) ∧
    (framesFor S.box.nTokens ≤ i.toNat →
      (d.step env nanoS (.apdu 0xE0 0x20 0x05 S.id [i] rnd)).2 = .sw 0xE007 []) := by
  have hI := h.inv
  have hid := hI.idle hs
  unfold Idle at hid
  rw [hc] at hid
  obtain ⟨x, S', hx, hS', hB⟩ := hid
  rw [hS] at hS'
  cases hS'
  have hA := h.attRel hs hx hS
  have hbusy : d.busy = false := by rw [hI.busy, hs]; rfl
  have hid0 : S.id ≠ 0 := by rw [hB.id]; exact hB.id0
  have e1 : d.step env nanoS (.apdu 0xE0 0x20 0x05 S.id [i] rnd) = d.attestSub env 0x05 S.id [i] := by
    simp [Device.step, Device.dispatch, hid0, Device.attestInput, hbusy]
  have hfin : x.state = .finished := by
    by_contra hne
    have hph := hA.phase
    rw [if_neg hne] at hph
    rw [hph.2.1] at hb; cases hb
  have hph := hA.phase
  rw [if_pos hfin] at hph
  have hn : S.box.tokens.length = S.box.nTokens := by
    simp only [BoxDesc.complete, Bool.and_eq_true, decide_eq_true_eq] at hb
    exact hb.1.2
  have hlen : (toks64 S.box.tokens).length = S.box.nTokens := by simp [toks64, hn]
  have hv : x.st.c.value = UInt64.ofNat S.box.value := by
    rw [← hA.value]; simp
  have e2 : d.attestSub env 0x05 S.id [i] = d.attestResult (x.getFrame env key [i]) := by
    unfold Device.attestSub
    simp [hc, hx, hI.key, hB.id]
  have hl32 : ∀ t ∈ toks64 S.box.tokens, t.1.length = 32 := by
    intro t ht
    obtain ⟨u, hu, rfl⟩ := List.mem_map.1 ht
    exact hA.idLen u hu
  have hbl : (S.boxId env).length = 32 := hwf.blake_len _
  constructor
  · intro hi
    refine ⟨?_, ?_⟩
    · rw [e1, e2]
      unfold AttestCtx.getFrame
      rw [if_neg (by simp [hfin])]
      simp only [bufU8, ne_eq, not_true_eq_false, if_false, framesCount_eq]
      rw [hA.toks, hlen, if_neg (by omega)]
      simp only [frameBody_eq, hph.2, hv]
      rfl
    · have hl := frameBytes_length (S.boxId env) (UInt64.ofNat S.box.value) (toks64 S.box.tokens)
        i.toNat hbl hl32
      have h4 := frameTokens_length i.toNat (toks64 S.box.tokens)
      have h5 : (frameTokens i.toNat (toks64 S.box.tokens)).length =
          (frameTokens i.toNat S.box.tokens).length := by
        rw [frameTokens_eq, frameTokens_eq]
        simp [toks64]
      have : (S.frame env key i.toNat).length =
          59 + 40 * (frameTokens i.toNat S.box.tokens).length := by
        unfold AttestSess.frame
        simp only [List.length_append, hl, List.length_take, hwf.hmac_len, h5]
        omega
      rw [this]
      omega
  · intro hi
    rw [e1, e2]
    unfold AttestCtx.getFrame
    rw [if_neg (by simp [hfin])]
    simp only [bufU8, ne_eq, not_true_eq_false, if_false, framesCount_eq]
    rw [hA.toks, hlen, if_pos (by omega)]
    rfl

/-! ## C13: what a box id binds -/

theorem toks_inj : ∀ (l m : List (Bytes × Nat)) (r s : Bytes), l.length = m.length →
    (∀ t ∈ l, t.1.length = 32) → (∀ t ∈ m, t.1.length = 32) →
    l.flatMap (fun t => t.1 ++ vlq t.2) ++ r = m.flatMap (fun t => t.1 ++ vlq t.2) ++ s →
    l = m ∧ r = s
  | [], [], r, s, _, _, _, h => ⟨rfl, by simpa using h⟩
  | [], _ :: _, r, s, hl, _, _, _ => by simp at hl
  | _ :: _, [], r, s, hl, _, _, _ => by simp at hl
  | a :: l, b :: m, r, s, hl, h1, h2, h => by
    simp only [List.flatMap_cons, List.append_assoc] at h
    have ha := h1 a (by simp)
    have hb := h2 b (by simp)
    obtain ⟨e1, e2⟩ := List.append_inj h (by rw [ha, hb])
    obtain ⟨e3, e4⟩ := vlq_append_inj _ _ _ _ e2
    obtain ⟨e5, e6⟩ := toks_inj l m r s (by simpa using hl) (fun t ht => h1 t (by simp [ht]))
      (fun t ht => h2 t (by simp [ht])) e4
    exact ⟨by rw [e5]; congr 1; exact Prod.ext e1 e3, e6⟩

/-- C13 (the part that holds): take two frames, from two executions of the app (with any keys).  If
they carry the same box id then the hash has a collision, or the attested values are equal; and then,
if the same tree length was declared, the token lists are equal too. -/
theorem C13_partial {env : Env} {nanoS nanoS' : Bool} {key key' : Bytes} {tr tr' : List Obs}
    {d d' : Device} (h : Runs env nanoS key tr d) (h' : Runs env nanoS' key' tr' d')
    {c c' p p' : UInt8} {a a' out out' : Bytes} {rnd rnd' : Rnd} (hwf : env.WF)
    (hr : (d.step env nanoS (.apdu c 0x20 0x05 p a rnd)).2 = .sw 0x9000 out)
    (hr' : (d'.step env nanoS' (.apdu c' 0x20 0x05 p' a' rnd')).2 = .sw 0x9000 out')
    (heq : out.take 32 = out'.take 32) :
    (∃ m m', m ≠ m' ∧ env.blake m = env.blake m') ∨
    ∃ S S', (know tr).attest = some S ∧ (know tr').attest = some S' ∧ S.box.value = S'.box.value ∧
      (S.box.treeSize = S'.box.treeSize → S.box.tokens = S'.box.tokens ∧
        S.box.script = S'.box.script ∧ S.box.height = S'.box.height) := by
  obtain ⟨S, x, x', hS, _, _, _, hA, _, ho, _, _⟩ := attest_answer h (by decide) hr
  obtain ⟨S2, y, y', hS2, _, _, _, hA2, _, ho2, _, _⟩ := attest_answer h' (by decide) hr'
  obtain ⟨_, hc, hn, i, _, _, hout⟩ := getFrame_rel hA (show x.getFrame env key a = _ from ho)
  obtain ⟨_, hc2, hn2, i2, _, _, hout2⟩ := getFrame_rel hA2 (show y.getFrame env key' a' = _ from ho2)
  have key1 : ∀ (b : Bytes) v t i m, b.length = 32 → (frameBytes b v t i ++ m).take 32 = b := by
    intro b v t i m hb
    unfold frameBytes
    simp only [List.append_assoc]
    rw [← hb, List.take_left]
  rw [hout, hout2, key1 _ _ _ _ _ (hwf.blake_len _), key1 _ _ _ _ _ (hwf.blake_len _)] at heq
  by_cases hbytes : fullBoxBytes S.start.data S.box = fullBoxBytes S2.start.data S2.box
  swap
  · exact .inl ⟨_, _, hbytes, heq⟩
  right
  refine ⟨S, S2, hS, hS2, ?_⟩
  unfold fullBoxBytes boxBytes at hbytes
  simp only [List.append_assoc] at hbytes
  obtain ⟨e1, e2⟩ := vlq_append_inj _ _ _ _ hbytes
  refine ⟨e1, ?_⟩
  intro ht
  simp only [BoxDesc.complete, Bool.and_eq_true, decide_eq_true_eq] at hc hc2
  have raw : ∀ (T : AttestSess) z, AttRel env T.start.data T.box z → T.box.scriptDone = true →
      ∃ b, T.box.script = some (.raw b) ∧ b.length = T.box.treeSize := by
    intro T z hT hd
    cases hs : T.box.script with
    | none => simp [BoxDesc.scriptDone, hs] at hd
    | some s =>
      obtain ⟨b, rfl⟩ := hT.raw s hs
      refine ⟨b, rfl, ?_⟩
      simpa [BoxDesc.scriptDone, hs] using hd
  obtain ⟨b1, s1, l1⟩ := raw S x hA hc.1.1
  obtain ⟨b2, s2, l2⟩ := raw S2 y hA2 hc2.1.1
  rw [s1, s2] at e2
  simp only [Option.map_some, Option.getD_some, scriptBytes] at e2
  obtain ⟨e3, e4⟩ := List.append_inj e2 (by rw [l1, l2, ht])
  obtain ⟨e5, e6⟩ := vlq_append_inj _ _ _ _ e4
  obtain ⟨e7, e8⟩ := List.append_inj e6 rfl
  have e9 : S.box.nTokens = S2.box.nTokens := by
    have t1 := hA.tok_le
    have t2 := hA2.tok_le
    simp only [List.cons.injEq, and_true] at e7
    rw [← UInt8.toNat_inj] at e7
    simpa [Nat.mod_eq_of_lt (show S.box.nTokens < 256 by omega),
      Nat.mod_eq_of_lt (show S2.box.nTokens < 256 by omega)] using e7
  obtain ⟨e10, _⟩ := toks_inj _ _ _ _ (by rw [hn, hn2, e9]) hA.idLen hA2.idLen e8
  exact ⟨e10, by rw [s1, s2, e3], e5⟩

/-- Two boxes: the first has a token (id 32 times 6, amount 5). -/
def demoBoxA : List Event :=
  [cmd 0x20 0x01 1 (0 :: List.replicate 31 1 ++ [0, 130, 0, 0, 0, 0, 0, 0, 0, 9, 0, 0, 0, 2, 0, 0, 0, 1, 1,
    0, 0, 0, 0]), .left, .left, .both, cmd 0x20 0x02 7 [3, 4],
   cmd 0x20 0x03 7 (List.replicate 32 6 ++ [0, 0, 0, 0, 0, 0, 0, 5])]
/-- The second has no token; its tree contains height, token count and token id of the first. -/
def demoBoxB : List Event :=
  [cmd 0x20 0x01 1 (List.replicate 31 1 ++ [130] ++ [0, 1, 0, 0, 0, 0, 0, 0, 0, 9, 0, 0, 0, 36, 0, 0, 0, 5, 0,
    0, 0, 0, 0]), .left, .left, .both, cmd 0x20 0x02 7 ([3, 4, 1, 1] ++ List.replicate 32 6)]

/-- C13 is false for tokens: two completed attestations hash the same bytes (so they have the same
box id, whatever the hash), but one box has a token and the other has none. -/
theorem C13_negation :
    Runs toyEnv false [1] (seen demoBoxA) (after demoBoxA) ∧
    Runs toyEnv false [1] (seen demoBoxB) (after demoBoxB) ∧
    ∃ S T, (know (seen demoBoxA)).attest = some S ∧ (know (seen demoBoxB)).attest = some T ∧
      S.box.complete ∧ T.box.complete ∧
      fullBoxBytes S.start.data S.box = fullBoxBytes T.start.data T.box ∧
      S.box.tokens = [(List.replicate 32 6, 5)] ∧ T.box.tokens = [] ∧
      (∀ env : Env, S.boxId env = T.boxId env) ∧
      ((after demoBoxA).step toyEnv false (cmd 0x20 0x05 7 [0])).2 =
        .sw 0x9000 (S.frame toyEnv [1] 0) ∧
      ((after demoBoxB).step toyEnv false (cmd 0x20 0x05 7 [0])).2 =
        .sw 0x9000 (T.frame toyEnv [1] 0) := by
  have e : ∃ S T, (know (seen demoBoxA)).attest = some S ∧ (know (seen demoBoxB)).attest = some T ∧
      S.box.complete ∧ T.box.complete ∧
      fullBoxBytes S.start.data S.box = fullBoxBytes T.start.data T.box ∧
      S.box.tokens = [(List.replicate 32 6, 5)] ∧ T.box.tokens = [] ∧
      ((after demoBoxA).step toyEnv false (cmd 0x20 0x05 7 [0])).2 =
        .sw 0x9000 (S.frame toyEnv [1] 0) ∧
      ((after demoBoxB).step toyEnv false (cmd 0x20 0x05 7 [0])).2 =
        .sw 0x9000 (T.frame toyEnv [1] 0) := by
    refine ⟨⟨⟨0x20, 0x01, 1, _, demoRnd⟩, 7, true, 0, _⟩, ⟨⟨0x20, 0x01, 1, _, demoRnd⟩, 7, true, 0, _⟩,
      rfl, rfl, ?_⟩
    decide +kernel
  obtain ⟨S, T, h1, h2, h3, h4, h5, h6, h7, h8, h9⟩ := e
  exact ⟨runs_boot _ (by decide +kernel), runs_boot _ (by decide +kernel), S, T, h1, h2, h3, h4, h5,
    h6, h7, fun env => congrArg env.blake h5, h8, h9⟩

end Ergo
