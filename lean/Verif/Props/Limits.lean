import Verif.Proof.Accepted
import Verif.Props.Attest
/-!
# C30, C31, C35: counts, limits, scripts made by the device
-/
namespace Ergo
open Spec

/-! ## C30: errors of the serializer are sticky -/

/-- The operations of the transaction serializer. -/
inductive SerOp where
  | tokens (b : Bytes)
  | input (id : Bytes) (frames : UInt8) (ext : UInt32)
  | frame (id : Bytes) (index : UInt8) (b : Bytes)
  | ext (b : Bytes)
  | dataInputs (b : Bytes)
  | box (value : UInt64) (tree height : UInt32) (tokens : UInt8) (regs : UInt32)
  | tree (b : Bytes)
  | change (pk : Bytes)
  | fee
  | boxTokens (b : Bytes)
  | regs (b : Bytes)

/-- Run an operation. -/
def FullSt.op (env : Env) (x : FullSt) : SerOp → FullSt × Res FullErr
  | .tokens b => x.addTokens b
  | .input id n e => x.addInput id n e
  | .frame id i b => x.addInputTokens id i b
  | .ext b => x.addInputExtension b
  | .dataInputs b => x.addDataInputs b
  | .box v t h n r => x.addBox v t h n r
  | .tree b => x.addBoxTree env b
  | .change pk => x.addBoxChange env pk
  | .fee => x.addBoxFee env
  | .boxTokens b => x.addBoxTokens env b
  | .regs b => x.addBoxRegisters env b

theorem dataInputsLoop_err : ∀ (n : Nat) (b : Bytes) (x y : FullSt) (e : FullErr),
    FullSt.dataInputsLoop n b x = (y, .err e) → y.c.state = .error
  | _, [], x, y, e, h => by simp [FullSt.dataInputsLoop] at h
  | 0, _ :: _, x, y, e, h => by simp [FullSt.dataInputsLoop] at h
  | n + 1, b :: bs, x, y, e, h => by
    unfold FullSt.dataInputsLoop at h
    split at h
    · simp only [FullSt.fail, Prod.mk.injEq] at h; rw [← h.1]
    split at h
    · simp only [FullSt.fail, Prod.mk.injEq] at h; rw [← h.1]
    · exact dataInputsLoop_err n _ _ _ _ h

theorem boxPart_err {x y : FullSt} {f : BoxSt Acc → BoxSt Acc × Res BoxErr} {e : FullErr}
    (h : x.boxPart f = (y, .err e)) : y.c.state = .error := by
  unfold FullSt.boxPart FullSt.outputFinished FullSt.fail at h
  simp only at h
  repeat' split at h
  all_goals first
    | (simp only [Prod.mk.injEq, reduceCtorEq, and_false] at h; done)
    | (simp only [Prod.mk.injEq] at h; rw [← h.1])

/-- C30: an operation that reports an error leaves the serializer in the error state. -/
theorem C30_error (env : Env) (x y : FullSt) (o : SerOp) (e : FullErr)
    (h : x.op env o = (y, .err e)) : y.c.state = .error := by
  cases o with
  | tree b => simp only [FullSt.op, FullSt.addBoxTree] at h; exact boxPart_err h
  | change pk => simp only [FullSt.op, FullSt.addBoxChange] at h; exact boxPart_err h
  | fee => simp only [FullSt.op, FullSt.addBoxFee] at h; exact boxPart_err h
  | boxTokens b => simp only [FullSt.op, FullSt.addBoxTokens] at h; exact boxPart_err h
  | regs b => simp only [FullSt.op, FullSt.addBoxRegisters] at h; exact boxPart_err h
  | dataInputs b =>
    simp only [FullSt.op, FullSt.addDataInputs] at h
    split at h
    · simp only [FullSt.fail, Prod.mk.injEq] at h; rw [← h.1]
    split at h
    · split at h <;> simp [FullSt.dataInputsFinished] at h
    · exact dataInputsLoop_err _ _ _ _ _ h
  | tokens b =>
    simp only [FullSt.op, FullSt.addTokens, FullSt.fail] at h
    repeat' split at h
    all_goals first
      | (simp only [Prod.mk.injEq, reduceCtorEq, and_false] at h; done)
      | (simp only [Prod.mk.injEq] at h; rw [← h.1])
  | input id n e =>
    simp only [FullSt.op, FullSt.addInput, FullSt.fail] at h
    repeat' split at h
    all_goals first
      | (simp only [Prod.mk.injEq, reduceCtorEq, and_false] at h; done)
      | (simp only [Prod.mk.injEq] at h; rw [← h.1])
  | frame id i b =>
    simp only [FullSt.op, FullSt.addInputTokens, FullSt.fail, FullSt.inputFinished,
      FullSt.dataInputsFinished] at h
    repeat' split at h
    all_goals first
      | (simp only [Prod.mk.injEq, reduceCtorEq, and_false] at h; done)
      | (simp only [Prod.mk.injEq] at h; rw [← h.1])
  | ext b =>
    simp only [FullSt.op, FullSt.addInputExtension, FullSt.fail, FullSt.inputFinished,
      FullSt.dataInputsFinished] at h
    repeat' split at h
    all_goals first
      | (simp only [Prod.mk.injEq, reduceCtorEq, and_false] at h; done)
      | (simp only [Prod.mk.injEq] at h; rw [← h.1])
  | box v t ht n r =>
    simp only [FullSt.op, FullSt.addBox, FullSt.fail] at h
    repeat' split at h
    all_goals first
      | (simp only [Prod.mk.injEq, reduceCtorEq, and_false] at h; done)
      | (simp only [Prod.mk.injEq] at h; rw [← h.1])

/-- C30: in the error state every operation is refused and changes nothing. -/
theorem C30_sticky (env : Env) (x : FullSt) (o : SerOp) (h : x.c.state = .error) :
    x.op env o = (x, .err .badState) := by
  have hf : ∀ e, x.fail e = (x, .err e) := by
    intro e
    unfold FullSt.fail
    rw [← h]
  cases o <;>
    simp [FullSt.op, FullSt.addTokens, FullSt.addInput, FullSt.addInputTokens,
      FullSt.addInputExtension, FullSt.addDataInputs, FullSt.addBox, FullSt.addBoxTree,
      FullSt.addBoxChange, FullSt.addBoxFee, FullSt.addBoxTokens, FullSt.addBoxRegisters,
      FullSt.boxPart, h, hf]

/-- C30: after an error, whatever operations `os` follow, the next one `o'` reports an error too, and
the serializer is not finished. -/
theorem C30_never_finished (env : Env) (x y : FullSt) (o : SerOp) (e : FullErr)
    (h : x.op env o = (y, .err e)) (os : List SerOp) (o' : SerOp) :
    (FullSt.op env (os.foldl (fun z o => (z.op env o).1) y) o').2 = .err .badState ∧
      (os.foldl (fun z o => (z.op env o).1) y).c.state ≠ .finished := by
  have hy := C30_error env x y o e h
  have hk : os.foldl (fun z o => (z.op env o).1) y = y := by
    induction os with
    | nil => rfl
    | cons o' os ih =>
      simp only [List.foldl_cons]
      rw [C30_sticky env y o' hy]
      exact ih
  rw [hk, C30_sticky env y o' hy]
  exact ⟨rfl, by rw [hy]; simp⟩

/-- A transaction with one input; the extension is larger than allowed. -/
example : ∃ c h y, fullInit 1 0 1 0 [] [] = (c, h, .ok) ∧
    FullSt.op toyEnv ⟨c, h, ⟨.zero, .init 0⟩⟩ (.input (List.replicate 32 1) 1 40000) =
      (y, .err .badContextExtensionSize) := ⟨_, _, _, rfl, rfl⟩

/-- The numbers, when the device asks for the confirmation of the transaction. -/
theorem C30_counts {env : Env} {nanoS : Bool} {key : Bytes} {tr : List Obs} {d : Device}
    (h : Runs env nanoS key tr d) {cla p2 : UInt8} {data : Bytes} {rnd : Rnd}
    (hr : (d.step env nanoS (.apdu cla 0x21 0x20 p2 data rnd)).2 = .wait) :
    ∃ S D, (know tr).sign = some S ∧ D = describe S.log ∧ D.inputs.length = D.nIn ∧
      (∀ i ∈ D.inputs, i.complete) ∧ D.dataInputs.length = D.nData ∧ D.table.length = D.nTok ∧
      D.outputs.countP (·.box.complete) = D.nOut := by
  have hI := h.inv
  generalize he : Event.apdu cla 0x21 0x20 p2 data rnd = e at hr
  obtain ⟨d', r, hst, hT⟩ := step_cases env nanoS d e
  rw [hst] at hr
  simp only at hr
  cases hT with
  | signConfirm hb hl hc hx hs ha hp =>
    have hsc := idle_of hI hb
    have hid := hI.idle hsc
    unfold Idle at hid
    rw [hc] at hid
    obtain ⟨y, S, hy, hS, hB⟩ := hid
    rw [hx] at hy
    cases hy
    obtain ⟨_, _, _, _, _, _, _, _, _, hP, _⟩ := sign_rel h hx ha hS
    obtain ⟨t, hu, hT⟩ := hP.tx (by rw [hp]; simp) (by rw [hp]; simp)
    rw [hp] at hT
    obtain ⟨_, hst⟩ := hT.state
    have hph := hT.full.phase
    unfold FullPhase at hph
    rw [hst] at hph
    obtain ⟨h1, ⟨g1, g2, g3, g4, g5, g6⟩, _⟩ := hph
    exact ⟨S, _, hS, rfl, g3, g2, g4, g1, by rw [h1] at g5; simpa using g5⟩
  | signShow hb hl hsub => cases he; exact absurd hsub.2 (by decide)
  | idle hx => exfalso; subst he; simp at hx
  | move hx => exfalso; subst he; simp at hx
  | _ => first | (cases he; done) | (cases hr; done)

example : ((after (demoOpen ++ demoTx)).step toyEnv false (cmd 0x21 0x20 7 [])).2 = .wait ∧
    Runs toyEnv false [1] (seen (demoOpen ++ demoTx)) (after (demoOpen ++ demoTx)) :=
  ⟨by decide +kernel, runs_boot _ (by decide +kernel)⟩

/-! ## C31: limits -/

/-- C31: at every point of every signing session the transaction described so far respects all
limits. -/
theorem C31_session {env : Env} {nanoS : Bool} {key : Bytes} {tr : List Obs} {d : Device}
    (h : Runs env nanoS key tr d) {S : SignSess} (hS : (know tr).sign = some S)
    {l l' : List Entry} (hl : S.log = l ++ l') (hne : l ≠ []) : Limits (describe l) := by
  rcases session_limits h hS l l' hl with h1 | h1
  · exact absurd h1 hne
  · exact h1

/-- C31: a command that would break a limit is refused. -/
theorem C31_refused {env : Env} {nanoS : Bool} {key : Bytes} {tr : List Obs} {d : Device}
    (h : Runs env nanoS key tr d) {S : SignSess} (hS : (know tr).sign = some S)
    {cla sub p2 : UInt8} {data : Bytes} {rnd : Rnd} (h1 : 0x10 ≤ sub) (h2 : sub ≤ 0x1A)
    (hlim : ¬ Limits (describe (S.log ++ [.cmd sub data]))) (out : Bytes) :
    (d.step env nanoS (.apdu cla 0x21 sub p2 data rnd)).2 ≠ .sw 0x9000 out ∧
      (d.step env nanoS (.apdu cla 0x21 sub p2 data rnd)).2 ≠ .wait := by
  have key : ¬ ((d.step env nanoS (.apdu cla 0x21 sub p2 data rnd)).2 = .sw 0x9000 out ∨
      (d.step env nanoS (.apdu cla 0x21 sub p2 data rnd)).2 = .wait) := by
    intro hr
    obtain ⟨S', x, p, hS', hx, ha, hR, ho, _⟩ := accepted_op h h1 h2 hr
    rw [hS] at hS'
    cases hS'
    obtain ⟨_, _, _, _, _, _, _, _, _, hP, _⟩ := hR
    apply hlim
    rw [describe_append]
    refine signOp_limits hP ?_ ?_ ho h1 h2
    · rcases session_limits h hS S.log [] (by simp) with h3 | h3
      · rw [h3]; simp [describe, TxDesc.empty]
      · exact h3.inLimits
    · rcases session_limits h hS S.log [] (by simp) with h3 | h3
      · rw [h3]; simp [describe, TxDesc.empty]
      · exact h3.boxLimits
  exact not_or.1 key

/-- C31: a script chunk is accepted only if it completes the script or has 255 bytes. -/
theorem C31_chunk {env : Env} {nanoS : Bool} {key : Bytes} {tr : List Obs} {d : Device}
    (h : Runs env nanoS key tr d) {S : SignSess} (hS : (know tr).sign = some S)
    {l l' : List Entry} {data : Bytes} (hl : S.log = l ++ .cmd 0x16 data :: l') :
    ∃ o os, (describe (l ++ [.cmd 0x16 data])).outputs = o :: os ∧
      (o.box.scriptDone ∨ data.length = 255) := by
  obtain ⟨tr2, d1, tr1, x, p, p2, rnd, _, hd1, _, _, hS1, hR, hop, h1, h2, hlen⟩ := cmd_accepted h hS hl
  obtain ⟨_, _, _, _, _, _, _, _, _, hP, _⟩ := hR
  replace hop : x.p.addOutputTree env data = .ok p := hop
  obtain ⟨t, oi, o, os, y, r, q, hst, hu, hoi, hD, hT, hF, hO, hf, hrp, hq, rfl⟩ := withOut_ok hP hop
  obtain ⟨hsd, hF', htab, hs, hr, hlen'⟩ := addBoxTree_full hF hD hO hf hrp
  rw [describe_append, step_tree, onOutput_cons hD]
  refine ⟨_, _, rfl, ?_⟩
  simp only
  cases hc : (o.box.addTree data).scriptDone with
  | true => exact .inl rfl
  | false => have := hlen' hc; right; omega

/-- C31 for attestation: the described box respects the limits. -/
theorem C31_attest {env : Env} {nanoS : Bool} {key : Bytes} {tr : List Obs} {d : Device}
    (h : Runs env nanoS key tr d) {S : AttestSess} (hs : d.screen = none)
    (hS : (know tr).attest = some S) (hc : d.command = .attestInput) : BoxLimits S.box := by
  have hid := h.inv.idle hs
  unfold Idle at hid
  rw [hc] at hid
  obtain ⟨x, S', hx, hS', _⟩ := hid
  rw [hS] at hS'
  cases hS'
  have hA := h.attRel hs hx hS
  have hph := hA.phase
  split at hph
  · have hcc := hph.1
    simp only [BoxDesc.complete, Bool.and_eq_true, decide_eq_true_eq] at hcc
    obtain ⟨⟨h1, h2⟩, h3⟩ := hcc
    refine ⟨hA.tree_le, hA.regs_le, hA.tok_le, ?_, by omega, by omega, fun _ => h1, fun _ => ⟨h1, h2⟩⟩
    intro bs hbs
    simp [BoxDesc.scriptDone, hbs] at h1
    omega
  · exact hph.1.limits

/-- C31 for attestation: a script chunk is accepted only if it completes the script or has 255
bytes. -/
theorem C31_attest_chunk {env : Env} {nanoS : Bool} {key : Bytes} {tr : List Obs} {d : Device}
    (h : Runs env nanoS key tr d) {cla p2 : UInt8} {data out : Bytes} {rnd : Rnd}
    (hr : (d.step env nanoS (.apdu cla 0x20 0x02 p2 data rnd)).2 = .sw 0x9000 out) :
    ∃ S, (know tr).attest = some S ∧ ((S.box.addTree data).scriptDone ∨ 255 ≤ data.length) := by
  obtain ⟨S, x, x', hS, _, _, _, hA, _, ho, _, _⟩ := attest_answer h (by decide) hr
  refine ⟨S, hS, ?_⟩
  replace ho : x.addTree env data = .ok x' out := ho
  unfold AttestCtx.addTree at ho
  obtain ⟨hst, hp⟩ := part_passes ho
  have hph := hA.phase
  rw [if_neg (by rw [hst]; decide)] at hph
  obtain ⟨hR, _⟩ := hph
  generalize hq : x.st.addTree attestCbs data = q at ho hp
  obtain ⟨st, r⟩ := q
  obtain ⟨_, _, _, e4⟩ := addTree_rel hR hq hp
  obtain ⟨_, h255⟩ := addTree_state hq hp
  split at e4
  · rename_i hd; exact .inl hd
  · exact .inr (h255 e4.1)

/-- The demonstration session: an extension of one byte is refused. -/
example : Runs toyEnv false [1] (seen demoOpen) (after demoOpen) ∧
    ((after (demoOpen ++ [cmd 0x21 0x10 7 [0, 1, 0, 0, 0, 0, 2]])).step toyEnv false
      (cmd 0x21 0x12 7 (demoFrame 1 1 0 100 [] [0, 0, 0, 1]))).2 ≠ .sw 0x9000 [] ∧
    ((after (demoOpen ++ [cmd 0x21 0x10 7 [0, 1, 0, 0, 0, 0, 2]])).step toyEnv false
      (cmd 0x21 0x12 7 (demoFrame 1 1 0 100 [] [0, 0, 0, 0]))).2 = .sw 0x9000 [] :=
  ⟨runs_boot _ (by decide +kernel), by decide +kernel, by decide +kernel⟩

/-! ## C35: scripts made by the device -/

/-- The script commands of a session: script bytes from the host only for an output without script or
with incomplete host script; the fee and change scripts only for an output without any script; the
change path is an address path, and the device derived its key. -/
theorem C35_commands {env : Env} {nanoS : Bool} {key : Bytes} {tr : List Obs} {d : Device}
    (h : Runs env nanoS key tr d) {S : SignSess} (hS : (know tr).sign = some S)
    {l l' : List Entry} {sub : UInt8} {data : Bytes} (hl : S.log = l ++ .cmd sub data :: l') :
    (sub = 0x16 → ∃ o os, (describe l).outputs = o :: os ∧
      (o.box.script = none ∨ ∃ b, o.box.script = some (.raw b) ∧ b.length ≠ o.box.treeSize)) ∧
    (sub = 0x17 → ∃ o os, (describe l).outputs = o :: os ∧ o.box.script = none ∧ data = []) ∧
    (sub = 0x18 → ∃ o os, (describe l).outputs = o :: os ∧ o.box.script = none ∧
      IsAddressPath (pathOf data) ∧
      ∃ secret chain pub, env.derive (pathOf data) = some (secret, chain) ∧
        env.pubOf secret = some pub ∧
        scriptBytes env.keyOf (.change (pathOf data)) = [0x00, 0x08, 0xcd] ++ compress pub) := by
  obtain ⟨tr2, d1, tr1, x, p, p2, rnd, _, hd1, _, _, hS1, hR, hop, h1, h2, hlen⟩ := cmd_accepted h hS hl
  obtain ⟨_, _, _, _, _, _, _, _, _, hP, _⟩ := hR
  simp only at hP
  refine ⟨?_, ?_, ?_⟩
  · rintro rfl
    replace hop : x.p.addOutputTree env data = .ok p := hop
    obtain ⟨t, oi, o, os, y, r, q, hst, hu, hoi, hD, hT, hF, hO, hf, hrp, hq, rfl⟩ := withOut_ok hP hop
    obtain ⟨hsd, _⟩ := addBoxTree_full hF hD hO hf hrp
    refine ⟨o, os, hD, ?_⟩
    unfold BoxDesc.scriptDone at hsd
    split at hsd
    · rename_i he; exact .inl he
    · rename_i b he; exact .inr ⟨b, he, by simpa using hsd⟩
    · simp at hsd
  · rintro rfl
    replace hop : opFee env x.p data = .ok p := hop
    obtain ⟨hd, o, os, hD, hn⟩ := opFee_script hP hop
    exact ⟨o, os, hD, hn, hd⟩
  · rintro rfl
    replace hop : opChange env x.p data = .ok p := hop
    obtain ⟨o, os, hD, hn, hv, pub, ch, hg⟩ := opChange_script hP hop
    refine ⟨o, os, hD, hn, (validate_address _).1 hv, ?_⟩
    have hg' := hg
    unfold Env.genPublic at hg'
    split at hg'
    · cases hg'
    · rename_i k c hk
      split at hg'
      · cases hg'
      · rename_i q hq
        cases hg'
        refine ⟨k, ch, pub, hk, hq, ?_⟩
        simp only [scriptBytes, Env.keyOf, hg, Option.map_some, Option.getD_some]

/-- A change script in the description comes from a change command. -/
theorem change_from {p : List UInt32} (l : List Entry) : ∀ {o : OutDesc},
    o ∈ (describe l).outputs → o.box.script = some (.change p) →
    ∃ l1 l2 data, l = l1 ++ .cmd 0x18 data :: l2 ∧ pathOf data = p := by
  induction l using List.reverseRecOn with
  | nil => intro o ho; simp [describe, TxDesc.empty] at ho
  | append_singleton l e ih =>
    intro o ho hs
    rw [describe_append] at ho
    have old : ∀ {o' : OutDesc}, o' ∈ (describe l).outputs → o'.box.script = some (.change p) →
        ∃ l1 l2 data, l ++ [e] = l1 ++ .cmd 0x18 data :: l2 ∧ pathOf data = p := by
      intro o' h1 h2
      obtain ⟨l1, l2, data, rfl, h3⟩ := ih h1 h2
      exact ⟨l1, l2 ++ [e], data, by simp, h3⟩
    have part : ∀ {f : BoxDesc Nat → BoxDesc Nat}, o ∈ ((describe l).onOutput f).outputs →
        (∀ b, (f b).script = some (.change p) → b.script = some (.change p)) →
        ∃ l1 l2 data, l ++ [e] = l1 ++ .cmd 0x18 data :: l2 ∧ pathOf data = p := by
      intro f h1 h2
      unfold TxDesc.onOutput at h1
      split at h1
      · exact old h1 hs
      · rename_i o1 os hD
        simp only [List.mem_cons] at h1
        rcases h1 with rfl | h1
        · exact old (o' := o1) (by rw [hD]; simp) (h2 _ hs)
        · exact old (by rw [hD]; simp [h1]) hs
    cases e with
    | approve =>
      cases hD : (describe l).outputs with
      | nil => simp [TxDesc.step, hD] at ho
      | cons o1 os =>
        simp only [TxDesc.step, hD, List.mem_cons] at ho
        rcases ho with rfl | ho
        · exact old (o' := o1) (by rw [hD]; simp) hs
        · exact old (by rw [hD]; simp [ho]) hs
    | cmd sub data =>
      by_cases hlt : sub < 0x16
      · rcases step_other (D := describe l) (data := data) hlt with he | he | he
        · rw [he] at ho; exact old ho hs
        · rw [he] at ho; simp at ho
        · rw [he] at ho
          rcases List.mem_cons.1 ho with rfl | ho
          · simp [outHeader] at hs
          · exact old ho hs
      by_cases e1 : sub = 0x16
      · subst e1
        rw [step_tree] at ho
        refine part ho (fun b hb => ?_)
        obtain ⟨bs, hbs⟩ := addTree_script b data
        rw [hbs] at hb; simp at hb
      by_cases e2 : sub = 0x17
      · subst e2
        rw [step_fee] at ho
        exact part ho (fun b hb => by simp at hb)
      by_cases e3 : sub = 0x18
      · subst e3
        rw [step_change] at ho
        unfold TxDesc.onOutput at ho
        split at ho
        · exact old ho hs
        · rename_i o1 os hD
          simp only [List.mem_cons] at ho
          rcases ho with rfl | ho
          · simp only [Option.some.injEq, Script.change.injEq] at hs
            exact ⟨l, [], data, rfl, hs⟩
          · exact old (by rw [hD]; simp [ho]) hs
      by_cases e4 : sub = 0x19
      · subst e4
        rw [step_outTokens] at ho
        exact part ho (fun b hb => hb)
      by_cases e5 : sub = 0x1A
      · subst e5
        rw [step_regs] at ho
        exact part ho (fun b hb => hb)
      have : (describe l).step (.cmd sub data) = describe l := by
        have hne : ∀ n : UInt8, n < 0x16 → sub ≠ n := by
          rintro n hn rfl; exact hlt hn
        unfold TxDesc.step
        dsimp only
        rw [if_neg (hne _ (by decide)), if_neg (hne _ (by decide)), if_neg (hne _ (by decide)),
          if_neg (hne _ (by decide)), if_neg (hne _ (by decide)), if_neg (hne _ (by decide)),
          if_neg e1, if_neg e2, if_neg e3, if_neg e4, if_neg e5]
      rw [this] at ho
      exact old ho hs

/-- C35: the script bytes of every change output of a session (these bytes are hashed, see
`C01_signed_partial`) are the P2PK script of the public key that this device derives for the path of
the output, an address path; the script of every fee output is the fee contract of 105 bytes. -/
theorem C35_scripts {env : Env} {nanoS : Bool} {key : Bytes} {tr : List Obs} {d : Device}
    (h : Runs env nanoS key tr d) {S : SignSess} (hS : (know tr).sign = some S) {o : OutDesc}
    (ho : o ∈ (describe S.log).outputs) :
    (∀ p, o.box.script = some (.change p) → IsAddressPath p ∧
      ∃ secret chain pub, env.derive p = some (secret, chain) ∧ env.pubOf secret = some pub ∧
        scriptBytes env.keyOf (.change p) = [0x00, 0x08, 0xcd] ++ compress pub) ∧
    (scriptBytes env.keyOf .fee = feeTree ∧ feeTree.length = 105) := by
  refine ⟨?_, rfl, by decide +kernel⟩
  intro p hp
  obtain ⟨l1, l2, data, hl, rfl⟩ := change_from S.log ho hp
  obtain ⟨_, _, _, _, ha, hk⟩ := (C35_commands h hS hl).2.2 rfl
  exact ⟨ha, hk⟩

/-- A session with a change output, then a fee output. -/
def demoChange : List Event :=
  demoOpen ++ [cmd 0x21 0x10 7 [0, 1, 0, 0, 0, 0, 2], cmd 0x21 0x12 7 (demoFrame 1 1 0 100 [] [0, 0, 0, 0]),
   cmd 0x21 0x15 7 [0, 0, 0, 0, 0, 0, 0, 90, 0, 0, 0, 36, 0, 0, 0, 1, 0, 0, 0, 0, 0],
   cmd 0x21 0x18 7 (demoPath 3),
   cmd 0x21 0x15 7 [0, 0, 0, 0, 0, 0, 0, 10, 0, 0, 0, 105, 0, 0, 0, 1, 0, 0, 0, 0, 0],
   cmd 0x21 0x17 7 []]

example : Runs toyEnv false [1] (seen demoChange) (after demoChange) ∧
    ((know (seen demoChange)).sign.map (fun S => (describe S.log).outputs.map (·.box.script))) =
      some [some .fee, some (.change (pathOf (demoPath 3)))] ∧ (pathOf (demoPath 3)).length = 5 :=
  ⟨runs_boot _ (by decide +kernel), by decide +kernel, by decide +kernel⟩

end Ergo
