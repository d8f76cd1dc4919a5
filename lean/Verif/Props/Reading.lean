import Verif.Proof.Wire
import Verif.Props.Session
/-!
# C44: what a node reads from the signed bytes
-/
namespace Ergo
open Spec

/-- C44 (partial: only if the scripts, registers and context extensions sent to the device are ones
the node's self-delimiting parsers accept, and no output was given up; the device does not parse
them, see `C44_negation`): the transaction a node reads from the bytes under a released signature is
the described one. -/
theorem C44_partial {env : Env} (hwf : env.WF) (hv : env.appVersion.length ≠ 56)
    (hn : env.appName.length ≠ 56) {nanoS : Bool} {key : Bytes} {tr : List Obs} {d : Device}
    (h : Runs env nanoS key tr d) (e : Event) (out : Bytes)
    (hr : (d.step env nanoS e).2 = .sw 0x9000 out) (hl : out.length = 56)
    {T R X : Bytes → Prop} (hT : SelfDelimiting T) (hR : SelfDelimiting R) (hX : SelfDelimiting X) :
    ∃ S D secret chain j pk w, (know tr).sign = some S ∧ D = describe S.log ∧
      env.derive (pathOf (S.start.data.drop 1)) = some (secret, chain) ∧
      env.mulG secret = some pk ∧ env.mulG (S.start.rnd.keys j) = some w ∧
      ((∀ o ∈ D.outputs, o.box.complete) →
        (∀ i ∈ D.inputs, X (if i.extSize = 0 then [0] else i.ext)) →
        (∀ o ∈ D.outputs, ∀ s, o.box.script = some s → T (scriptBytes env.keyOf s)) →
        (∀ o ∈ D.outputs, R (if o.box.regsSize = 0 then [0] else o.box.regs)) →
        ∃ signed, out.take 24 = (env.blake (commitBytes pk w ++ signed)).take 24 ∧
          (wireTx env.keyOf D).bytes = signed ∧ Readable T R X (wireTx env.keyOf D) ∧
          ∀ read : WireTx, Readable T R X read → read.bytes = signed → read = wireTx env.keyOf D) := by
  obtain ⟨S, secret, chain, j, pk, w, D, hS, rfl, k1, k2, k3, hC⟩ :=
    C01_partial hwf hv hn h e out hr hl
  refine ⟨S, _, secret, chain, j, pk, w, hS, rfl, k1, k2, k3, fun hall hx ht hrg => ?_⟩
  obtain ⟨hD, hsig⟩ := hC hall
  have hid := session_ids h hS S.log [] (by simp)
  have hlim : ∀ o ∈ (describe S.log).outputs, BoxLimits o.box := by
    rcases session_limits h hS S.log [] (by simp) with h3 | h3
    · rw [h3]; simp [describe, TxDesc.empty]
    · exact h3.boxLimits
  have hread : Readable T R X (wireTx env.keyOf (describe S.log)) := by
    refine ⟨?_, ?_, hid.dataInputs, hid.table, ?_, ?_, ?_⟩
    · intro i hi
      simp only [wireTx, List.mem_map, List.mem_reverse] at hi
      obtain ⟨i', hi', rfl⟩ := hi
      exact hid.inputs i' hi'
    · intro i hi
      simp only [wireTx, List.mem_map, List.mem_reverse] at hi
      obtain ⟨i', hi', rfl⟩ := hi
      exact hx i' hi'
    · intro o ho
      simp only [wireTx, List.mem_map, List.mem_reverse] at ho
      obtain ⟨o', ho', rfl⟩ := ho
      have hc := hall o' ho'
      simp only [BoxDesc.complete, Bool.and_eq_true] at hc
      have hsd := hc.1.1
      cases hs : o'.box.script with
      | none => simp [BoxDesc.scriptDone, hs] at hsd
      | some s =>
        have := ht o' ho' s hs
        simpa [wireBox, hs] using this
    · intro o ho
      simp only [wireTx, List.mem_map, List.mem_reverse] at ho
      obtain ⟨o', ho', rfl⟩ := ho
      exact hrg o' ho'
    · intro o ho
      simp only [wireTx, List.mem_map, List.mem_reverse] at ho
      obtain ⟨o', ho', rfl⟩ := ho
      have h1 := (hlim o' ho').toksLen
      have h2 := (hlim o' ho').toks
      show o'.box.tokens.length < 256
      omega
  refine ⟨txBytes env.keyOf (describe S.log), hsig, wireTx_bytes hall, hread, fun read h1 h2 => ?_⟩
  exact wire_unique hT hR hX h1 hread (by rw [h2, wireTx_bytes hall])

/-! ## A second reading -/

/-- Scripts: the three used below. -/
def demoT (b : Bytes) : Prop := b = demoTree ∨ b = evilTree ∨ b = feeTree
/-- Registers: none, or one byte array shorter than 128. -/
def demoR (b : Bytes) : Prop :=
  b = [0] ∨ ∃ c : Bytes, c.length < 128 ∧ b = [1, 14, UInt8.ofNat c.length] ++ c
/-- Context extensions: the empty one. -/
def demoX (b : Bytes) : Prop := b = [0]

theorem demoT_delim : SelfDelimiting demoT := by
  intro a b r s ha hb h
  have h4 := congrArg (List.take 4) h
  rcases ha with rfl | rfl | rfl <;> rcases hb with rfl | rfl | rfl <;> first
    | rfl
    | (exfalso; revert h4; simp [demoTree, evilTree, feeTree])

theorem demoR_delim : SelfDelimiting demoR := by
  intro a b r s ha hb h
  rcases ha with rfl | ⟨c, hc, rfl⟩ <;> rcases hb with rfl | ⟨c', hc', rfl⟩
  · rfl
  · simp at h
  · simp at h
  · simp only [List.cons_append, List.nil_append, List.cons.injEq, true_and] at h
    obtain ⟨h1, h2⟩ := h
    have h3 : c.length = c'.length := by
      have := congrArg UInt8.toNat h1
      rw [UInt8.toNat_ofNat', UInt8.toNat_ofNat'] at this
      omega
    rw [(List.append_inj h2 h3).1]

theorem demoX_delim : SelfDelimiting demoX := by
  rintro a b r s rfl rfl _; rfl

/-- The hidden output, up to the length of its register: value 99, `evilTree`, height 1, no tokens,
one register, a byte array as long as the fee output. -/
def hiddenOut : Bytes := [99] ++ evilTree ++ [1, 0] ++ [1, 14, 109]

/-- One input of value 100.  Output 1: value 1 to `demoTree`, with "registers" `0` and the hidden
output.  Output 2: a fee of value 10.  Both are complete. -/
def smuggleTx : List Event :=
  [cmd 0x21 0x10 7 [0, 1, 0, 0, 0, 0, 2], cmd 0x21 0x12 7 (demoFrame 1 1 0 100 [] [0, 0, 0, 0]),
   cmd 0x21 0x15 7 [0, 0, 0, 0, 0, 0, 0, 1, 0, 0, 0, 36, 0, 0, 0, 1, 0, 0, 0, 0, 43],
   cmd 0x21 0x16 7 demoTree, cmd 0x21 0x1A 7 ([0] ++ hiddenOut), .left, .left, .both,
   cmd 0x21 0x15 7 [0, 0, 0, 0, 0, 0, 0, 10, 0, 0, 0, 105, 0, 0, 0, 1, 0, 0, 0, 0, 0],
   cmd 0x21 0x17 7 []]

/-- The session up to the Approve step of the confirmation screen. -/
def smuggleRun : List Event := demoOpen ++ smuggleTx ++ [cmd 0x21 0x20 7 [], .left, .left]

/-- What the session describes. -/
def smuggleDesc : TxDesc :=
  ⟨1, 0, 0, 2, [], [⟨List.replicate 32 1, 100, 1, 1, [], 0, []⟩], [],
    [⟨⟨10, 105, 1, 0, 0, some .fee, [], []⟩, false⟩,
     ⟨⟨1, 36, 1, 0, 43, some (.raw demoTree), [], [0] ++ hiddenOut⟩, true⟩]⟩

/-- What a node reads: an output of value 1 to `demoTree` and one of value 99 to `evilTree`, with the
fee output as content of its register. -/
def smuggleRead : WireTx :=
  ⟨[(List.replicate 32 1, [0])], [], [],
    [⟨1, demoTree, 1, [], [0]⟩, ⟨99, evilTree, 1, [], [1, 14, 109] ++ evilRest⟩]⟩

theorem smuggleRead_readable : Readable demoT demoR demoX smuggleRead := by
  refine ⟨?_, ?_, ?_, ?_, ?_, ?_, ?_⟩
  · simp [smuggleRead]
  · simp [smuggleRead, demoX]
  · simp [smuggleRead]
  · simp [smuggleRead]
  · simp [smuggleRead, demoT]
  · intro o ho
    simp only [smuggleRead, List.mem_cons, List.not_mem_nil, or_false] at ho
    rcases ho with rfl | rfl
    · exact .inl rfl
    · exact .inr ⟨evilRest, by decide, by decide⟩
  · simp [smuggleRead]

/-- C44 is false as stated: there is a session in which all outputs are complete, which ends with a
signature, and a node with self-delimiting parsers that reads exactly one transaction from the signed
bytes, whose outputs are not the described ones: the second one pays 99 of 100 to a script that was
never shown. -/
theorem C44_negation : ∃ (env : Env) (nanoS : Bool) (key : Bytes) (tr : List Obs) (d : Device)
    (out : Bytes) (S : SignSess) (T R X : Bytes → Prop) (read : WireTx), env.WF ∧
    Runs env nanoS key tr d ∧ (d.step env nanoS .both).2 = .sw 0x9000 out ∧ out.length = 56 ∧
    (know tr).sign = some S ∧ (describe S.log).Complete ∧
    (∃ pk w, out.take 24 =
      (env.blake (commitBytes pk w ++ txBytes env.keyOf (describe S.log))).take 24) ∧
    SelfDelimiting T ∧ SelfDelimiting R ∧ SelfDelimiting X ∧ Readable T R X read ∧
    read.bytes = txBytes env.keyOf (describe S.log) ∧
    (∀ read', Readable T R X read' → read'.bytes = txBytes env.keyOf (describe S.log) →
      read' = read) ∧
    (∃ o ∈ read.outputs, o.value = 99 ∧
      ∀ o' ∈ (wireTx env.keyOf (describe S.log)).outputs, o'.script ≠ o.script) := by
  have h := runs_boot (key := [1]) (env := toyEnv) (nanoS := false) smuggleRun (by decide +kernel)
  generalize hw : (Device.boot [1]).watch toyEnv false [] smuggleRun = w at h
  have h2 : isSig (w.2.step toyEnv false .both).2 = true := by subst hw; decide +kernel
  have h3 : (know w.1).sign.map (fun S => describe S.log) = some smuggleDesc := by
    subst hw; decide +kernel
  obtain ⟨S, hS, hD⟩ := Option.map_eq_some_iff.1 h3
  obtain ⟨out, hout, hlen⟩ : ∃ out, (w.2.step toyEnv false .both).2 = .sw 0x9000 out ∧
      out.length = 56 := isSig_iff (o := w.2.observe toyEnv false .both) |>.1 h2
  obtain ⟨S', secret, chain, j, pk, w', D, hS', rfl, _, _, _, hC⟩ :=
    C01_partial toyEnv_wf (by decide) (by decide) h .both out hout hlen
  rw [hS] at hS'
  cases hS'
  obtain ⟨hC1, hC2⟩ := hC (by rw [hD]; decide)
  have hb : smuggleRead.bytes = txBytes toyEnv.keyOf smuggleDesc := by decide +kernel
  refine ⟨toyEnv, false, [1], w.1, w.2, out, S, demoT, demoR, demoX, smuggleRead, toyEnv_wf, h, hout,
    hlen, hS, hC1, ⟨pk, w', hC2⟩, demoT_delim, demoR_delim, demoX_delim, smuggleRead_readable, ?_, ?_,
    ?_⟩
  · rw [hD, hb]
  · intro read' h1 h2
    rw [hD, ← hb] at h2
    exact wire_unique demoT_delim demoR_delim demoX_delim h1 smuggleRead_readable h2
  · refine ⟨_, by simp [smuggleRead]; right; rfl, rfl, ?_⟩
    rw [hD]
    decide +kernel

/-- The demonstration session satisfies the hypotheses of `C44_partial` with these parsers. -/
example : (∀ i ∈ demoDesc.inputs, demoX (if i.extSize = 0 then [0] else i.ext)) ∧
    (∀ o ∈ demoDesc.outputs, ∀ s, o.box.script = some s → demoT (scriptBytes toyEnv.keyOf s)) ∧
    (∀ o ∈ demoDesc.outputs, demoR (if o.box.regsSize = 0 then [0] else o.box.regs)) := by
  refine ⟨by simp [demoDesc, demoX], ?_, by simp [demoDesc, demoR]⟩
  intro o ho s hs
  simp only [demoDesc, List.mem_cons, List.not_mem_nil, or_false] at ho
  rcases ho with rfl | rfl
  · cases hs; exact .inr (.inr rfl)
  · cases hs; exact .inl rfl

end Ergo
