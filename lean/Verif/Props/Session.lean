import Verif.Proof.Final
import Verif.Props.Schnorr
/-!
# What is signed, and what the user has seen of it (C01, C02, C07)
-/
namespace Ergo
open Spec

/-- C01, every session: the challenge of a released signature is the hash of the P2PK commitment and
the transaction described by the session's accepted commands, with the declared numbers of inputs,
data inputs, tokens and outputs; all inputs are complete, and as many outputs as declared are
complete.  Outputs given up before they were complete contribute the part received. -/
theorem C01_signed_partial {env : Env} (hwf : env.WF) (hv : env.appVersion.length ≠ 56)
    (hn : env.appName.length ≠ 56) {nanoS : Bool} {key : Bytes} {tr : List Obs} {d : Device}
    (h : Runs env nanoS key tr d) (e : Event) (out : Bytes)
    (hr : (d.step env nanoS e).2 = .sw 0x9000 out) (hl : out.length = 56) :
    ∃ S secret chain j pk w D, (know tr).sign = some S ∧ D = describe S.log ∧
      env.derive (pathOf (S.start.data.drop 1)) = some (secret, chain) ∧
      env.mulG secret = some pk ∧ env.mulG (S.start.rnd.keys j) = some w ∧
      out.take 24 = (env.blake (commitBytes pk w ++ txBytesSoFar env.keyOf D)).take 24 ∧
      be (out.drop 24) = (be (S.start.rnd.keys j) + be (out.take 24) * be secret) % groupOrder ∧
      D.inputs.length = D.nIn ∧ (∀ i ∈ D.inputs, i.complete) ∧ D.dataInputs.length = D.nData ∧
      D.table.length = D.nTok ∧ D.outputs.countP (·.box.complete) = D.nOut := by
  obtain ⟨x, S, network, path, secret, k, pk, w, R⟩ := released hwf hv hn h hr hl
  obtain ⟨kc, hkc, e1⟩ := Option.map_eq_some_iff.1 R.priv
  obtain ⟨j, hj⟩ := R.draw
  obtain ⟨f1, f2, f3, f4, f5, f6, _⟩ := R.rel.final R.state
  obtain ⟨g1, g2, g3⟩ := schnorrFinish_eq R.fin hwf.blake_len
  have hp := R.pub
  have hc := R.com
  rw [R.hash] at g1
  rw [hj] at hc g3
  subst e1
  refine ⟨S, kc.1, kc.2, j, pk, w, _, R.sign, rfl, ?_, hp, hc, g1, g3, f2, f3, f4, f5, f6⟩
  rw [← R.path_eq]; exact hkc

/-- C01 for sessions in which no output was given up: the described transaction is complete, with
exactly the declared numbers, and its serialization is what follows the commitment in the hash.
(Not for all sessions: `C01_negation`.) -/
theorem C01_partial {env : Env} (hwf : env.WF) (hv : env.appVersion.length ≠ 56)
    (hn : env.appName.length ≠ 56) {nanoS : Bool} {key : Bytes} {tr : List Obs} {d : Device}
    (h : Runs env nanoS key tr d) (e : Event) (out : Bytes)
    (hr : (d.step env nanoS e).2 = .sw 0x9000 out) (hl : out.length = 56) :
    ∃ S secret chain j pk w D, (know tr).sign = some S ∧ D = describe S.log ∧
      env.derive (pathOf (S.start.data.drop 1)) = some (secret, chain) ∧
      env.mulG secret = some pk ∧ env.mulG (S.start.rnd.keys j) = some w ∧
      ((∀ o ∈ D.outputs, o.box.complete) → D.Complete ∧
        out.take 24 = (env.blake (commitBytes pk w ++ txBytes env.keyOf D)).take 24) := by
  obtain ⟨S, secret, chain, j, pk, w, D, h1, h2, h3, h4, h5, h6, _, h7, h8, h9, h10, h11⟩ :=
    C01_signed_partial hwf hv hn h e out hr hl
  refine ⟨S, secret, chain, j, pk, w, D, h1, h2, h3, h4, h5, fun hall => ?_⟩
  have hlen : D.outputs.length = D.nOut := by
    rw [← h11, eq_comm, List.countP_eq_length]
    exact hall
  refine ⟨⟨h7, h8, h9, h10, hlen, hall⟩, ?_⟩
  rw [h6]
  congr 3
  unfold txBytes txBytesSoFar
  rw [h7, h9, h10, hlen]
  congr 1
  rw [List.flatMap_def, List.flatMap_def]
  congr 1
  apply List.map_congr_left
  intro o ho
  exact boxSoFar_complete _ _ _ (hall o (by simpa using ho))

/-- The transaction of the demonstration session. -/
def demoDesc : TxDesc :=
  ⟨1, 0, 0, 2, [], [⟨List.replicate 32 1, 100, 1, 1, [], 0, []⟩], [],
    [⟨⟨10, 105, 1, 0, 0, some .fee, [], []⟩, false⟩,
     ⟨⟨90, 36, 1, 0, 0, some (.raw demoTree), [], []⟩, true⟩]⟩

/-- The demonstration session satisfies the hypotheses of `C01_partial`. -/
example : ∃ tr d S, Runs toyEnv false [1] tr d ∧ Signs (d.observe toyEnv false .both) ∧
    (know tr).sign = some S ∧ describe S.log = demoDesc ∧
    (∀ o ∈ (describe S.log).outputs, o.box.complete) := by
  have h := runs_boot (key := [1]) (env := toyEnv) (nanoS := false)
    (demoOpen ++ demoTx ++ [cmd 0x21 0x20 7 [], .left, .left]) (by decide +kernel)
  generalize hw : (Device.boot [1]).watch toyEnv false []
    (demoOpen ++ demoTx ++ [cmd 0x21 0x20 7 [], .left, .left]) = w at h
  have h2 : isSig (w.2.step toyEnv false .both).2 = true := by subst hw; decide +kernel
  have h3 : (know w.1).sign.map (fun S => describe S.log) = some demoDesc := by
    subst hw; decide +kernel
  obtain ⟨S, hS, hD⟩ := Option.map_eq_some_iff.1 h3
  exact ⟨w.1, w.2, S, h, isSig_iff.1 h2, hS, hD, by rw [hD]; decide⟩

/-! ## Giving up an output -/

/-- An environment whose hash shows two of the hashed bytes: in the session below, the number of
outputs and the first byte of the outputs. -/
def peekEnv : Env :=
  { toyEnv with blake := fun b => b.getD 114 0 :: b.getD 115 0 :: List.replicate 30 7 }

theorem peekEnv_wf : peekEnv.WF where
  blake_len b := by simp [peekEnv]
  hmac_len := toyEnv_wf.hmac_len
  derive_len := toyEnv_wf.derive_len
  pub_len := toyEnv_wf.pub_len
  mul_len := toyEnv_wf.mul_len

/-- A tree that the user never sees. -/
def evilTree : Bytes := [0x00, 0x08, 0xcd, 0x03] ++ List.replicate 32 6

/-- One input of value 100, one output declared.  An output of value 90 with `evilTree` is started
and given up one register byte before its end; then a fee output of value 10. -/
def evilTx : List Event :=
  [cmd 0x21 0x10 7 [0, 1, 0, 0, 0, 0, 1], cmd 0x21 0x12 7 (demoFrame 1 1 0 100 [] [0, 0, 0, 0]),
   cmd 0x21 0x15 7 [0, 0, 0, 0, 0, 0, 0, 90, 0, 0, 0, 36, 0, 0, 0, 1, 0, 0, 0, 0, 4],
   cmd 0x21 0x16 7 evilTree, cmd 0x21 0x1A 7 [1, 14, 109],
   cmd 0x21 0x15 7 [0, 0, 0, 0, 0, 0, 0, 10, 0, 0, 0, 105, 0, 0, 0, 1, 0, 0, 0, 0, 0],
   cmd 0x21 0x17 7 []]

/-- The session up to the Approve step of the confirmation screen. -/
def evilRun : List Event := demoOpen ++ evilTx ++ [cmd 0x21 0x20 7 [], .left, .left]

/-- What the session describes. -/
def evilDesc : TxDesc :=
  ⟨1, 0, 0, 1, [], [⟨List.replicate 32 1, 100, 1, 1, [], 0, []⟩], [],
    [⟨⟨10, 105, 1, 0, 0, some .fee, [], []⟩, false⟩,
     ⟨⟨90, 36, 1, 0, 4, some (.raw evilTree), [], [1, 14, 109]⟩, false⟩]⟩

/-- The fee output of this session, as bytes. -/
def evilRest : Bytes := [10] ++ feeTree ++ [1, 0, 0]

/-- The transaction that is signed: one output of value 90 for `evilTree`; the fee output has become
the content of a byte-array register. -/
def evilRead : TxDesc :=
  ⟨1, 0, 0, 1, [], [⟨List.replicate 32 1, 100, 1, 1, [], 0, []⟩], [],
    [⟨⟨90, 36, 1, 0, 112, some (.raw evilTree), [], [1, 14, 109] ++ evilRest⟩, false⟩]⟩

/-- C01 is false as stated: there is a session that ends with a signature although the described
transaction is not complete; the challenge is not the hash of the commitment with the serialization
of the described transaction, nor of the transaction without the output that was given up. -/
theorem C01_negation : ∃ env nanoS key tr d e out S, Env.WF env ∧ env.appVersion.length ≠ 56 ∧
    env.appName.length ≠ 56 ∧ Runs env nanoS key tr d ∧
    (d.step env nanoS e).2 = .sw 0x9000 out ∧ out.length = 56 ∧ (know tr).sign = some S ∧
    ¬ (describe S.log).Complete ∧
    ∀ pk w : Bytes, pk.length = 65 → w.length = 65 →
      out.take 24 ≠
        (env.blake (commitBytes pk w ++ txBytes env.keyOf (describe S.log))).take 24 ∧
      out.take 24 ≠ (env.blake (commitBytes pk w ++ txBytes env.keyOf { describe S.log with
        outputs := (describe S.log).outputs.filter (·.box.complete) })).take 24 := by
  have h := runs_boot (key := [1]) (env := peekEnv) (nanoS := false) evilRun (by decide +kernel)
  generalize hw : (Device.boot [1]).watch peekEnv false [] evilRun = w at h
  have h2 : isSig (w.2.step peekEnv false .both).2 = true := by subst hw; decide +kernel
  have h3 : (know w.1).sign.map (fun S => describe S.log) = some evilDesc := by
    subst hw; decide +kernel
  have h4 : (match (w.2.step peekEnv false .both).2 with
      | .sw _ b => (b.getD 0 0, b.getD 1 0) | _ => (0, 0)) = (1, 90) := by
    subst hw; decide +kernel
  obtain ⟨S, hS, hD⟩ := Option.map_eq_some_iff.1 h3
  obtain ⟨out, hr, hl⟩ : ∃ out, (w.2.step peekEnv false .both).2 = .sw 0x9000 out ∧
      out.length = 56 := isSig_iff (o := w.2.observe peekEnv false .both) |>.1 h2
  rw [hr] at h4
  simp only [Prod.mk.injEq] at h4
  have ho : ∀ t : Bytes, out.take 24 = t.take 24 → t.getD 0 0 = 1 ∧ t.getD 1 0 = 90 := by
    intro t ht
    have hg : ∀ i, i < 24 → out.getD i 0 = t.getD i 0 := by
      intro i hi
      have := congrArg (fun l => l[i]?) ht
      simp only [List.getElem?_take, hi, if_true] at this
      rw [List.getD_eq_getElem?_getD, this, List.getD_eq_getElem?_getD]
    rw [← hg 0 (by omega), ← hg 1 (by omega)]
    exact h4
  have hlen : ∀ pk w b : Bytes, pk.length = 65 → w.length = 65 →
      (peekEnv.blake (commitBytes pk w ++ b)).getD 0 0 = b.getD 37 0 ∧
      (peekEnv.blake (commitBytes pk w ++ b)).getD 1 0 = b.getD 38 0 := by
    intro pk w b h1 h2
    have hc : (commitBytes pk w).length = 77 := by
      simp [commitBytes, compress_length h1, compress_length h2]
    have : ∀ i, (commitBytes pk w ++ b).getD (77 + i) 0 = b.getD i 0 := by
      intro i
      rw [List.getD_eq_getElem?_getD, List.getElem?_append_right (by omega), hc,
        List.getD_eq_getElem?_getD, Nat.add_sub_cancel_left]
    exact ⟨this 37, this 38⟩
  refine ⟨peekEnv, false, [1], w.1, w.2, .both, out, S, peekEnv_wf, by decide, by decide, h, hr, hl, hS,
    ?_, ?_⟩
  · rw [hD]
    intro hc
    exact absurd hc.outputs (by decide)
  · intro pk w h5 h6
    rw [hD]
    constructor
    · intro hc
      have := (ho _ hc).1
      rw [(hlen _ _ _ h5 h6).1] at this
      exact absurd this (by decide +kernel)
    · intro hc
      have := (ho _ hc).2
      rw [(hlen _ _ _ h5 h6).2] at this
      exact absurd this (by decide +kernel)

/-! ## Outputs and consent -/

/-- An approved output was the newest one when the user approved it. -/
theorem approved_at {env : Env} {nanoS : Bool} {key : Bytes} {tr : List Obs} {d : Device}
    (h : Runs env nanoS key tr d) {S : SignSess} (hS : (know tr).sign = some S) (l : List Entry) :
    ∀ l' newer o older, S.log = l ++ l' → (describe l).outputs = newer ++ o :: older →
    o.approved = true → ∃ l1 l2 o', l = l1 ++ .approve :: l2 ∧ (describe l1).outputs = o' :: older ∧
      o'.box = o.box ∧ o'.approved = false ∧ o'.box.complete = true := by
  induction l using List.reverseRecOn with
  | nil => intro l' newer o older _ ho; simp [describe, TxDesc.empty] at ho
  | append_singleton l e ih =>
    intro l' newer o older hl ho ha
    have hl' : S.log = l ++ e :: l' := by rw [hl]; simp
    have more : (∃ l1 l2 o', l = l1 ++ Entry.approve :: l2 ∧ (describe l1).outputs = o' :: older ∧
        o'.box = o.box ∧ o'.approved = false ∧ o'.box.complete = true) →
        ∃ l1 l2 o', l ++ [e] = l1 ++ .approve :: l2 ∧ (describe l1).outputs = o' :: older ∧
          o'.box = o.box ∧ o'.approved = false ∧ o'.box.complete = true := by
      rintro ⟨l1, l2, o', rfl, h2⟩
      exact ⟨l1, l2 ++ [e], o', by simp, h2⟩
    rw [describe_append] at ho
    cases e with
    | approve =>
      obtain ⟨tr2, d1, tr1, x, _, hd1, _, _, hS1, hR, _⟩ := approve_accepted h hS hl'
      obtain ⟨_, _, _, _, _, _, _, _, _, _, _, hw⟩ := hR
      obtain ⟨_, o1, os, hD, hc, hna, _⟩ := hw trivial
      simp only at hD
      simp only [TxDesc.step, hD] at ho
      cases newer with
      | nil =>
        simp only [List.nil_append, List.cons.injEq] at ho
        obtain ⟨rfl, rfl⟩ := ho
        exact ⟨l, [], o1, rfl, hD, rfl, hna, hc⟩
      | cons n ns =>
        simp only [List.cons_append, List.cons.injEq] at ho
        obtain ⟨_, rfl⟩ := ho
        exact more (ih _ (o1 :: ns) o older hl' hD ha)
    | cmd sub data =>
      obtain ⟨tr2, d1, tr1, x, p, p2, rnd, _, hd1, _, _, hS1, hR, hop, h1, h2, _⟩ := cmd_accepted h hS hl'
      obtain ⟨_, _, _, _, _, _, _, _, _, hP, _⟩ := hR
      simp only at hP
      by_cases hlt : sub < 0x16
      · rcases step_other (D := describe l) (data := data) hlt with he | he | he
        · rw [he] at ho
          exact more (ih _ newer o older hl' ho ha)
        · rw [he] at ho; simp at ho
        · rw [he] at ho
          cases newer with
          | nil =>
            simp only [List.nil_append, List.cons.injEq] at ho
            rw [← ho.1] at ha
            simp at ha
          | cons n ns =>
            simp only [List.cons_append, List.cons.injEq] at ho
            exact more (ih _ ns o older hl' ho.2 ha)
      · have hge : 0x16 ≤ sub := by
          rw [UInt8.lt_iff_toNat_lt] at hlt
          rw [UInt8.le_iff_toNat_le]; omega
        obtain ⟨o0, os, b, hD, hD', _, hna⟩ := part_newest hP hop hge
        rw [hD'] at ho
        cases newer with
        | nil =>
          simp only [List.nil_append, List.cons.injEq] at ho
          rw [← ho.1] at ha
          simp only at ha
          rw [hna] at ha
          simp at ha
        | cons n ns =>
          simp only [List.cons_append, List.cons.injEq] at ho
          exact more (ih _ (o0 :: ns) o older hl' (by rw [hD, ho.2]; simp) ha)

theorem allShown_mem {own : List UInt32} : ∀ {l : List OutDesc} {newer o older},
    AllShown own l → l = newer ++ o :: older → o.box.complete = true →
    o.approved = true ∨ Automatic own older o.box
  | _, [], o, older, h, rfl, hc => h.1 hc
  | _, n :: ns, o, older, h, rfl, hc => allShown_mem (l := ns ++ o :: older) h.2 rfl hc

/-- C02 for complete outputs: when a signature is released, every complete output is accepted
automatically (plain fee output, or change in one of the two automatic classes), or the user approved
it on an output-confirmation screen of this session, shown when this output was the newest and
complete.  (What the screen shows is `C32`, `C33`; which change is automatic is `C34`.  Outputs given
up before they are complete are never shown although their bytes are signed: `C02_negation`.) -/
theorem C02_partial {env : Env} (hwf : env.WF) (hv : env.appVersion.length ≠ 56)
    (hn : env.appName.length ≠ 56) {nanoS : Bool} {key : Bytes} {tr : List Obs} {d : Device}
    (h : Runs env nanoS key tr d) (e : Event) (hs : Signs (d.observe env nanoS e)) :
    ∃ S, (know tr).sign = some S ∧ ∀ newer o older,
      (describe S.log).outputs = newer ++ o :: older → o.box.complete →
      Automatic (pathOf (S.start.data.drop 1)) older o.box ∨
      ∃ tr2 d1 tr1 l o', tr = tr2 ++ d1.observe env nanoS .both :: tr1 ∧ Runs env nanoS key tr1 d1 ∧
        Approval (d1.observe env nanoS .both) ∧ d1.asks = some .confirmOutput ∧
        (know tr1).sign = some { S with log := l } ∧ (describe l).outputs = o' :: older ∧
        o'.box = o.box := by
  obtain ⟨out, hr, hl⟩ := hs
  obtain ⟨x, S, network, path, secret, k, pk, w, R⟩ := released hwf hv hn h hr hl
  refine ⟨S, R.sign, ?_⟩
  intro newer o older ho hc
  rw [← R.path_eq]
  rcases allShown_mem R.shown ho hc with ha | ha
  · right
    obtain ⟨l1, l2, o', h1, h2, h3, _⟩ := approved_at h R.sign S.log [] newer o older (by simp) ho ha
    obtain ⟨tr2, d1, tr1, x', rfl, hd1, _, _, hS1, _, hap, hq⟩ := approve_accepted h R.sign h1
    exact ⟨tr2, d1, tr1, l1, o', rfl, hd1, hap, hq, hS1, h2, h3⟩
  · exact .inl ha

/-- The demonstration session: the older output was approved, the newer one is a plain fee output. -/
example : demoDesc.outputs.map (·.approved) = [false, true] ∧
    (seen (demoOpen ++ demoTx)).countP (fun o =>
      (match o.event with | .both => true | _ => false) && o.asked == some .confirmOutput) = 1 :=
  by decide +kernel

/-- C02 is false as stated: a session ends with a signature on a complete transaction `D` whose only
output pays to a script that is neither fee nor change, and in the whole history no output was ever on
screen. -/
theorem C02_negation : ∃ env nanoS key tr d e out D pk w o, Env.WF env ∧ env.appVersion.length ≠ 56 ∧
    env.appName.length ≠ 56 ∧ Runs env nanoS key tr d ∧
    (d.step env nanoS e).2 = .sw 0x9000 out ∧ out.length = 56 ∧
    out.take 24 = (env.blake (commitBytes pk w ++ txBytes env.keyOf D)).take 24 ∧
    (∃ S secret chain j, (know tr).sign = some S ∧
      env.derive (pathOf (S.start.data.drop 1)) = some (secret, chain) ∧
      env.mulG secret = some pk ∧ env.mulG (S.start.rnd.keys j) = some w) ∧
    D.Complete ∧ D.outputs = [o] ∧ o.box.value = 90 ∧ o.box.script = some (.raw evilTree) ∧
    ∀ ob ∈ tr, ob.asked ≠ some .confirmOutput := by
  have h := runs_boot (key := [1]) (env := toyEnv) (nanoS := false) evilRun (by decide +kernel)
  generalize hw : (Device.boot [1]).watch toyEnv false [] evilRun = w at h
  have h2 : isSig (w.2.step toyEnv false .both).2 = true := by subst hw; decide +kernel
  have h3 : (know w.1).sign.map (fun S => describe S.log) = some evilDesc := by
    subst hw; decide +kernel
  have h4 : w.1.all (fun o => o.asked != some .confirmOutput) = true := by subst hw; decide +kernel
  obtain ⟨S, hS, hD⟩ := Option.map_eq_some_iff.1 h3
  obtain ⟨out, hr, hl⟩ : ∃ out, (w.2.step toyEnv false .both).2 = .sw 0x9000 out ∧
      out.length = 56 := isSig_iff (o := w.2.observe toyEnv false .both) |>.1 h2
  obtain ⟨S', secret, chain, j, pk, cw, D, k1, rfl, k3, k4, k5, k6, _⟩ :=
    C01_signed_partial toyEnv_wf (by decide) (by decide) h .both out hr hl
  rw [hS] at k1
  cases k1
  rw [hD] at k6
  have e : txBytesSoFar toyEnv.keyOf evilDesc = txBytes toyEnv.keyOf evilRead := by decide +kernel
  rw [e] at k6
  refine ⟨toyEnv, false, [1], w.1, w.2, .both, out, evilRead, pk, cw, _, toyEnv_wf, by decide, by decide, h,
    hr, hl, k6, ⟨S, secret, chain, j, hS, k3, k4, k5⟩, ?_, rfl, rfl, rfl, ?_⟩
  · constructor <;> decide
  · intro ob hob
    have := List.all_eq_true.1 h4 ob hob
    simpa using this

/-! ## Verification of signatures -/

/-- C07: every released signature is a valid proof of knowledge for the public key of the session's
path and for the transaction described by the session (`C01`), in every group with the order of
secp256k1, whatever the hash. -/
theorem C07_session {G : Type} [AddCommGroup G] (g : G) (ser : G → Bytes) {env : Env} (hwf : env.WF)
    (hv : env.appVersion.length ≠ 56) (hn : env.appName.length ≠ 56)
    (hord : groupOrder • g = 0) (hmul : ∀ k p, env.mulG k = some p → compress p = ser (be k • g))
    {nanoS : Bool} {key : Bytes} {tr : List Obs} {d : Device}
    (h : Runs env nanoS key tr d) (e : Event) (out : Bytes)
    (hr : (d.step env nanoS e).2 = .sw 0x9000 out) (hl : out.length = 56) :
    ∃ S secret chain, (know tr).sign = some S ∧
      env.derive (pathOf (S.start.data.drop 1)) = some (secret, chain) ∧
      ValidSig g ser env.blake (be secret • g)
        (txBytesSoFar env.keyOf (describe S.log)) out := by
  obtain ⟨x, S, network, path, secret, k, pk, w, R⟩ := released hwf hv hn h hr hl
  obtain ⟨kc, hkc, e1⟩ := Option.map_eq_some_iff.1 R.priv
  obtain ⟨t, h1, h2⟩ := R.init
  have hf := R.fin
  rw [R.hash] at hf
  subst e1
  refine ⟨S, kc.1, kc.2, R.sign, by rw [← R.path_eq]; exact hkc, ?_⟩
  exact C07_signature g ser env hord hmul hwf.blake_len _ _ k _ out S.start.rnd.keys
    (by rw [h1, h2]) hf

/-- The environment over the integers modulo the group order, with toy hash and derivation. -/
def zmodToy : Env := { toyEnv with mulG := zmodEnv.mulG }

/-- A session in this environment that ends with a signature: the hypotheses of `C07_session` can be
satisfied. -/
example : (∀ k p, zmodToy.mulG k = some p → compress p = zmodSer (be k • (1 : ZMod groupOrder))) ∧
    ((Device.boot [1]).run zmodToy false (demoOpen ++ demoTx ++ demoConfirm)).2.getLast?.map isSig =
      some true := by
  have hz : NeZero groupOrder := ⟨by decide +kernel⟩
  refine ⟨?_, by decide +kernel⟩
  intro k p h
  simp only [zmodToy, zmodEnv, Option.some.injEq] at h
  rw [← h, nsmul_one, zmodSer, ZMod.val_natCast]
  exact zmod_compress _

end Ergo
