import Verif.Props.Pages
/-!
# C21: no memory is read as a context of another kind

In the model every access to a member of a union that is not the member in use is the outcome `ub`:
the command context, the screen data of the signing session, the serializer of an input or output,
the data of an output.  So is using up the fuel of a loop, reading a missing entry, and negating the
smallest integer.
-/
namespace Ergo
open Spec

theorem attestTokensLoop_noub : ∀ (n : Nat) (input : Bytes) (x : BoxSt (List (Bytes × UInt64))),
    input.length ≤ n → (BoxSt.tokensLoop attestCbs none n input x).2 ≠ .ub := by
  intro n
  induction n with
  | zero =>
    intro input x h
    have : input = [] := by simpa using h
    subst this
    simp [BoxSt.tokensLoop]
  | succ n ih =>
    intro input x h
    cases input with
    | nil => simp [BoxSt.tokensLoop]
    | cons b bs =>
      simp only [BoxSt.tokensLoop]
      split
      · simp [BoxSt.fail]
      split
      · simp [BoxSt.fail]
      · simp
      · rename_i id rest hashed hid
        split
        · simp [BoxSt.fail]
        · rename_i v rest' hv
          refine check_noub ?_ ?_
          · simp only [attestCbs]
            repeat' split
            all_goals simp
          · apply ih
            obtain ⟨a, e1, e2, _⟩ := boxTokenId_ok hid hv
            have := congrArg List.length e1
            simp only [List.length_append, e2] at this
            have := itemWidth_pos none
            omega

theorem attestPart_noub {env : Env} {x : AttestCtx} {r : BoxSt (List (Bytes × UInt64)) × Res BoxErr}
    (h : r.2 ≠ .ub) : x.part env r ≠ .ub := by
  obtain ⟨st, q⟩ := r
  unfold AttestCtx.part AttestCtx.checkFinished
  cases q with
  | ub => exact absurd rfl h
  | _ => 
    simp only
    repeat' split
    all_goals simp

theorem attestOp_noub (env : Env) (key : Bytes) (x : AttestCtx) (sub : UInt8) (data : Bytes) :
    attestOp env key x sub data ≠ .ub := by
  have hfin : ∀ y : BoxSt (List (Bytes × UInt64)), (BoxSt.finish attestCbs y).2 ≠ .ub :=
    fun y => finish_noub (by simp [attestCbs])
  unfold attestOp
  split
  · refine attestPart_noub ?_
    unfold BoxSt.addTree
    split
    · simp [BoxSt.fail]
    split
    · simp [BoxSt.fail]
    split
    · simp [BoxSt.fail]
    simp only
    split
    · refine check_noub (by simp [attestCbs]) ?_
      simp only
      split
      · split
        · exact hfin _
        · simp
      · simp
    · simp
  split
  · refine attestPart_noub ?_
    unfold BoxSt.addTokens
    split
    · simp [BoxSt.fail]
    have hl := attestTokensLoop_noub data.length data x.st (le_refl _)
    split
    · split
      · split
        · exact hfin _
        · simp
      · simp
    · exact hl
  split
  · refine attestPart_noub ?_
    unfold BoxSt.addRegisters
    split
    · simp [BoxSt.fail]
    split
    · simp [BoxSt.fail]
    simp only
    split
    · exact hfin _
    · simp
  · unfold AttestCtx.getFrame
    repeat' split
    all_goals simp

/-- The first page of a complete output reads the member of the union that was written. -/
theorem printAddress_noub {env : Env} {oi : OutInfo} {ts : Nat} {sc : Option Script} {n : UInt8}
    (h : ScriptRel env oi ts true sc) (hd : ∀ b, sc = some (.raw b) → b.length = ts) :
    printAddress env oi n ≠ .ub := by
  unfold printAddress
  split
  · simp
  cases sc with
  | none => rw [h.1]; simp
  | some sc =>
    cases sc with
    | fee => rw [h.1]; simp
    | change p =>
      rw [h.1, h.2.2]
      simp only
      split <;> simp
    | raw b =>
      simp only [ScriptRel, if_pos (hd b rfl)] at h
      have hr : ∃ t, ∃ k, rawInfo env true b = (t, k) ∧ (t = .address ∧ (∃ pk, k = .publicKey pk) ∨
          (t = .script ∨ t = .scriptHash) ∧ ∃ hh, k = .treeHash hh) := by
        unfold rawInfo
        split
        · exact ⟨_, _, rfl, .inl ⟨rfl, _, rfl⟩⟩
        · split
          · exact ⟨_, _, rfl, .inr ⟨.inr rfl, _, rfl⟩⟩
          · exact ⟨_, _, rfl, .inr ⟨.inl rfl, _, rfl⟩⟩
      obtain ⟨t, k, e, hr⟩ := hr
      rw [h.2.1, h.2.2, e]
      rcases hr with ⟨rfl, pk, rfl⟩ | ⟨rfl | rfl, hh, rfl⟩ <;> simp only
      all_goals
        repeat' split
        all_goals simp

/-- C21: whatever the host and the user did, no command and no button leads to an undefined outcome,
with one exception that is not about contexts: paging to the amount of a token of which exactly 2^63
are minted (`C47_negation`). -/
theorem C21_defined {env : Env} {nanoS : Bool} {key : Bytes} {tr : List Obs} {d : Device}
    (h : Runs env nanoS key tr d) (e : Event) (hr : (d.step env nanoS e).2 = .ub) :
    (e = .left ∨ e = .right) ∧ d.asks = some .approveSigning ∧
    ∃ S id, (know tr).sign = some S ∧
      (describe S.log).tokOut id = (describe S.log).tokIn id + 2 ^ 63 := by
  have hI := h.inv
  obtain ⟨d', r, hst, hT⟩ := step_cases env nanoS d e
  rw [hst] at hr
  simp only at hr
  subst hr
  cases hT with
  | attestUb hb hl hc hx =>
    exfalso
    have hid := hI.idle (idle_of hI hb)
    unfold Idle at hid
    rw [hc] at hid
    obtain ⟨x, S, h1, _⟩ := hid
    rcases hx with hx | ⟨y, _, hy⟩
    · exact hx x h1
    · exact attestOp_noub _ _ _ _ _ hy
  | signInitUb hb hp =>
    exfalso
    unfold p2pkInit at hp
    repeat' split at hp
    all_goals simp at hp
  | @signUb sub p2 data rnd hb hl hc hx =>
    exfalso
    have hid := hI.idle (idle_of hI hb)
    unfold Idle at hid
    rw [hc] at hid
    obtain ⟨x, S, h1, h2, hB⟩ := hid
    rcases hx with hx | ⟨y, hy, hap, hx⟩
    · exact hx x h1
    · obtain ⟨network, path, token, p0, i1, i2, i3, i4, i5, hR, _⟩ := sign_rel h hy hap h2
      rcases hx with hx | ⟨p, ho, hs1, hs2, hx⟩
      · exact signOp_noub hR _ _ _ hx
      · have hR' := signOp_rel hR ho (by
          rw [UInt8.le_iff_toNat_le] at hs1 ⊢; exact le_trans (by decide) hs1) hs2
        rcases hx with hx | ⟨hx, hy⟩
        · exact shouldShow_some hR' hx
        · obtain ⟨t, oi, _, _, e1, e2, _⟩ := shouldShow_true hR' hx
          have := hy t e1
          rw [e2] at this
          simp at this
  | @moveUb e s m k he hs hm hk =>
    obtain ⟨a, f0, p1, hf, p3⟩ := hI.asking _ hs
    have hcur : ∃ c, c < f0.count ∧ c = k := by
      have key : ∀ f : Flow, FlowOk f0 f → f.cur = some k → ∃ c, c < f0.count ∧ c = k := by
        intro f hf hk
        rcases hf.kind with ⟨_, _, h1⟩ | ⟨_, h1⟩
        · rw [h1] at hk; simp at hk
        · rcases h1 with ⟨_, h1⟩ | ⟨_, h1⟩ | ⟨_, k', h1, h2⟩
          · rw [h1] at hk; simp at hk
          · rw [h1] at hk; simp at hk
          · rw [h2] at hk; cases hk; exact ⟨_, h1, rfl⟩
      rcases he with ⟨_, rfl⟩ | ⟨_, rfl⟩
      · exact key _ hf.left.1 ((hf.left.2 k).1 hm)
      · exact key _ hf.right.1 ((hf.right.2 k).1 hm)
    obtain ⟨_, hlt, rfl⟩ := hcur
    have hmem : ShowRes.ub ∈ d.dynPages env nanoS := by
      rw [dynPages_eq hs hf]
      exact List.mem_map.2 ⟨_, List.mem_range.2 hlt, hk⟩
    have hA := hI.asks hs
    refine ⟨by rcases he with ⟨h, _⟩ | ⟨h, _⟩ <;> simp [h], ?_⟩
    cases hcb : s.cb <;> rw [hcb] at p3 hA hk
    case signOutput =>
      exfalso
      obtain ⟨s', x, S, oi, o, os, D, hs', hS, hDD, hD, hc, hna, hnet, hf', hO, hids, _, _, _, hp⟩ :=
        confirmingOutput h hA
      have hpa : ∀ n, printAddress env oi n ≠ .ub := by
        intro n
        have := hO.script
        rw [hc] at this
        refine printAddress_noub this ?_
        intro b hb
        have := complete_done hc
        simpa [BoxDesc.scriptDone, hb] using this
      rw [hp] at hmem
      obtain ⟨k, _, hk⟩ := List.mem_map.1 hmem
      unfold showOutput at hk
      split at hk
      · exact hpa _ hk
      · simp at hk
      · split at hk
        · simp at hk
        · split at hk <;> simp at hk
    case signTx =>
      refine ⟨hA, ?_⟩
      obtain ⟨S, D, amount, fee, L, h1, rfl, h3, _, _, _, h7⟩ := C04_screen h hA
      rw [h3] at hmem
      simp only [List.mem_cons, reduceCtorEq, false_or, tokenListPages, List.mem_flatMap,
        List.not_mem_nil, or_false] at hmem
      obtain ⟨⟨⟨id, b⟩, i⟩, hm, hb⟩ := hmem
      have hm := List.fst_mem_of_mem_zipIdx hm
      obtain ⟨e1, e2⟩ := (h7 _ _).1 hm
      refine ⟨S, id, h1, ?_⟩
      unfold balancePage at hb
      split at hb
      · rename_i hb'
        simp only at hb' e1
        omega
      · split at hb <;> simp at hb
    all_goals
      exfalso
      have : f0.count = 0 := by
        simp only [Asking] at p3
        first
        | (obtain ⟨_, _, _, path, token, pub, chain, t, _, _, _, _, rfl, _⟩ := p3; rfl)
        | (obtain ⟨_, _, _, network, rest, path, token, pub, chain, raw, t, _, _, _, _, _, _, h⟩ := p3
           rcases h with ⟨_, rfl, _⟩ | ⟨_, s, _, _, rfl, _⟩ <;> rfl)
        | (obtain ⟨_, _, _, _, x, s, _, _, _, rfl, _⟩ := p3; rfl)
        | (obtain ⟨_, _, _, _, network, path, token, p, s, t, _, _, _, _, _, rfl, _⟩ := p3; rfl)
      omega
  | @actUb s ok hs h1 hx =>
    exfalso
    obtain ⟨a, f0, p1, hf, p3⟩ := hI.asking _ hs
    have hA := hI.asks hs
    cases hcb : s.cb <;> rw [hcb] at p3 hA hx
    · obtain ⟨_, _, _, path, token, pub, chain, t, _, _, _, _, _, e⟩ := p3
      simp only [Device.act, e, Device.actExtPubKey] at hx
      split at hx <;> simp [status] at hx
    · obtain ⟨_, _, _, network, rest, path, token, pub, chain, raw, t, _, _, _, _, _, _, h⟩ := p3
      rcases h with ⟨_, _, e⟩ | ⟨_, s, _, _, _, e⟩ <;>
      · simp only [Device.act, e, Device.actDerive] at hx
        split at hx <;> simp [status] at hx
    · obtain ⟨_, _, _, _, x, s, _, _, _, _, e⟩ := p3
      simp only [Device.act, e, Device.actAttest] at hx
      split at hx <;> simp [status] at hx
    · obtain ⟨_, _, _, _, network, path, token, p, s, t, _, _, _, _, _, _, e⟩ := p3
      simp only [Device.act, e, Device.actSignInit] at hx
      split at hx <;> simp [status] at hx
    · obtain ⟨_, _, _, _, x, S, t, oi, e, hS, hB, hu, hoi, _⟩ := p3
      obtain ⟨network, path, token, p0, i1, i2, i3, i4, i5, hR, _, hw⟩ := sign_rel h e hB.approved hS
      obtain ⟨hst, _⟩ := hw ⟨s, hs, hcb⟩
      obtain ⟨t', oi', o', os', hu', hoi', hD', hO, hT⟩ := hR.newest hst
      rw [hu] at hu'
      cases hu'
      rw [hoi] at hoi'
      cases hoi'
      simp only [Device.act, e, Device.actSignOutput, hu, hoi] at hx
      split at hx
      · by_cases hb : oi.type = .bip32
        · obtain ⟨q, _, hq⟩ := hO.ofBip32 hb
          rw [if_pos hb, hq] at hx
          simp [status] at hx
        · rw [if_neg hb] at hx
          simp [status] at hx
      · simp [status] at hx
    · obtain ⟨_, _, _, x, S, e, _⟩ := p3
      simp only [Device.act, e, Device.actSignTx] at hx
      repeat' split at hx
      all_goals simp [status] at hx

/-- A session in which nothing is undefined: every reply so far and the next one. -/
example : Runs toyEnv false [1] (seen (demoOpen ++ demoTx ++ demoConfirm.take 1))
      (after (demoOpen ++ demoTx ++ demoConfirm.take 1)) ∧
    ((after (demoOpen ++ demoTx ++ demoConfirm.take 1)).step toyEnv false .right).2 = .wait :=
  ⟨runs_boot _ (by decide +kernel), by decide +kernel⟩

/-- C21: between events the command context is of the kind that the command in progress, or the
question on display, works with. -/
theorem C21_kind {env : Env} {nanoS : Bool} {key : Bytes} {tr : List Obs} {d : Device}
    (h : Runs env nanoS key tr d) :
    (d.asks = none → match d.command with
      | .none | .deriveAddress => d.ctx = .zeroed
      | .extPubKey => False
      | .attestInput => ∃ x, d.ctx = .attest x
      | .signTransaction => ∃ x, d.ctx = .sign x) ∧
    (d.asks = some .extPubKeyExport → d.command = .extPubKey ∧ ∃ x, d.ctx = .extPub x) ∧
    (d.asks = some .confirmAddress ∨ d.asks = some .confirmSendAddress →
      d.command = .deriveAddress ∧ ∃ x, d.ctx = .derive x) ∧
    (d.asks = some .confirmAttest → d.command = .attestInput ∧ ∃ x, d.ctx = .attest x) ∧
    (d.asks = some .p2pkSigning → d.command = .signTransaction ∧
      ∃ x : SignCtx, d.ctx = .sign x ∧ ∃ t, x.p.u = .uiApprove t) ∧
    (d.asks = some .confirmOutput → d.command = .signTransaction ∧
      ∃ x : SignCtx, d.ctx = .sign x ∧ ∃ t, x.p.u = .transaction t) ∧
    (d.asks = some .approveSigning → d.command = .signTransaction ∧
      ∃ x : SignCtx, d.ctx = .sign x ∧ x.p.u = .uiConfirm) := by
  have hI := h.inv
  cases hs : d.screen with
  | none =>
    have hn : d.asks = none := by simp [Device.asks, hs]
    rw [hn]
    simp only [true_implies, reduceCtorEq, false_implies, or_self, and_true]
    have hid := hI.idle hs
    unfold Idle at hid
    split <;> rename_i hc <;> rw [hc] at hid
    · exact hid
    · exact hid
    · exact hid
    · obtain ⟨x, _, h1, _⟩ := hid; exact ⟨x, h1⟩
    · obtain ⟨x, _, h1, _⟩ := hid; exact ⟨x, h1⟩
  | some s =>
    have hA := hI.asks hs
    obtain ⟨a, f0, p1, hf, p3⟩ := hI.asking _ hs
    cases hcb : s.cb <;> rw [hcb] at p3 hA
    case extPubKey =>
      obtain ⟨_, hc, _, path, token, pub, chain, t, _, _, _, _, _, e⟩ := p3
      rw [hA]; simp [hc, e]
    case deriveAddress =>
      obtain ⟨_, hc, _, network, rest, path, token, pub, chain, raw, t, _, _, _, _, _, _, h⟩ := p3
      rcases h with ⟨_, _, e⟩ | ⟨_, s, _, _, _, e⟩ <;> rcases hA with hA | hA <;> rw [hA] <;>
        simp [hc, e]
    case attest =>
      obtain ⟨_, _, _, hc, x, s, _, _, _, _, e⟩ := p3
      rw [hA]; simp [hc, e]
    case signInit =>
      obtain ⟨_, _, _, hc, network, path, token, p, s, t, _, _, _, _, _, _, e⟩ := p3
      rw [hA]; simp [hc, e]
    case signOutput =>
      obtain ⟨_, _, _, hc, x, S, t, oi, e, hS, hB, hu, hoi, _⟩ := p3
      rw [hA]; simp [hc, e, hu]
    case signTx =>
      obtain ⟨_, _, hc, x, S, e, _, _, hu, _⟩ := p3
      rw [hA]; simp [hc, e, hu]

/-- All kinds occur. -/
example : (after (demoOpen ++ demoTx.take 4)).asks = some .confirmOutput ∧
    (after (demoOpen ++ demoTx ++ demoConfirm.take 1)).asks = some .approveSigning ∧
    (after [cmd 0x10 2 0 (demoPath3 ++ [0, 0, 0, 9])]).asks = some .extPubKeyExport ∧
    (after []).asks = none := by decide +kernel

end Ergo
