import Verif.Proof.Pages
import Verif.Props.Path
/-!
# What the confirmation screens show (C04, C32, C33, C40, C47)
-/
namespace Ergo
open Spec

/-! ## The transaction -/

/-- What is known while the transaction is on screen. -/
theorem confirming {env : Env} {nanoS : Bool} {key : Bytes} {tr : List Obs} {d : Device}
    (h : Runs env nanoS key tr d) (hq : d.asks = some .approveSigning) :
    ∃ s x S, d.screen = some s ∧ s.cb = .signTx ∧ d.ctx = .sign x ∧ (know tr).sign = some S ∧
      x.p.u = .uiConfirm ∧ x.p.state = .finalized ∧ x.p.path = pathOf (S.start.data.drop 1) ∧
      FlowOk (.dynamic ⟨.approveSigning, .nothing⟩ (txScreenCount x.p.amounts)) s.flow ∧
      pathFormat x.p.path 70 = some (pathText x.p.path) ∧
      ∃ h0, PRel env h0 x.p (describe S.log) := by
  have hI := h.inv
  cases hs : d.screen with
  | none => simp [Device.asks, hs] at hq
  | some s =>
    have hA := hI.asks hs
    obtain ⟨a, f0, p1, p2, p3⟩ := hI.asking _ hs
    rw [hq] at hA
    cases hcb : s.cb <;> rw [hcb] at hA p3 <;> simp [AsksFor] at hA
    obtain ⟨_, _, _, x, S, hx, hS, hB, hu, hst, rfl⟩ := p3
    obtain ⟨network, path, token, p0, i1, i2, i3, _, i5, hR, _⟩ := sign_rel h hx hB.approved hS
    obtain ⟨_, j3, j4⟩ := parseSignInit_some i1
    obtain ⟨tr2, o1, tr1, d1, rfl, hd1, rfl, ho, hp, _, hq', network', path', token', p', t, k1, k2, k3⟩ :=
      session_start h hS
    rw [i1] at k1
    simp only [Except.ok.injEq, Prod.mk.injEq] at k1
    obtain ⟨rfl, rfl, rfl⟩ := k1
    refine ⟨s, x, S, rfl, hcb, hx, hS, hu, hst, i3.trans j3.symm, p2, ?_, _, hR⟩
    rw [i3]; exact pathFormat_full k3

/-- C04: while the user is asked to approve the transaction `D` described by the session, the pages
are: the path in full; the amount, which is the sum of the inputs less change and fee; the fee, which
is the sum of the fee outputs; and two pages for every token whose amounts in inputs and outputs
differ, with the exact difference.  All sums are integers without wrap-around, over all inputs and
outputs that were started in the session. -/
theorem C04_screen {env : Env} {nanoS : Bool} {key : Bytes} {tr : List Obs} {d : Device}
    (h : Runs env nanoS key tr d) (hq : d.asks = some .approveSigning) :
    ∃ S D amount fee L, (know tr).sign = some S ∧ D = describe S.log ∧
      d.dynPages env nanoS =
        .page ⟨.p2pkPath, .text (pathText (pathOf (S.start.data.drop 1)))⟩ ::
        .page ⟨.txAmount, .erg amount⟩ :: .page ⟨.txFee, .erg fee⟩ ::
        tokenListPages nanoS balancePage L ∧
      amount.toNat + D.sumOut Script.isChange + D.sumOut Script.isFee = D.sumIn ∧
      fee.toNat = D.sumOut Script.isFee ∧
      (L.map (·.1)).Nodup ∧
      ∀ id b, (id, b) ∈ L ↔ b = (D.tokIn id : Int) - (D.tokOut id : Int) ∧ b ≠ 0 := by
  obtain ⟨s, x, S, hs, hcb, hx, hS, hu, hst, hpath, hf, hfmt, h0, hR⟩ := confirming h hq
  obtain ⟨_, _, _, _, _, _, _, t, hT⟩ := hR.final hst
  obtain ⟨L, h1, h2, h3, _⟩ := txPages (nanoS := nanoS) hT.full.amt hfmt
  refine ⟨S, _, x.p.amounts.value, x.p.amounts.fee, L, hS, rfl, ?_, hT.full.amt.value,
    hT.full.amt.fee, h2, h3⟩
  rw [dynPages_eq hs hf, hcb, ← hpath, ← h1]
  apply List.map_congr_left
  intro k _
  simp only [Device.show, hx, hu]

/-- Two token ids. -/
def demoIdA : Bytes := List.replicate 32 0xAA
/-- Second id. -/
def demoIdB : Bytes := List.replicate 32 0xBB

/-- One input of value 100 with 5 of token A; one output of value 90 with 3 of token A, `b` of token B
(8 bytes), and 0 of token A again; one fee output of value 10.  The first output is approved. -/
def demoTokTx (b : Bytes) : List Event :=
  [cmd 0x21 0x10 7 [0, 1, 0, 0, 2, 0, 2], cmd 0x21 0x11 7 (demoIdA ++ demoIdB),
   cmd 0x21 0x12 7 (demoFrame 1 1 0 100 [demoIdA ++ [0, 0, 0, 0, 0, 0, 0, 5]] [0, 0, 0, 0]),
   cmd 0x21 0x15 7 [0, 0, 0, 0, 0, 0, 0, 90, 0, 0, 0, 36, 0, 0, 0, 1, 3, 0, 0, 0, 0],
   cmd 0x21 0x16 7 demoTree,
   cmd 0x21 0x19 7 ([0, 0, 0, 0, 0, 0, 0, 0, 0, 0, 0, 0] ++ [0, 0, 0, 0, 0, 0, 0, 0, 0, 0, 0, 3] ++
     [0, 0, 0, 1] ++ b)]
/-- The rest of this session, up to the screen. -/
def demoTokEnd : List Event :=
  [.left, .left, .both,
   cmd 0x21 0x15 7 [0, 0, 0, 0, 0, 0, 0, 10, 0, 0, 0, 105, 0, 0, 0, 1, 0, 0, 0, 0, 0],
   cmd 0x21 0x17 7 [], cmd 0x21 0x20 7 []]

/-- A session with tokens: 2 of token A are burned and 4 of token B are minted. -/
example : (after (demoOpen ++ demoTokTx [0, 0, 0, 0, 0, 0, 0, 4] ++ demoTokEnd)).dynPages toyEnv true =
    [.page ⟨.p2pkPath, .text "44'/429'/0'/0/0".toList⟩, .page ⟨.txAmount, .erg 90⟩,
     .page ⟨.txFee, .erg 10⟩,
     .page ⟨.token 1, .text "AAAAAAA...AAAAAAA".toList⟩, .page ⟨.tokenValue 1, .burning 2⟩,
     .page ⟨.token 2, .text "BBBBBBB...BBBBBBB".toList⟩, .page ⟨.tokenValue 2, .minting 4⟩] ∧
    (after (demoOpen ++ demoTokTx [0, 0, 0, 0, 0, 0, 0, 4] ++ demoTokEnd)).asks =
      some .approveSigning := by
  decide +kernel

/-- C47 (partial): for every token with more in the outputs than in the inputs, other than by exactly
2^63, there is a page with the exact difference, right after the page with its id.  Missing: the
difference 2^63, see `C47_negation`. -/
theorem C47_partial {env : Env} {nanoS : Bool} {key : Bytes} {tr : List Obs} {d : Device}
    (h : Runs env nanoS key tr d) (hq : d.asks = some .approveSigning) {S : SignSess} {D : TxDesc}
    (hS : (know tr).sign = some S) (hD : D = describe S.log) (id : Bytes)
    (hlt : D.tokIn id < D.tokOut id) (hne : D.tokOut id ≠ D.tokIn id + 2 ^ 63) :
    ∃ k n, (d.dynPages env nanoS)[k]? = some (.page ⟨.token n, .text (idText nanoS id)⟩) ∧
      (d.dynPages env nanoS)[k + 1]? =
        some (.page ⟨.tokenValue n, .minting (D.tokOut id - D.tokIn id)⟩) := by
  obtain ⟨S', D', amount, fee, L, h1, h2, h3, _, _, _, h7⟩ := C04_screen h hq
  rw [hS] at h1
  cases h1
  rw [h2, ← hD] at h7
  have hm : (id, (D.tokIn id : Int) - (D.tokOut id : Int)) ∈ L := (h7 _ _).2 ⟨rfl, by omega⟩
  have hb : ∀ n, balancePage n ((D.tokIn id : Int) - (D.tokOut id : Int)) =
      .page ⟨.tokenValue n, .minting (D.tokOut id - D.tokIn id)⟩ := by
    intro n
    unfold balancePage
    rw [if_neg (by omega), if_pos (by omega)]
    have : ((D.tokIn id : Int) - (D.tokOut id : Int)).natAbs = D.tokOut id - D.tokIn id := by omega
    rw [this]
  obtain ⟨k, n, e1, e2⟩ := tokList_at (nanoS := nanoS) (value := balancePage)
    [.page ⟨.p2pkPath, .text (pathText (pathOf (S.start.data.drop 1)))⟩,
      .page ⟨.txAmount, .erg amount⟩, .page ⟨.txFee, .erg fee⟩] hm
  rw [hb] at e2
  rw [h3]
  exact ⟨k, n, e1, e2⟩

/-- C47 is false as stated: an accepted transaction mints 2^63 of token B, and when the user pages to
the amount, the device negates `INT64_MIN`, which is undefined. -/
theorem C47_negation : ∃ env nanoS key tr d S, Env.WF env ∧ Runs env nanoS key tr d ∧
    d.asks = some .approveSigning ∧ (know tr).sign = some S ∧
    (describe S.log).tokOut demoIdB = (describe S.log).tokIn demoIdB + 2 ^ 63 ∧
    (d.step env nanoS .right).2 = .ub := by
  have h := runs_boot (key := [1]) (env := toyEnv) (nanoS := false)
    (demoOpen ++ demoTokTx [0x80, 0, 0, 0, 0, 0, 0, 0] ++ demoTokEnd ++ List.replicate 6 .right)
    (by decide +kernel)
  generalize hw : (Device.boot [1]).watch toyEnv false [] (demoOpen ++
    demoTokTx [0x80, 0, 0, 0, 0, 0, 0, 0] ++ demoTokEnd ++ List.replicate 6 .right) = w at h
  have h1 : w.2.asks = some .approveSigning := by subst hw; decide +kernel
  have h2 : (w.2.step toyEnv false .right).2 = .ub := by subst hw; decide +kernel
  have h3 : (know w.1).sign.map (fun S => ((describe S.log).tokOut demoIdB,
      (describe S.log).tokIn demoIdB)) = some (2 ^ 63, 0) := by subst hw; decide +kernel
  obtain ⟨S, hS, hD⟩ := Option.map_eq_some_iff.1 h3
  simp only [Prod.mk.injEq] at hD
  exact ⟨toyEnv, false, [1], w.1, w.2, S, toyEnv_wf, h, h1, hS, by rw [hD.1, hD.2, Nat.zero_add], h2⟩

/-! ## Outputs -/

/-- What is known while an output is on screen. -/
theorem confirmingOutput {env : Env} {nanoS : Bool} {key : Bytes} {tr : List Obs} {d : Device}
    (h : Runs env nanoS key tr d) (hq : d.asks = some .confirmOutput) :
    ∃ s, ∃ x : SignCtx, ∃ S oi o os D, d.screen = some s ∧ (know tr).sign = some S ∧ D = describe S.log ∧
      D.outputs = o :: os ∧ o.box.complete = true ∧ o.approved = false ∧
      networkSupported (S.start.data.headD 0) = true ∧
      FlowOk (.dynamic ⟨.confirmOutput, .nothing⟩ (outputScreenCount oi)) s.flow ∧
      OutRel env x.p.amounts.table D.table oi o.box ∧
      (∀ id ∈ x.p.amounts.table, id.length = 32) ∧
      (∀ t ∈ o.box.tokens, t.1 < D.table.length) ∧
      (∀ p, o.box.script = some (.change p) → IsAddressPath p ∧ p.length ≤ 10) ∧
      TableGrows D.table (inIds D) x.p.amounts.table ∧
      d.dynPages env nanoS = (List.range (outputScreenCount oi)).map
        (showOutput env nanoS oi x.p.amounts.table (S.start.data.headD 0)) := by
  have hI := h.inv
  cases hs : d.screen with
  | none => simp [Device.asks, hs] at hq
  | some s =>
    have hA := hI.asks hs
    obtain ⟨a, f0, p1, p2, p3⟩ := hI.asking _ hs
    rw [hq] at hA
    cases hcb : s.cb <;> rw [hcb] at hA p3 <;> simp [AsksFor] at hA
    obtain ⟨_, _, _, _, x, S, t, oi, hx, hS, hB, hu, hoi, rfl⟩ := p3
    obtain ⟨network, path, token, p0, i1, i2, i3, i4, i5, hR, _, hw⟩ := sign_rel h hx hB.approved hS
    obtain ⟨hst, o, os, hD, hc, hna, _⟩ := hw ⟨s, hs, hcb⟩
    obtain ⟨j1, _, _⟩ := parseSignInit_some i1
    obtain ⟨_, hnet, _⟩ := p2pkInit_ok i2
    obtain ⟨t', oi', o', os', hu', hoi', hD', hO, hT⟩ := hR.newest hst
    rw [hu] at hu'
    cases hu'
    rw [hoi] at hoi'
    cases hoi'
    rw [hD] at hD'
    cases hD'
    refine ⟨s, x, S, oi, o, os, _, rfl, hS, rfl, hD, hc, hna, by rw [j1]; exact hnet, p2, hO,
      hT.full.amt.ids, hT.refs o (by rw [hD]; simp), ?_, hT.tab, ?_⟩
    · intro p hp
      obtain ⟨g1, g2⟩ := hT.paths o (by rw [hD]; simp) p hp
      exact ⟨(validate_address p).1 g1, g2⟩
    · rw [dynPages_eq hs p2, hcb]
      apply List.map_congr_left
      intro k _
      simp only [Device.show, hx, hu, hoi, i4, j1]

/-- C32: while the user is asked to confirm an output (the newest one of the described transaction,
complete), the first page of a script sent by the host is its address in the network of the session:
of the key for a key script, of the hash for a pay-to-script-hash script, and of the hash of the
complete script for any other; the first page of the fee contract says so. -/
theorem C32_address {env : Env} (hwf : env.WF) {nanoS : Bool} {key : Bytes} {tr : List Obs}
    {d : Device} (h : Runs env nanoS key tr d) (hq : d.asks = some .confirmOutput) :
    ∃ S o os, (know tr).sign = some S ∧ (describe S.log).outputs = o :: os ∧
      o.box.complete = true ∧ o.approved = false ∧
      (∀ b, o.box.script = some (.raw b) → ∃ p, (d.dynPages env nanoS).head? = some (.page p) ∧
        ScriptPage env (S.start.data.headD 0) b p) ∧
      (o.box.script = some .fee →
        (d.dynPages env nanoS).head? = some (.page ⟨.fee, .text "Miners Fee".toList⟩)) := by
  obtain ⟨s, x, S, oi, o, os, _, hs, hS, rfl, hD, hc, hna, hnet, hf, hO, hids, hrefs, hpaths, _, hp⟩ :=
    confirmingOutput h hq
  have hfin : oi.finished = true := by rw [hO.finished]; exact hc
  have hsc := hO.script
  refine ⟨S, o, os, hS, hD, hc, hna, ?_, ?_⟩
  · intro b hb
    have hl : b.length = o.box.treeSize := by
      have := complete_done hc
      simpa [BoxDesc.scriptDone, hb] using this
    rw [hb] at hsc
    simp only [ScriptRel, if_pos hl, hc] at hsc
    have hty : oi.type ≠ .bip32 := by
      rw [hsc.2.1]
      unfold rawInfo
      split
      · simp
      · split <;> simp
    obtain ⟨p, e1, e2⟩ := script_page hwf hnet hfin hsc.2.1 hsc.2.2
    obtain ⟨L, h1, _⟩ := outPages (nanoS := nanoS) (network := S.start.data.headD 0) hO hids hty
    refine ⟨p, ?_, e2⟩
    rw [hp, h1, e1]; rfl
  · intro hb
    rw [hb] at hsc
    obtain ⟨L, h1, _⟩ := outPages (nanoS := nanoS) (network := S.start.data.headD 0) hO hids
      (by rw [hsc.1]; simp)
    rw [hp, h1]
    simp only [List.head?_cons, printAddress, hfin, hsc.1]
    rfl

/-- C32: the page says "Address" exactly for key scripts, and a key has only one script. -/
theorem C32_title {env : Env} {n : UInt8} {b : Bytes} {p : Page} (h : ScriptPage env n b p) :
    (p.title = .address ↔ ∃ k, IsKeyScript b k) ∧ (p.title = .scriptHash ↔ ¬ ∃ k, IsKeyScript b k) := by
  rcases h with ⟨k, hk, rfl⟩ | ⟨h, hh, rfl⟩ | ⟨h1, h2, rfl⟩
  · simp only [reduceCtorEq, false_iff, true_iff, not_not]
    exact ⟨⟨k, hk⟩, ⟨k, hk⟩⟩
  · have : ¬ ∃ k, IsKeyScript b k := by
      rintro ⟨k, hk⟩
      have e1 := congrArg List.length hk.1
      have e2 := congrArg List.length hh.1
      have := hk.2.1
      have := hh.2
      simp at e1 e2
      omega
    simp [this]
  · simp [h1]

/-- C32: two scripts with the same key page are equal: an address shown for a key determines the
whole script. -/
theorem C32_determines {env : Env} {n : UInt8} {b b' : Bytes} {p : Page} (h : ScriptPage env n b p)
    (h' : ScriptPage env n b' p) (ha : p.title = .address) : b = b' := by
  rcases h with ⟨k, hk, rfl⟩ | ⟨h, hh, rfl⟩ | ⟨h1, h2, rfl⟩
  · rcases h' with ⟨k', hk', e⟩ | ⟨h, hh, e⟩ | ⟨h1, h2, e⟩
    · simp only [Page.mk.injEq, Shown.text.injEq, true_and, addressText] at e
      have e := base58_inj e
      have hl := hk.2.1
      have hl' := hk'.2.1
      have := List.append_inj_left e (by simp [hl, hl'])
      simp only [List.cons.injEq, true_and] at this
      rw [hk.1, hk'.1, this]
    · simp at e
    · simp at e
  · simp at ha
  · simp at ha

/-- A key script: the page has its address. -/
example : (after (demoOpen ++ demoTx.take 4)).asks = some .confirmOutput ∧
    (after (demoOpen ++ demoTx.take 4)).dynPages toyEnv false =
      [.page ⟨.address, .text "9eZGjY1857JpnopoTRqJefW7CvSpEzGmuyQpLfn8FYmLgUa4nPG".toList⟩,
       .page ⟨.outputValue, .erg 90⟩] := by
  decide +kernel

/-- C33 (partial): while the user is asked to confirm an output that is not change, the pages after the
address are the value of the output and two pages for every token with an amount: its id, then the
exact amount.  The listed tokens are exactly the tokens of the output with an amount, no id twice.
Missing for the full claim: tokens with amount 0 are not listed (`C33_negation`), and nothing but the
path is shown for change (`C33_change_partial`, `C33_change_negation`). -/
theorem C33_partial {env : Env} {nanoS : Bool} {key : Bytes} {tr : List Obs} {d : Device}
    (h : Runs env nanoS key tr d) (hq : d.asks = some .confirmOutput) :
    ∃ S D o os, (know tr).sign = some S ∧ D = describe S.log ∧ D.outputs = o :: os ∧
      o.box.complete = true ∧ ((∀ p, o.box.script ≠ some (.change p)) →
        ∃ first L, d.dynPages env nanoS =
            first :: .page ⟨.outputValue, .erg (UInt64.ofNat o.box.value)⟩ ::
            tokenListPages nanoS amountPage L ∧
          o.box.value < 2 ^ 64 ∧ (L.map (·.1)).Nodup ∧
          (∀ id a, (id, a) ∈ L ↔ a ≠ 0 ∧ ∃ i, (i, a) ∈ o.box.tokens ∧ D.table[i]? = some id) ∧
          (∀ id a, (id, a) ∈ L → a < 2 ^ 64) ∧
          ∀ t ∈ o.box.tokens, ∃ id, D.table[t.1]? = some id) := by
  obtain ⟨s, x, S, oi, o, os, D, hs, hS, hDD, hD, hc, hna, hnet, hf, hO, hids, hrefs, hpaths, _, hp⟩ :=
    confirmingOutput h hq
  refine ⟨S, D, o, os, hS, hDD, hD, hc, fun hnc => ?_⟩
  have hty : oi.type ≠ .bip32 := by
    intro hb
    obtain ⟨q, hq, _⟩ := hO.ofBip32 hb
    exact hnc q hq
  obtain ⟨L, h1, h2, h3, _⟩ := outPages (nanoS := nanoS) (network := S.start.data.headD 0) hO hids hty
  refine ⟨_, L, by rw [hp, h1], ?_, h2, ?_, ?_, ?_⟩
  · rw [← hO.value]; exact oi.value.toNat_lt
  · intro id a
    rw [h3, listed_iff hO.uniq]
  · intro id a ha
    obtain ⟨rfl, hne⟩ := (h3 _ _).1 ha
    by_cases hm : id ∈ x.p.amounts.table
    · obtain ⟨i, hi⟩ := tableFind_mem hm
      rw [← hO.toks.amt _ _ hi]
      exact UInt64.toNat_lt _
    · rw [hO.toks.out0 _ hm]; omega
  · intro t ht
    have := hrefs t ht
    exact ⟨D.table[t.1], List.getElem?_eq_getElem this⟩

/-- C33 (partial): for change that is not accepted automatically, the only page is the path, in full if
it has at most 69 characters; a longer one is cut or cannot be drawn. -/
theorem C33_change_partial {env : Env} {nanoS : Bool} {key : Bytes} {tr : List Obs} {d : Device}
    (h : Runs env nanoS key tr d) (hq : d.asks = some .confirmOutput) :
    ∃ S o os, (know tr).sign = some S ∧ (describe S.log).outputs = o :: os ∧ o.box.complete = true ∧
      ∀ p, o.box.script = some (.change p) → IsAddressPath p ∧ p.length ≤ 10 ∧
        ((pathText p).length ≤ 69 →
          d.dynPages env nanoS = [.page ⟨.change, .text (pathText p)⟩]) ∧
        (d.dynPages env nanoS = [.page ⟨.change, .text ((pathText p).take 69)⟩] ∨
          d.dynPages env nanoS = [.err Sw.bip32FormattingFailed]) := by
  obtain ⟨s, x, S, oi, o, os, D, hs, hS, rfl, hD, hc, hna, hnet, hf, hO, hids, hrefs, hpaths, _, hp⟩ :=
    confirmingOutput h hq
  refine ⟨S, o, os, hS, hD, hc, fun p hsc => ?_⟩
  obtain ⟨g1, g2⟩ := hpaths p hsc
  have hfin : oi.finished = true := by rw [hO.finished]; exact hc
  have hs' := hO.script
  rw [hsc] at hs'
  have hcount : outputScreenCount oi = 1 := by
    unfold outputScreenCount; rw [if_neg (by simp [hs'.1])]
  have hpages : d.dynPages env nanoS = [match pathFormat p 70 with
      | none => .err Sw.bip32FormattingFailed
      | some t => .page ⟨.change, .text t⟩] := by
    rw [hp, hcount]
    simp only [List.range_one, List.map_cons, List.map_nil, showOutput, printAddress, hfin, hs'.1,
      hs'.2.2, textLen]
    rfl
  have hne : p ≠ [] := by rintro rfl; obtain ⟨_, _, _, _, e, _⟩ := g1; simp at e
  refine ⟨g1, g2, ?_, ?_⟩
  · intro hl
    rw [hpages, C36_partial p 70 hne g2 (by omega)]
  · rw [hpages]
    cases hf : pathFormat p 70 with
    | none => right; rfl
    | some t => left; rw [C36_prefix_partial p 70 t (by omega) hf]

/-- C33 is false as stated: an output contains 0 of token B, and there is no page about it. -/
theorem C33_negation : ∃ env nanoS key tr d S o os, Env.WF env ∧ Runs env nanoS key tr d ∧
    d.asks = some .confirmOutput ∧ (know tr).sign = some S ∧ (describe S.log).outputs = o :: os ∧
    (1, 0) ∈ o.box.tokens ∧ (describe S.log).table[1]? = some demoIdB ∧
    ∀ n, .page ⟨.token n, .text (idText nanoS demoIdB)⟩ ∉ d.dynPages env nanoS := by
  have h := runs_boot (key := [1]) (env := toyEnv) (nanoS := true)
    (demoOpen ++ demoTokTx [0, 0, 0, 0, 0, 0, 0, 0]) (by decide +kernel)
  generalize hw : (Device.boot [1]).watch toyEnv true [] (demoOpen ++
    demoTokTx [0, 0, 0, 0, 0, 0, 0, 0]) = w at h
  have h1 : w.2.asks = some .confirmOutput := by subst hw; decide +kernel
  have h2 : w.2.dynPages toyEnv true =
      [.page ⟨.address, .text "9eZGjY1857JpnopoTRqJefW7CvSpEzGmuyQpLfn8FYmLgUa4nPG".toList⟩,
       .page ⟨.outputValue, .erg 90⟩, .page ⟨.token 1, .text "AAAAAAA...AAAAAAA".toList⟩,
       .page ⟨.tokenValue 1, .amount 3⟩] := by subst hw; decide +kernel
  have h3 : (know w.1).sign.map (fun S => ((describe S.log).outputs.map (fun o => o.box.tokens),
      (describe S.log).table[1]?)) = some ([[(0, 0), (0, 3), (1, 0)]], some demoIdB) := by
    subst hw; decide +kernel
  obtain ⟨S, hS, hD⟩ := Option.map_eq_some_iff.1 h3
  simp only [Prod.mk.injEq] at hD
  obtain ⟨o, os, e1, e2, _⟩ := List.map_eq_cons_iff.1 hD.1
  refine ⟨toyEnv, true, [1], w.1, w.2, S, o, os, toyEnv_wf, h, h1, hS, e1, ?_, hD.2, ?_⟩
  · rw [e2]; decide
  · intro n hm
    rw [h2] at hm
    have e : idText true demoIdB = "BBBBBBB...BBBBBBB".toList := by decide +kernel
    rw [e] at hm
    simp at hm

/-- A change output of value 90 with 5 of token A, outside the window of the session path. -/
def demoChangeTx (path : Bytes) : List Event :=
  [cmd 0x21 0x10 7 [0, 1, 0, 0, 1, 0, 1], cmd 0x21 0x11 7 demoIdA,
   cmd 0x21 0x12 7 (demoFrame 1 1 0 100 [demoIdA ++ [0, 0, 0, 0, 0, 0, 0, 5]] [0, 0, 0, 0]),
   cmd 0x21 0x15 7 [0, 0, 0, 0, 0, 0, 0, 90, 0, 0, 0, 36, 0, 0, 0, 1, 1, 0, 0, 0, 0],
   cmd 0x21 0x18 7 path,
   cmd 0x21 0x19 7 [0, 0, 0, 0, 0, 0, 0, 0, 0, 0, 0, 5]]

/-- C33 is false for change: value and tokens of change outside the window are not on the pages. -/
theorem C33_change_negation : ∃ env nanoS key tr d S o os p t, Env.WF env ∧
    Runs env nanoS key tr d ∧ d.asks = some .confirmOutput ∧ (know tr).sign = some S ∧
    (describe S.log).outputs = o :: os ∧ o.box.script = some (.change p) ∧ o.box.value = 90 ∧
    (0, 5) ∈ o.box.tokens ∧ d.dynPages env nanoS = [.page ⟨.change, .text t⟩] := by
  have h := runs_boot (key := [1]) (env := toyEnv) (nanoS := true)
    (demoOpen ++ demoChangeTx (demoPath 30)) (by decide +kernel)
  generalize hw : (Device.boot [1]).watch toyEnv true [] (demoOpen ++
    demoChangeTx (demoPath 30)) = w at h
  have h1 : w.2.asks = some .confirmOutput := by subst hw; decide +kernel
  have h2 : w.2.dynPages toyEnv true = [.page ⟨.change, .text "44'/429'/0'/0/30".toList⟩] := by
    subst hw; decide +kernel
  have h3 : (know w.1).sign.map (fun S => (describe S.log).outputs.map
      (fun o => (o.box.tokens, o.box.value, o.box.script))) =
      some [([(0, 5)], 90, some (.change [0x8000002c, 0x800001AD, 0x80000000, 0, 30]))] := by
    subst hw; decide +kernel
  obtain ⟨S, hS, hD⟩ := Option.map_eq_some_iff.1 h3
  obtain ⟨o, os, e1, e2, _⟩ := List.map_eq_cons_iff.1 hD
  simp only [Prod.mk.injEq] at e2
  refine ⟨toyEnv, true, [1], w.1, w.2, S, o, os, _, _, toyEnv_wf, h, h1, hS, e1, e2.2.2, e2.2.1, ?_, h2⟩
  rw [e2.1]; simp

/-! ## Flows -/

theorem steps_short {env : Env} {g : Ghost} {d : Device} {a : Request} {f0 : Flow} {cb : Callback}
    (h : Asking env g d a f0 cb) : f0.steps.length ≤ 6 := by
  cases cb with
  | extPubKey =>
    obtain ⟨_, _, _, path, token, pub, chain, t, _, _, _, _, rfl, _⟩ := h
    unfold epkSteps Flow.static
    split <;> simp
  | deriveAddress =>
    obtain ⟨_, _, _, network, rest, path, token, pub, chain, raw, t, _, _, _, _, _, _, h⟩ := h
    rcases h with ⟨_, rfl, _⟩ | ⟨_, s, _, _, rfl, _⟩
    · unfold daSendSteps Flow.static
      split <;> simp
    · unfold daShowSteps Flow.static
      split <;> simp
  | attest =>
    obtain ⟨_, _, _, _, x, s, _, _, _, rfl, _⟩ := h
    unfold attestSteps Flow.static
    split <;> simp
  | signInit =>
    obtain ⟨_, _, _, _, network, path, token, p, s, t, _, _, _, _, _, rfl, _⟩ := h
    unfold signInitSteps Flow.static
    split <;> simp
  | signOutput =>
    obtain ⟨_, _, _, _, x, S, t, o, _, _, _, _, _, rfl⟩ := h
    simp [Flow.dynamic]
  | signTx =>
    obtain ⟨_, _, _, x, S, _, _, _, _, _, rfl⟩ := h
    simp [Flow.dynamic]

/-- C40: the flow on display, with the two entries that end it, uses at most the 8 slots; the position
is in the flow and never rests on a delimiter; the index of a dynamic page is less than their number,
and there are at most 43 of them. -/
theorem C40_slots {env : Env} {nanoS : Bool} {key : Bytes} {tr : List Obs} {d : Device}
    (h : Runs env nanoS key tr d) {s : Screen} (hs : d.screen = some s) :
    s.flow.steps.length + 2 ≤ 8 ∧ s.flow.idx < s.flow.steps.length ∧
    (∀ k, s.flow.cur = some k → k < s.flow.count) ∧ s.flow.count ≤ 43 ∧
    (d.dynPages env nanoS).length = s.flow.count ∧ s.flow.here ≠ .upper ∧ s.flow.here ≠ .lower ∧
    (s.flow.here = .dyn → ∃ k, s.flow.cur = some k) := by
  have hI := h.inv
  obtain ⟨a, f0, p1, hf, p3⟩ := hI.asking _ hs
  have hlen := steps_short p3
  have hcount : s.flow.count ≤ 43 := by
    have hA := hI.asks hs
    rw [hf.count]
    cases hcb : s.cb <;> rw [hcb] at p3 hA
    · obtain ⟨_, _, _, path, token, pub, chain, t, _, _, _, _, rfl, _⟩ := p3
      simp [Flow.static]
    · obtain ⟨_, _, _, network, rest, path, token, pub, chain, raw, t, _, _, _, _, _, _, h⟩ := p3
      rcases h with ⟨_, rfl, _⟩ | ⟨_, s, _, _, rfl, _⟩ <;> simp [Flow.static]
    · obtain ⟨_, _, _, _, x, s, _, _, _, rfl, _⟩ := p3
      simp [Flow.static]
    · obtain ⟨_, _, _, _, network, path, token, p, s, t, _, _, _, _, _, rfl, _⟩ := p3
      simp [Flow.static]
    · obtain ⟨s', x, S, oi, o, os, D, hs', hS, hDD, hD, hc, hna, hnet, hf', hO, _⟩ :=
        confirmingOutput h hA
      rw [hs] at hs'
      cases hs'
      rw [← hf.count, hf'.count]
      have := hO.toks.len
      have h2 := List.countP_le_length (p := (· != 0)) (l := oi.tokens)
      simp only [Flow.dynamic, outputScreenCount, OutInfo.usedCount]
      split <;> omega
    · obtain ⟨s', x, S, hs', _, hx, hS, hu, hst, hpath, hf', hfmt, h0, hR⟩ := confirming h hA
      obtain ⟨_, _, _, _, _, _, _, t, hT⟩ := hR.final hst
      rw [hs] at hs'
      cases hs'
      rw [← hf.count, hf'.count]
      have h1 : x.p.amounts.tokens.length = 20 := hT.full.amt.len
      have h2 := List.countP_le_length (p := (· != 0)) (l := x.p.amounts.tokens)
      simp only [Flow.dynamic, txScreenCount, Amounts.nonZeroCount]
      omega
  refine ⟨by rw [hf.steps]; omega, ?_, ?_, hcount, by simp [Device.dynPages, hs], ?_⟩
  · rw [hf.steps]
    rcases hf.kind with ⟨_, h1, _⟩ | ⟨⟨p, n, hn, rfl⟩, h1⟩
    · exact h1
    · rcases h1 with ⟨h1, _⟩ | ⟨h1 | h1, _⟩ | ⟨h1, _⟩ <;> rw [h1] <;> simp [Flow.dynamic]
  · intro k hk
    rw [hf.count]
    rcases hf.kind with ⟨_, _, h1⟩ | ⟨_, h1⟩
    · rw [h1] at hk; simp at hk
    · rcases h1 with ⟨_, h1⟩ | ⟨_, h1⟩ | ⟨_, k', h1, h2⟩
      · rw [h1] at hk; simp at hk
      · rw [h1] at hk; simp at hk
      · rw [h2] at hk; cases hk; exact h1
  · rcases hf.kind with ⟨h1, h2, h3⟩ | ⟨⟨p, n, hn, rfl⟩, h1⟩
    · obtain ⟨g1, g2, g3⟩ := static_here h1 hf.steps h2
      exact ⟨g1, g2, fun h => absurd h g3⟩
    · unfold Flow.here
      rw [hf.steps]
      rcases h1 with ⟨h1, _⟩ | ⟨h1 | h1, _⟩ | ⟨h1, k, _, hk⟩ <;> rw [h1] <;> simp [Flow.dynamic]
      exact ⟨k, hk⟩

/-- C40: from the first page of a flow with dynamic pages that can all be drawn, pressing the right
button shows them one after another, and then Approve. -/
theorem C40_visits {env : Env} {nanoS : Bool} {key : Bytes} {tr : List Obs} {d : Device}
    (h : Runs env nanoS key tr d)
    (hq : d.asks = some .confirmOutput ∨ d.asks = some .approveSigning)
    (h0 : d.screen.map (·.flow.idx) = some 0) {ps : List Page}
    (hps : d.dynPages env nanoS = ps.map .page) :
    0 < ps.length ∧
    (∀ k, k < ps.length → (d.rights env nanoS (k + 1)).page env nanoS = ps[k]?) ∧
    (d.rights env nanoS (ps.length + 1)).here = some .approve := by
  have key : ∀ {s q n}, d.screen = some s → FlowOk (.dynamic q n) s.flow → 0 < n →
      0 < ps.length ∧
      (∀ k, k < ps.length → (d.rights env nanoS (k + 1)).page env nanoS = ps[k]?) ∧
      (d.rights env nanoS (ps.length + 1)).here = some .approve := by
    intro s q n hs hf hn
    rw [hs] at h0
    simp only [Option.map_some, Option.some.injEq] at h0
    have hcur : s.flow.cur = none := by
      rcases hf.kind with ⟨_, _, h1⟩ | ⟨_, h1⟩
      · exact h1
      · rcases h1 with ⟨_, h1⟩ | ⟨_, h1⟩ | ⟨h1, _⟩
        · exact h1
        · exact h1
        · omega
    have hflow : s.flow = Flow.dynamic q n := by
      have e1 := hf.steps
      have e2 := hf.count
      generalize s.flow = f at e1 e2 h0 hcur
      obtain ⟨steps, idx, count, cur⟩ := f
      simp only at e1 e2 h0 hcur
      subst e1 e2 h0 hcur
      rfl
    have hlen : ps.length = n := by
      have := congrArg List.length hps
      rw [dynPages_eq hs hf] at this
      simpa [Flow.dynamic] using this.symm
    have hshow : ∀ j, j < n → ∃ p, ps[j]? = some p ∧ d.show env nanoS s.cb j = .page p := by
      intro j hj
      have := congrArg (fun l => l[j]?) hps
      rw [dynPages_eq hs hf] at this
      simp only [Flow.dynamic, List.getElem?_map, List.getElem?_range hj, Option.map_some] at this
      rw [List.getElem?_eq_getElem (by omega : j < ps.length)] at this ⊢
      simp only [Option.map_some, Option.some.injEq] at this
      exact ⟨_, rfl, this⟩
    refine ⟨by omega, ?_, ?_⟩
    · intro k hk
      rw [walk hs hflow k (by omega) (fun j hj => by
        obtain ⟨p, _, h2⟩ := hshow j (by omega); exact ⟨p, h2⟩)]
      obtain ⟨p, h1, h2⟩ := hshow k (by omega)
      rw [h1]
      simp only [Device.page, Flow.here, Flow.dynamic, List.getD_cons_succ, List.getD_cons_zero,
        show_screen, h2]
    · obtain ⟨m, rfl⟩ : ∃ m, n = m + 1 := ⟨n - 1, by omega⟩
      rw [hlen, walk_approve hs hflow (fun j hj => by
        obtain ⟨p, _, h2⟩ := hshow j (by omega); exact ⟨p, h2⟩)]
      simp [Device.here, Flow.here, Flow.dynamic]
  rcases hq with hq | hq
  · obtain ⟨s, x, S, oi, o, os, D, hs, hS, hDD, hD, hc, hna, hnet, hf, _⟩ := confirmingOutput h hq
    exact key hs hf (outputScreenCount_pos _)
  · obtain ⟨s, x, S, hs, _, hx, hS, hu, hst, hpath, hf, _⟩ := confirming h hq
    exact key hs hf (txScreenCount_pos _)

/-- C40 (partial): every page about an output can be drawn, unless it is change with a path longer
than 69 characters; every page about the transaction can be drawn, unless exactly 2^63 of a token are
minted.  Missing: these two cases (`C40_negation`, `C47_negation`). -/
theorem C40_draws_partial {env : Env} (hwf : env.WF) {nanoS : Bool} {key : Bytes} {tr : List Obs}
    {d : Device} (h : Runs env nanoS key tr d) {S : SignSess} {D : TxDesc}
    (hS : (know tr).sign = some S) (hD : D = describe S.log) :
    (d.asks = some .confirmOutput →
      (∀ p, (D.outputs.head?.bind (·.box.script)) = some (.change p) → (pathText p).length ≤ 69) →
      ∃ ps : List Page, d.dynPages env nanoS = ps.map .page) ∧
    (d.asks = some .approveSigning → (∀ id, D.tokOut id ≠ D.tokIn id + 2 ^ 63) →
      ∃ ps : List Page, d.dynPages env nanoS = ps.map .page) := by
  have lift : ∀ {l : List ShowRes}, (∀ r ∈ l, ∃ p, r = .page p) → ∃ ps : List Page, l = ps.map .page := by
    intro l
    induction l with
    | nil => intro _; exact ⟨[], rfl⟩
    | cons r l ih =>
      intro hl
      obtain ⟨p, rfl⟩ := hl r (by simp)
      obtain ⟨ps, rfl⟩ := ih (fun r hr => hl r (by simp [hr]))
      exact ⟨p :: ps, rfl⟩
  have toks : ∀ {α : Type} {value : Nat → α → ShowRes} {L : List (Bytes × α)},
      (∀ t ∈ L, ∀ n, ∃ p, value n t.2 = .page p) →
      ∀ r ∈ tokenListPages nanoS value L, ∃ p, r = .page p := by
    intro α value L hL r hr
    simp only [tokenListPages, List.mem_flatMap] at hr
    obtain ⟨⟨t, i⟩, h1, h2⟩ := hr
    simp only [List.mem_cons, List.not_mem_nil, or_false] at h2
    rcases h2 with rfl | rfl
    · exact ⟨_, rfl⟩
    · exact hL t (List.fst_mem_of_mem_zipIdx h1) i
  refine ⟨fun hq hc => ?_, fun hq hc => ?_⟩
  · obtain ⟨S1, o, os, a1, a2, a3, a4, a5, a6⟩ := C32_address hwf h hq
    obtain ⟨S2, D2, o2, os2, b1, rfl, b3, b4, b5⟩ := C33_partial h hq
    obtain ⟨S3, o3, os3, c1, c2, c3, c4⟩ := C33_change_partial h hq
    rw [hS] at a1 b1 c1
    cases a1; cases b1; cases c1
    rw [a2] at b3 c2
    cases b3; cases c2
    rw [hD, a2] at hc
    simp only [List.head?_cons, Option.bind_some] at hc
    have hsc : o.box.script ≠ none := by
      have := complete_done a3
      intro e; rw [BoxDesc.scriptDone, e] at this; simp at this
    cases hs : o.box.script with
    | none => exact absurd hs hsc
    | some sc =>
      have rest : (∀ p, sc ≠ .change p) → (∃ p, (d.dynPages env nanoS).head? = some (.page p)) →
          ∃ ps : List Page, d.dynPages env nanoS = ps.map .page := by
        rintro hn ⟨p, hp⟩
        obtain ⟨first, L, e1, _⟩ := b5 (by intro p e; rw [hs] at e; cases e; exact hn p rfl)
        rw [e1] at hp ⊢
        simp only [List.head?_cons, Option.some.injEq] at hp
        apply lift
        intro r hr
        simp only [List.mem_cons] at hr
        rcases hr with rfl | rfl | hr
        · exact ⟨_, hp⟩
        · exact ⟨_, rfl⟩
        · exact toks (value := amountPage) (fun t _ n => ⟨_, rfl⟩) r hr
      cases sc with
      | raw b =>
        obtain ⟨p, hp, _⟩ := a5 b hs
        exact rest (by simp) ⟨p, hp⟩
      | fee => exact rest (by simp) ⟨_, a6 hs⟩
      | change p =>
        obtain ⟨_, _, e, _⟩ := c4 p hs
        exact ⟨[_], e (hc p hs)⟩
  · obtain ⟨S1, D1, amount, fee, L, a1, rfl, a3, _, _, _, a7⟩ := C04_screen h hq
    rw [hS] at a1
    cases a1
    rw [a3]
    apply lift
    intro r hr
    simp only [List.mem_cons] at hr
    rcases hr with rfl | rfl | rfl | hr
    · exact ⟨_, rfl⟩
    · exact ⟨_, rfl⟩
    · exact ⟨_, rfl⟩
    · refine toks ?_ r hr
      intro t ht n
      obtain ⟨e1, e2⟩ := (a7 t.1 t.2).1 ht
      have := hc t.1
      rw [hD] at this
      unfold balancePage
      rw [if_neg (by omega)]
      split <;> exact ⟨_, rfl⟩

/-- C40 is false as stated: change to a path of ten components is put on screen, but the text does not
fit, and the first press of a button ends the session with an error. -/
theorem C40_negation : ∃ env nanoS key tr d sw, Env.WF env ∧ Runs env nanoS key tr d ∧
    d.asks = some .confirmOutput ∧ d.dynPages env nanoS = [.err sw] ∧
    (d.step env nanoS .right).2 = .sw sw [] ∧ (d.step env nanoS .right).1.screen = none := by
  have h := runs_boot (key := [1]) (env := toyEnv) (nanoS := true)
    (demoOpen ++ demoChangeTx ([10, 0x80, 0, 0, 44, 0x80, 0, 1, 0xAD, 0x80, 0, 0, 0, 0, 0, 0, 0] ++
      (List.replicate 6 [0x7f, 0xff, 0xff, 0xff]).flatten)) (by decide +kernel)
  generalize hw : (Device.boot [1]).watch toyEnv true []
    (demoOpen ++ demoChangeTx ([10, 0x80, 0, 0, 44, 0x80, 0, 1, 0xAD, 0x80, 0, 0, 0, 0, 0, 0, 0] ++
      (List.replicate 6 [0x7f, 0xff, 0xff, 0xff]).flatten)) = w at h
  exact ⟨toyEnv, true, [1], w.1, w.2, 0xE101, toyEnv_wf, h, by subst hw; decide +kernel,
    by subst hw; decide +kernel, by subst hw; decide +kernel, by subst hw; decide +kernel⟩

/-- Paging through the transaction. -/
example : (List.range 7).map (fun k => ((after (demoOpen ++ demoTokTx [0, 0, 0, 0, 0, 0, 0, 4] ++
      demoTokEnd)).rights toyEnv false (k + 1)).page toyEnv false |>.map (·.title)) =
    [some .p2pkPath, some .txAmount, some .txFee, some (.token 1), some (.tokenValue 1),
     some (.token 2), some (.tokenValue 2)] ∧
    (after (demoOpen ++ demoTokTx [0, 0, 0, 0, 0, 0, 0, 4] ++ demoTokEnd)).screen.map
      (fun s => (s.flow.idx, s.flow.steps.length)) = some (0, 6) := by
  decide +kernel

end Ergo
