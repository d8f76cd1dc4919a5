import Verif.Proof.WalletOut
import Verif.Props.AttestFits
/-!
# From boxes on the chain to a signature
-/
namespace Ergo
open Spec

variable {env : Env} {nanoS : Bool} {key : Bytes}

theorem Runs.older : ∀ {tr2 tr1 : List Obs} {d : Device}, Runs env nanoS key (tr2 ++ tr1) d →
    ∃ d1, Runs env nanoS key tr1 d1
  | [], _, d, h => ⟨d, h⟩
  | _ :: tr2, tr1, _, h => by
    rw [List.cons_append] at h
    cases h with
    | step e h _ _ => exact Runs.older h

theorem field_lt (d : Bytes) (off len : Nat) : field d off len < 256 ^ len := by
  unfold field
  refine Nat.lt_of_lt_of_le (be_lt _) (Nat.pow_le_pow_right (by decide) ?_)
  rw [List.length_take]; omega

/-- A described box that is complete is a box within the limits. -/
theorem coin_of_rel {tr : List Obs} {d : Device} (h : Runs env nanoS key tr d) {S : AttestSess}
    (hS : (know tr).attest = some S) (hc : S.box.complete = true) (hs : d.screen = none)
    {x : AttestCtx} (hx : d.ctx = .attest x) (hA : AttRel env S.start.data S.box x) :
    ∃ c : Coin, c.Within ∧ c.desc = S.box ∧ c.id env = S.boxId env ∧
      (∀ i, S.frame env key i = c.frame env key i) ∧ S.start.data.take 32 = c.txId ∧
      field S.start.data 32 2 = c.index := by
  obtain ⟨p1, p2, p3, p4, p5, p6, p7, p8⟩ := attest_parts S.log (attestHeader S.start.data)
    (h.attTok hs hx hS) (by simp [attestHeader])
  have hc' := hc
  simp only [BoxDesc.complete, Bool.and_eq_true, decide_eq_true_eq] at hc'
  obtain ⟨⟨c1, c2⟩, c3⟩ := hc'
  obtain ⟨b, hb, hbl⟩ : ∃ b, S.box.script = some (.raw b) ∧ b.length = S.box.treeSize := by
    unfold BoxDesc.scriptDone at c1
    cases hsc : S.box.script with
    | none => rw [hsc] at c1; cases c1
    | some s =>
      obtain ⟨b, rfl⟩ := hA.raw s hsc
      rw [hsc] at c1
      exact ⟨b, rfl, by simpa using c1⟩
  obtain ⟨c, hcd⟩ : ∃ c : Coin, c = ⟨S.start.data.take 32, field S.start.data 32 2, S.box.value, b,
    S.box.height, S.box.tokens, S.box.regs⟩ := ⟨_, rfl⟩
  have hdesc : c.desc = S.box := by
    rw [hcd]
    unfold Coin.desc
    cases hbox : S.box with
    | mk v ts hg nt rs sc tk rg =>
      rw [hbox] at hbl hb c2 c3
      simp only at hbl hb c2 c3
      simp [hbl, hb, c2, c3]
  have hid : c.id env = S.boxId env := by
    unfold AttestSess.boxId Coin.id
    congr 1
    unfold fullBoxBytes
    rw [← hdesc, hcd]
    simp [boxBytes, Coin.desc, scriptBytes, Coin.bytes]
  have hh : S.box.height < 2 ^ 32 := by
    rw [show S.box.height = _ from p3]
    exact field_lt _ _ _
  refine ⟨c, ?_, hdesc, hid, ?_, by rw [hcd], by rw [hcd]⟩
  · rw [hcd]
    refine ⟨?_, ?_, ?_, ?_, hh, ?_, ?_, hA.nodup, ?_⟩
    · show (S.start.data.take 32).length = 32
      rw [List.length_take]
      have := hA.start_len
      omega
    · exact field_lt S.start.data 32 2
    · show S.box.value < _
      rw [← hA.value]; exact x.st.c.value.toNat_lt
    · show b.length ≤ _
      rw [hbl]; exact hA.tree_le
    · show S.box.tokens.length ≤ 20
      rw [c2]; exact hA.tok_le
    · exact fun t ht => ⟨hA.idLen t ht, hA.small t ht⟩
    · show S.box.regs.length ≤ _
      rw [c3]; exact hA.regs_le
  · intro i
    unfold AttestSess.frame Coin.frame
    rw [hid, ← hdesc]
    rfl

/-- An attested box is a box within the limits. -/
theorem attested_coin {tr : List Obs} {d : Device} (h : Runs env nanoS key tr d) {S : AttestSess}
    (hS : (know tr).attest = some S) (hL : LiveAttest tr) (hc : S.box.complete = true) :
    ∃ c : Coin, c.Within ∧ c.desc = S.box ∧ c.id env = S.boxId env ∧
      ∀ i, S.frame env key i = c.frame env key i := by
  obtain ⟨_, _, hs, _, x, hx, hB, hA⟩ := ready_attest h hS hL
  obtain ⟨c, h1, h2, h3, h4, _⟩ := coin_of_rel h hS hc hs hx hA
  exact ⟨c, h1, h2, h3, h4⟩

/-- The request of a coin is as documented. -/
theorem coin_good {c : Coin} (h : c.Within) (rnd : Rnd) : (c.request rnd).Good env := by
  obtain ⟨h1, _, _, h4⟩ := coin_header h rnd
  have e1 := congrArg BoxDesc.nTokens h1
  have e2 := congrArg BoxDesc.treeSize h1
  have e3 := congrArg BoxDesc.regsSize h1
  simp only [attestHeader] at e1 e2 e3
  refine ⟨by rw [h4]; rfl, ?_, ?_, ?_⟩
  · rw [e1]; exact h.count
  · rw [e2]; exact h.tree
  · rw [e3]; exact h.regs

/-- A box within the limits can be attested. -/
theorem coin_attest (hwf : env.WF) {tr : List Obs} {d : Device} (h : Runs env nanoS key tr d)
    (ha : d.asks = none) {c : Coin} (hc : c.Within) (rnd : Rnd) (hid : ∃ i ∈ rnd.u8s, i ≠ 0) :
    ∃ id asked l1 l2 d',
      Approving .confirmAttest (c.request rnd).event (.sw 0x9000 [id]) l1 ∧
      AttestServed env key ⟨c.request rnd, id, asked, (know tr).app, []⟩ (c.cmds rnd) l2 ∧
      Runs env nanoS key (((List.range (framesFor c.tokens.length)).map (fun j =>
        ⟨none, none, .apdu 0xE0 0x20 0x05 id [UInt8.ofNat j] rnd,
          .sw 0x9000 (c.frame env key j)⟩)).reverse ++ (l2 ++ (l1 ++ tr))) d' ∧ d'.asks = none := by
  obtain ⟨f1, f2, f3⟩ := coin_fits hc rnd
  obtain ⟨id, asked, l1, l2, d', h1, h2, h3, h4⟩ := C53_whole hwf h ha (c.request rnd) rfl rfl (.inl rfl)
    (by rw [(coin_header hc rnd).2.2.2]; decide) (coin_good hc rnd) (fun _ => hid) (c.cmds rnd) f1
    (by rw [f2]; exact f3) rnd
  have hat : ¬ (c.request rnd).AtOnce (know tr).app := by
    rintro ⟨g, _⟩
    exact g rfl
  have hbox : AttestSess.box ⟨c.request rnd, id, asked, (know tr).app,
      (c.cmds rnd).map (fun c => (c.sub, c.data))⟩ = c.desc := f2
  refine ⟨id, asked, l1, l2, d', ?_, h2, ?_, h4⟩
  · rcases h1 with ⟨h1, _⟩ | ⟨_, h1⟩
    · exact absurd h1 hat
    · exact h1
  · simp only [hbox, coin_frame hc (S := ⟨c.request rnd, id, asked, (know tr).app,
      (c.cmds rnd).map (fun c => (c.sub, c.data))⟩) rfl hbox] at h3
    exact h3

/-- All boxes can be attested, one after the other. -/
theorem coins_attest (hwf : env.WF) (rnd : Rnd) (hid : ∃ i ∈ rnd.u8s, i ≠ 0) (cs : List Coin) :
    ∀ {tr : List Obs} {d : Device}, Runs env nanoS key tr d → d.asks = none →
    (∀ c ∈ cs, c.Within) →
    ∃ l d', Runs env nanoS key (l ++ tr) d' ∧ d'.asks = none ∧
      ∀ c ∈ cs, ∀ i, i < framesFor c.tokens.length → SentFrame l (c.frame env key i) := by
  induction cs with
  | nil => intro tr d h ha _; exact ⟨[], d, h, ha, by simp⟩
  | cons c cs ih =>
    intro tr d h ha hc
    obtain ⟨id, asked, l1, l2, d1, _, _, h1, h2⟩ := coin_attest hwf h ha (hc c (by simp)) rnd hid
    rw [← List.append_assoc, ← List.append_assoc] at h1
    obtain ⟨l, d2, g1, g2, g3⟩ := ih h1 h2 (fun c h => hc c (by simp [h]))
    rw [← List.append_assoc] at g1
    refine ⟨_, d2, g1, g2, ?_⟩
    intro c' hc' i hi
    rcases List.mem_cons.1 hc' with rfl | hc'
    · refine ⟨⟨none, none, .apdu 0xE0 0x20 0x05 id [UInt8.ofNat i] rnd,
        .sw 0x9000 (c'.frame env key i)⟩, ?_, ⟨_, _, _, _, rfl⟩, rfl⟩
      refine List.mem_append_right _ (List.mem_append_left _ (List.mem_append_left _ ?_))
      rw [List.mem_reverse, List.mem_map]
      exact ⟨i, List.mem_range.2 hi, rfl⟩
    · obtain ⟨o, ho, g⟩ := g3 c' hc' i hi
      exact ⟨o, List.mem_append_left _ ho, g⟩

end Ergo
