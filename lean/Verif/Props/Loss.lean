import Verif.Spec.Loss
import Verif.Proof.Loss
import Verif.Props.Pages
import Verif.Props.Sign
import Verif.Props.Session
/-!
# C74: what leaves the wallet was shown
-/
namespace Ergo
open Spec

theorem outputShown {env : Env} (hwf : env.WF) {nanoS : Bool} {key : Bytes} {tr : List Obs} {d : Device}
    (h : Runs env nanoS key tr d) (hq : d.asks = some .confirmOutput) {S : SignSess} {o : OutDesc}
    {os : List OutDesc} (hS : (know tr).sign = some S) (ho : (describe S.log).outputs = o :: os)
    (hn : ∀ p, o.box.script ≠ some (.change p)) :
    OutputShown env nanoS (S.start.data.headD 0) (describe S.log).table o.box (d.dynPages env nanoS) := by
  obtain ⟨S2, o2, os2, k1, k2, hc2, _, k3, k4⟩ := C32_address hwf h hq
  rw [hS] at k1; cases k1
  rw [ho] at k2; cases k2
  obtain ⟨s, x, S1, oi, o1, os1, D, hs, hS1, rfl, hD, hc, hna, hnet, hf, hO, hids, hrefs, hpaths, _, hp⟩ :=
    confirmingOutput h hq
  rw [hS] at hS1; cases hS1
  rw [ho] at hD; cases hD
  have hty : oi.type ≠ .bip32 := by
    intro hb
    obtain ⟨q, hq, _⟩ := hO.ofBip32 hb
    exact hn q hq
  obtain ⟨L, h1, h2, h3, _⟩ := outPages (nanoS := nanoS) (network := S.start.data.headD 0) hO hids hty
  rw [h1] at hp
  rw [hp] at k3 k4
  simp only [List.head?_cons, Option.some.injEq] at k3 k4
  have hfirst : ∃ first, printAddress env oi (S.start.data.headD 0) = .page first := by
    cases hsc : o.box.script with
    | none => simp [BoxDesc.complete, BoxDesc.scriptDone, hsc] at hc
    | some sc =>
      cases sc with
      | raw b => obtain ⟨p, e, _⟩ := k3 b hsc; exact ⟨p, e⟩
      | fee => exact ⟨_, k4 hsc⟩
      | change p => exact absurd hsc (hn p)
  obtain ⟨first, hfi⟩ := hfirst
  refine ⟨first, L, by rw [hp, hfi], ?_, ?_, ?_, h2, h3, ?_⟩
  · rw [← hO.value]; exact oi.value.toNat_lt
  · intro b hb
    obtain ⟨p, e, g⟩ := k3 b hb
    rw [hfi] at e; cases e; exact g
  · intro hb
    have e := k4 hb
    rw [hfi] at e; cases e; rfl
  · intro id a ha
    obtain ⟨rfl, hne⟩ := (h3 _ _).1 ha
    by_cases hm : id ∈ x.p.amounts.table
    · obtain ⟨i, hi⟩ := tableFind_mem hm
      rw [← hO.toks.amt _ _ hi]
      exact UInt64.toNat_lt _
    · rw [hO.toks.out0 _ hm]; omega

/-- C74: when a signature is released, every complete output of the signed transaction that does not go back
to a key of this device is a fee output without tokens, or the user approved it in this session, at a moment
(`d1`, different for different outputs) when the pages of the question said its recipient, its value and all
its token amounts. -/
theorem C74_shown {env : Env} (hwf : env.WF) (hv : env.appVersion.length ≠ 56)
    (hn : env.appName.length ≠ 56) {nanoS : Bool} {key : Bytes} {tr : List Obs} {d : Device}
    (h : Runs env nanoS key tr d) (e : Event) (hs : Signs (d.observe env nanoS e)) :
    ∃ S D, (know tr).sign = some S ∧ D = describe S.log ∧ ∀ newer o older,
      D.outputs = newer ++ o :: older → o.box.complete → (∀ p, o.box.script ≠ some (.change p)) →
      PlainFee o.box ∨
      ∃ tr2 d1 tr1 l o', tr = tr2 ++ d1.observe env nanoS .both :: tr1 ∧ Runs env nanoS key tr1 d1 ∧
        Approval (d1.observe env nanoS .both) ∧ d1.asks = some .confirmOutput ∧
        (know tr1).sign = some { S with log := l } ∧ (describe l).outputs = o' :: older ∧ o'.box = o.box ∧
        OutputShown env nanoS (S.start.data.headD 0) D.table o.box (d1.dynPages env nanoS) := by
  obtain ⟨out, hr, hl⟩ := hs
  obtain ⟨x, S, network, path, secret, k, pk, w, R⟩ := released hwf hv hn h hr hl
  refine ⟨S, _, R.sign, rfl, ?_⟩
  intro newer o older ho hc hnc
  rcases allShown_mem R.shown ho hc with ha | ha
  · right
    obtain ⟨l1, l2, o', h1, h2, h3, _⟩ := approved_at h R.sign S.log [] newer o older (by simp) ho ha
    have hF := log_fixed h R.sign l1 _ h1
    have hi : (describe l1).inputs ≠ [] := hF.outs (by rw [h2]; simp)
    have ht := (log_table h R.sign l1 hi (.approve :: l2) [] (by rw [h1]; simp)).1
    obtain ⟨tr2, d1, tr1, x', rfl, hd1, _, _, hS1, _, hap, hq⟩ := approve_accepted h R.sign h1
    refine ⟨tr2, d1, tr1, l1, o', rfl, hd1, hap, hq, hS1, h2, h3, ?_⟩
    have := outputShown hwf hd1 hq hS1 h2 (by rw [h3]; exact hnc)
    rw [h3] at this
    rw [h1, ht]
    exact this
  · rcases ha with ha | ⟨p, hp, _⟩ | ⟨p, hp, _⟩
    · exact .inl ha
    · exact absurd hp (hnc p)
    · exact absurd hp (hnc p)

theorem script_cases {o : OutDesc} (h : o.box.complete = true) :
    (∃ b, o.box.script = some (.raw b)) ∨ o.box.script = some .fee ∨ ∃ p, o.box.script = some (.change p) := by
  cases hsc : o.box.script with
  | none => simp [BoxDesc.complete, BoxDesc.scriptDone, hsc] at h
  | some s => cases s <;> simp

theorem value_split {D : TxDesc} (hc : ∀ o ∈ D.outputs, o.box.complete = true) :
    (D.outputs.map (·.box.value)).sum =
      D.sumOut Script.isOther + D.sumOut Script.isFee + D.sumOut Script.isChange := by
  unfold TxDesc.sumOut
  generalize D.outputs = L at hc
  induction L with
  | nil => rfl
  | cons o L ih =>
    simp only [List.map_cons, List.sum_cons, ih (fun o ho => hc o (List.mem_cons_of_mem _ ho))]
    rcases script_cases (hc o (List.mem_cons_self ..)) with ⟨b, e⟩ | e | ⟨p, e⟩ <;>
      simp [e, Script.isOther, Script.isFee, Script.isChange] <;> omega

theorem token_split {D : TxDesc} (hc : ∀ o ∈ D.outputs, o.box.complete = true) (id : Bytes) :
    D.tokOut id =
      D.tokOutOf Script.isOther id + D.tokOutOf Script.isFee id + D.tokOutOf Script.isChange id := by
  unfold TxDesc.tokOutOf TxDesc.tokOut
  generalize D.outputs = L at hc
  induction L with
  | nil => rfl
  | cons o L ih =>
    simp only [List.map_cons, List.sum_cons, ih (fun o ho => hc o (List.mem_cons_of_mem _ ho))]
    rcases script_cases (hc o (List.mem_cons_self ..)) with ⟨b, e⟩ | e | ⟨p, e⟩ <;>
      simp [e, Script.isOther, Script.isFee, Script.isChange] <;> omega

/-- C74: the amounts on the last screen before a signature.  If all outputs are complete and the transaction
is balanced (no other transaction is valid on the network), "Transaction Amount" is the sum of the values of
the outputs with scripts of the host, all of which the user approved (`C74_shown`); with the fee it is what the
inputs lose beyond the change; and what the inputs lose of a token beyond the change is what the outputs shown
get of it, plus the difference on the last screen (none for a token without pages there). -/
theorem C74_loss {env : Env} {nanoS : Bool} {key : Bytes} {tr : List Obs} {d : Device}
    (h : Runs env nanoS key tr d) (hq : d.asks = some .approveSigning) :
    ∃ S D amount fee L, (know tr).sign = some S ∧ D = describe S.log ∧
      d.dynPages env nanoS =
        .page ⟨.p2pkPath, .text (pathText (pathOf (S.start.data.drop 1)))⟩ ::
        .page ⟨.txAmount, .erg amount⟩ :: .page ⟨.txFee, .erg fee⟩ ::
        tokenListPages nanoS balancePage L ∧ (L.map (·.1)).Nodup ∧
      ((∀ o ∈ D.outputs, o.box.complete = true) →
        (D.Balanced → amount.toNat = D.sumOut Script.isOther ∧
          D.sumIn = amount.toNat + fee.toNat + D.sumOut Script.isChange) ∧
        ∀ id, ∃ b : Int, ((id, b) ∈ L ∨ b = 0 ∧ ∀ c, (id, c) ∉ L) ∧
          (D.tokIn id : Int) - D.tokOutOf Script.isChange id =
            D.tokOutOf Script.isOther id + D.tokOutOf Script.isFee id + b) := by
  obtain ⟨S, D, amount, fee, L, h1, h2, h3, h4, h5, h6, h7⟩ := C04_screen h hq
  refine ⟨S, D, amount, fee, L, h1, h2, h3, h6, fun hc => ⟨fun hb => ?_, fun id => ?_⟩⟩
  · have e := value_split hc
    unfold TxDesc.Balanced at hb
    omega
  · have e := token_split hc id
    refine ⟨(D.tokIn id : Int) - D.tokOut id, ?_, ?_⟩
    · by_cases hz : (D.tokIn id : Int) - D.tokOut id = 0
      · exact .inr ⟨hz, fun c hc => ((h7 _ _).1 hc).2 (((h7 _ _).1 hc).1.trans hz)⟩
      · exact .inl ((h7 _ _).2 ⟨rfl, hz⟩)
    · omega

/-- A balanced session with an output of 90 to a script and a fee of 10: the amount on the last screen is the
value of the output that was approved. -/
example : demoDesc.sumIn = 100 ∧ demoDesc.sumOut Script.isOther = 90 ∧ demoDesc.sumOut Script.isFee = 10 ∧
    demoDesc.sumIn = (demoDesc.outputs.map (·.box.value)).sum ∧
    (demoDesc.outputs.all fun o => o.box.complete) = true ∧
    ((after (demoOpen ++ demoTx ++ [cmd 0x21 0x20 7 []])).dynPages toyEnv false)[1]? = some (.page ⟨.txAmount, .erg 90⟩) := by
  decide +kernel

end Ergo
