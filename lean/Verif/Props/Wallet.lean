import Verif.Proof.Wallet
import Verif.Props.Complete
import Verif.Proof.Demo
/-!
# C54, C55: attested frames can be spent, and transactions within the limits can be signed
-/
namespace Ergo
open Spec

variable {env : Env} {nanoS : Bool} {key : Bytes}

/-- The frames of an attested box as signing commands, the first one with the size of the context
extension. -/
def Spec.AttestSess.spend (env : Env) (key : Bytes) (A : AttestSess) (e : Nat) (rnd : Rnd) :
    List SignCmd :=
  (List.range (framesFor A.box.nTokens)).map (fun i =>
    ⟨0x12, A.frame env key i ++ (if i = 0 then num 4 e else []), rnd⟩)

/-- The input that the frames of an attested box describe. -/
def Spec.AttestSess.input (env : Env) (A : AttestSess) (e : Nat) : InDesc :=
  ⟨A.boxId env, A.box.value, framesFor A.box.nTokens, framesFor A.box.nTokens, A.box.tokens, e, []⟩

/-- C54: the frames of every box attested earlier, in order, fit into a transaction exactly if the
token table is there, the sums with the box fit, one more input is expected, all inputs before are
complete, and the size of the context extension is not 1 and at most 32768; together they describe an input with the
id, the value and the tokens of the box. -/
theorem C54_exact (hwf : env.WF) {tr : List Obs} {d : Device} (h : Runs env nanoS key tr d)
    {A : AttestSess} (hA : (know tr).attest = some A) (hL : LiveAttest tr)
    (hc : A.box.complete = true) {e : Nat} (he : e < 2 ^ 32) (rnd : Rnd) (D : TxDesc) :
    (FitsAll env key D (A.spend env key e rnd) ↔
      D.table.length = D.nTok ∧ SumsFit { D with inputs := A.input env e :: D.inputs } ∧
      D.inputs.length < D.nIn ∧ (∀ i ∈ D.inputs, i.complete) ∧ e ≠ 1 ∧ e ≤ 32768) ∧
    D.after (A.spend env key e rnd) = { D with inputs := A.input env e :: D.inputs } := by
  obtain ⟨c, hw, hd, hid, hfr⟩ := attested_coin h hA hL hc
  obtain ⟨s, hs⟩ : ∃ s : Spend, s = ⟨c, List.replicate e 0⟩ := ⟨_, rfl⟩
  have hsw : s.coin.Within := by rw [hs]; exact hw
  have hse : s.ext.length = e := by rw [hs]; simp
  have hn : A.box.nTokens = s.coin.tokens.length := by rw [← hd, hs]; rfl
  obtain ⟨hlt, hpos, hall⟩ := framesFor_lt hsw
  obtain ⟨n, hn1⟩ : ∃ n, framesFor s.coin.tokens.length = n + 1 :=
    ⟨_, (Nat.succ_pred_eq_of_pos hpos).symm⟩
  have ecmd : A.spend env key e rnd = (List.range (n + 1)).map (s.frameCmd env key rnd) := by
    unfold AttestSess.spend
    rw [hn, hn1]
    refine List.map_congr_left fun i _ => ?_
    unfold Spend.frameCmd
    rw [hfr, hse, hs]
  have ein : A.input env e = s.part env (n + 1) := by
    unfold AttestSess.input Spend.part
    rw [hn, hn1, hse, List.take_of_length_le (by omega), ← hid, ← hd, hs]
    rfl
  rw [ecmd, ein]
  refine ⟨?_, frames_after hwf hsw (by omega) D rnd n (by omega)⟩
  by_cases hD : 0 < D.nIn
  · rw [frames_fit hwf hsw (by omega) hD rnd n (by omega), hse]
  · constructor
    · intro hf
      rw [List.range_succ_eq_map, List.map_cons] at hf
      exact absurd hf.2.2.1.1 hD
    · rintro ⟨_, _, g, _⟩
      omega

/-- C54: so in every signing session that is open at a later moment these frames are accepted, if they
fit, and the box is then the newest input. -/
theorem C54_served (hwf : env.WF) {tr1 tr2 : List Obs} {d : Device}
    (h : Runs env nanoS key (tr2 ++ tr1) d) {A : AttestSess} (hA : (know tr1).attest = some A)
    (hL : LiveAttest tr1) (hc : A.box.complete = true) {S : SignSess}
    (hS : (know (tr2 ++ tr1)).sign = some S) (hL2 : Live (tr2 ++ tr1)) (ha : d.asks = none)
    {e : Nat} (he : e ≤ 32768) (he1 : e ≠ 1) (rnd : Rnd)
    (ht : (describe S.log).table.length = (describe S.log).nTok)
    (hs : SumsFit { describe S.log with inputs := A.input env e :: (describe S.log).inputs })
    (hn : (describe S.log).inputs.length < (describe S.log).nIn)
    (hi : ∀ i ∈ (describe S.log).inputs, i.complete) :
    ∃ new d' L, ServedAll S.id (A.spend env key e rnd) new ∧
      Runs env nanoS key (new ++ (tr2 ++ tr1)) d' ∧
      (know (new ++ (tr2 ++ tr1))).sign = some { S with log := S.log ++ L } ∧
      Live (new ++ (tr2 ++ tr1)) ∧ d'.asks = none ∧
      (describe (S.log ++ L)).inputs = A.input env e :: (describe S.log).inputs := by
  obtain ⟨d1, h1⟩ := h.older
  obtain ⟨g1, g2⟩ := C54_exact (e := e) hwf h1 hA hL hc (by omega) rnd (describe S.log)
  obtain ⟨new, d', L, f1, f2, f3, f4, f5, f6⟩ := C50_session h hS hL2 ha _ (g1.2 ⟨ht, hs, hn, hi, he1, he⟩)
  refine ⟨new, d', L, f1, f2, f3, f4, f5, ?_⟩
  rw [g2] at f6
  exact congrArg TxDesc.inputs f6

/-- C55: from every reachable state in which nothing is asked, every box within the limits can be
attested with the documented commands and one approval; the device then sends all its frames. -/
theorem C55_coin (hwf : env.WF) {tr : List Obs} {d : Device} (h : Runs env nanoS key tr d)
    (ha : d.asks = none) {c : Coin} (hc : c.Within) (rnd : Rnd) (hid : ∃ i ∈ rnd.u8s, i ≠ 0) :
    ∃ id asked l1 l2 d',
      Approving .confirmAttest (c.request rnd).event (.sw 0x9000 [id]) l1 ∧
      AttestServed env key ⟨c.request rnd, id, asked, (know tr).app, []⟩ (c.cmds rnd) l2 ∧
      Runs env nanoS key (((List.range (framesFor c.tokens.length)).map (fun j =>
        ⟨none, none, .apdu 0xE0 0x20 0x05 id [UInt8.ofNat j] rnd,
          .sw 0x9000 (c.frame env key j)⟩)).reverse ++ (l2 ++ (l1 ++ tr))) d' ∧ d'.asks = none :=
  coin_attest hwf h ha hc rnd hid

/-- C55: from every reachable state in which nothing is asked, every transaction within the limits can
be signed: its boxes are attested one after the other, the device sends their frames, then an approved
start, the documented commands with these frames, and the approved confirmation give a Schnorr response
for the key of the path over the bytes of the transaction; the only exception is that the first 24
bytes of the hash are zero. -/
theorem C55_signed (hwf : env.WF) {tr : List Obs} {d : Device} (h : Runs env nanoS key tr d)
    (ha : d.asks = none) (t : WalletTx) (ht : t.Within env) (a : Request) (hi : a.ins = 0x21)
    (hp1 : a.p1 = 1) (hp2 : a.p2 = 1 ∨ a.p2 = 2) (hl : a.data.length ≤ 255) (hg : a.Good env)
    (hsh : a.Showable) (hid : a.IdDrawn) (rnd : Rnd) (hid2 : ∃ i ∈ rnd.u8s, i ≠ 0) :
    ∃ l0 id l1 l2 l3 r d' secret j pk w,
      (∀ s ∈ t.inputs, ∀ i, i < framesFor s.coin.tokens.length →
        SentFrame l0 (s.coin.frame env key i)) ∧
      Starting a id l1 ∧ ServedAll id (t.cmds env key rnd) l2 ∧
      Approving .approveSigning (.apdu 0xE0 0x21 0x20 id [] rnd) r l3 ∧
      Runs env nanoS key (l3 ++ l2 ++ l1 ++ (l0 ++ tr)) d' ∧ d'.asks = none ∧
      env.genPrivate a.path = some secret ∧ env.mulG secret = some pk ∧
      env.mulG (a.rnd.keys j) = some w ∧
      let c := (env.blake (commitBytes pk w ++ t.bytes env)).take 24
      (be c ≠ 0 ∧ (∃ z, r = .sw 0x9000 (c ++ z) ∧ z.length = 32 ∧
        be z = (be (a.rnd.keys j) + be c * be secret) % groupOrder) ∨
      be c = 0 ∧ r = .sw 0xE017 []) := by
  obtain ⟨l0, d1, h1, h2, h3⟩ := coins_attest hwf rnd hid2 (t.inputs.map (·.coin)) h ha (by
    intro c hc
    obtain ⟨s, hs, rfl⟩ := List.mem_map.1 hc
    exact ht.coins s hs)
  obtain ⟨f1, f2⟩ := tx_fits (key := key) hwf ht rnd
  obtain ⟨g1, g2⟩ := tx_whole ht
  obtain ⟨id, l1, l2, l3, r, d', secret, j, pk, w, k1, k2, k3, k4, k5, k6, k7, k8, k9⟩ :=
    C50_signed hwf h1 h2 a hi hp1 hp2 hl hg hid hsh (t.cmds env key rnd) f1 (by rw [f2]; exact g1) []
      (by decide) rnd
  rw [f2, g2] at k9
  exact ⟨l0, id, l1, l2, l3, r, d', secret, j, pk, w,
    fun s hs i hi => h3 s.coin (List.mem_map_of_mem hs) i hi, k1, k2, k3, k4, k5, k6, k7, k8, k9⟩

theorem live_of_no : ∀ {tr : List Obs},
    tr.all (fun o => match o.reply with | .sw c _ => c != 0x6A86 | _ => true) = true →
    Live tr ∧ LiveAttest tr
  | [], _ => ⟨trivial, trivial⟩
  | o :: tr, h => by
    rw [List.all_cons, Bool.and_eq_true] at h
    have hn : ¬ ∃ cla p2 data rnd out, o.event = .apdu cla 0x20 0x01 p2 data rnd ∧
        p2 ≠ 0 ∧ o.reply = .sw 0x6A86 out := by
      rintro ⟨_, _, _, _, _, _, _, g⟩
      have := h.1
      rw [g] at this
      simp at this
    exact ⟨.inr ⟨(live_of_no h.2).1, hn⟩, .inr ⟨(live_of_no h.2).2, hn⟩⟩

theorem tokIn_le (D : TxDesc) (id : Bytes) :
    D.tokIn id ≤ (D.inputs.map (fun i => (i.tokens.map (·.2)).sum)).sum := by
  unfold TxDesc.tokIn
  refine List.sum_le_sum fun i _ => ?_
  exact (List.filter_sublist.map _).sum_le_sum (fun _ _ => Nat.zero_le _)

/-- The box of `demoAttestTok` is spent in a later session: the hypotheses of `C54_served` hold before
its only frame is sent. -/
example : let es := demoAttestTok ++ [cmd 0x20 0x05 7 [0]] ++ demoOpen ++
      [cmd 0x21 0x10 7 [0, 1, 0, 0, 2, 0, 1],
       cmd 0x21 0x11 7 (List.replicate 32 6 ++ List.replicate 32 7)]
    ∃ tr2, seen es = tr2 ++ seen demoAttestTok ∧ Runs toyEnv false [1] (seen es) (after es) ∧
    LiveAttest (seen demoAttestTok) ∧ Live (seen es) ∧ (after es).asks = none ∧
    ∃ A S, (know (seen demoAttestTok)).attest = some A ∧ A.box.complete = true ∧
      (know (seen es)).sign = some S ∧
      (describe S.log).table.length = (describe S.log).nTok ∧
      SumsFit { describe S.log with inputs := A.input toyEnv 0 :: (describe S.log).inputs } ∧
      (describe S.log).inputs.length < (describe S.log).nIn ∧ (describe S.log).inputs = [] := by
  intro es
  refine ⟨(seen es).take 5, rfl, runs_boot _ (by decide +kernel), ?_, ?_, by decide +kernel,
    ⟨demoAttestReq, 7, true, 0, _⟩, _, rfl, by decide +kernel, rfl, by decide +kernel, ?_,
    by decide +kernel, by decide +kernel⟩
  · exact (live_of_no (by decide +kernel)).2
  · exact (live_of_no (by decide +kernel)).1
  · exact ⟨by decide +kernel, fun id => Nat.lt_of_le_of_lt (tokIn_le _ id) (by decide +kernel),
      by decide +kernel⟩

/-- Two boxes, one with tokens and registers, the other with a context extension; an output with a
token and registers, the fee, and a change output. -/
def demoWallet : WalletTx where
  inputs := [⟨⟨List.replicate 32 1, 2, 1000, demoTree, 9, [(List.replicate 32 6, 5),
      (List.replicate 32 7, 256)], [1, 2, 3]⟩, []⟩,
    ⟨⟨List.replicate 32 2, 0, 500, demoTree, 8, [(List.replicate 32 6, 1)], []⟩, [1, 2]⟩]
  dataInputs := [List.replicate 32 3]
  table := [List.replicate 32 6]
  outputs := [⟨900, .raw demoTree, 10, [(0, 6)], [1, 4]⟩, ⟨100, .fee, 10, [], []⟩,
    ⟨500, .change [0x8000002C, 0x800001AD, 0x80000000, 0, 3], 10, [], []⟩]

/-- It is within the limits. -/
example : demoWallet.Within toyEnv := by
  have hc : ∀ s ∈ demoWallet.inputs, s.coin.Within := by
    intro s hs
    simp only [demoWallet, List.mem_cons, List.not_mem_nil, or_false] at hs
    rcases hs with rfl | rfl <;>
      exact ⟨by decide +kernel, by decide +kernel, by decide +kernel, by decide +kernel,
        by decide +kernel, by decide +kernel, by decide +kernel, by decide +kernel, by decide +kernel⟩
  have ho : ∀ p ∈ demoWallet.outputs, p.Within toyEnv demoWallet.table := by
    intro p hp
    simp only [demoWallet, List.mem_cons, List.not_mem_nil, or_false] at hp
    rcases hp with rfl | rfl | rfl
    · exact ⟨by decide +kernel, by decide +kernel, by simp, by decide +kernel, by decide +kernel,
        by decide +kernel, noRepeat_of (by decide +kernel), by decide +kernel⟩
    · exact ⟨by decide +kernel, by decide +kernel, by simp, by decide +kernel, by decide +kernel,
        by decide +kernel, noRepeat_of (by decide +kernel), by decide +kernel⟩
    · refine ⟨by decide +kernel, by decide +kernel, ?_, by decide +kernel, by decide +kernel,
        by decide +kernel, noRepeat_of (by decide +kernel), by decide +kernel⟩
      rintro q hq
      injection hq with hq
      subst hq
      exact ⟨by rw [← validate_address]; decide +kernel, by decide +kernel, by decide +kernel⟩
  refine ⟨by decide +kernel, by decide +kernel, by decide +kernel, by decide +kernel, hc,
    by decide +kernel, by decide +kernel, by decide +kernel, ho, by decide +kernel, ?_,
    by decide +kernel, by decide +kernel, ?_⟩
  · intro id
    simp only [demoWallet, WalletTx.tokIn, Coin.amount, List.map_cons, List.map_nil, List.filter_cons,
      List.filter_nil]
    split_ifs <;> simp
  · intro id
    refine Nat.le_trans (m := 2 ^ 63) ?_ (Nat.le_add_left _ _)
    simp only [demoWallet, WalletTx.tokOut, tokRefs, List.map_cons, List.map_nil, List.filter_cons,
      List.filter_nil]
    split_ifs <;> simp

end Ergo
