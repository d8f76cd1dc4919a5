import Verif.Proof.SignSim
import Verif.Props.Change
import Verif.Spec.Shown
/-!
# A signing session follows its description
-/
namespace Ergo
open Spec

variable {env : Env} {h0 : Bytes} {p p' : P2pk} {D : TxDesc} {data : Bytes}

/-! ## Outputs that are not shown -/

theorem usedCount_zero {oi : OutInfo} (h : ¬ oi.usedCount > 0) (i : Nat) :
    oi.tokens.getD i 0 = 0 := by
  unfold OutInfo.usedCount at h
  have h' : oi.tokens.countP (· != 0) = 0 := by omega
  rw [List.countP_eq_zero] at h'
  rw [List.getD_eq_getElem?_getD]
  cases hi : oi.tokens[i]? with
  | none => rfl
  | some v =>
    have := h' v (List.mem_of_getElem? hi)
    simpa using this

theorem tokRefs_zero {base : List Bytes} {l : List (Nat × Nat)} {id : Bytes}
    (h : tokRefs base l id = 0) : ∀ t ∈ l, base[t.1]? = some id → t.2 = 0 := by
  induction l with
  | nil => simp
  | cons a l ih =>
    rw [tokRefs_cons] at h
    intro t ht
    rcases List.mem_cons.1 ht with rfl | ht
    · intro he
      rw [if_pos he] at h
      omega
    · exact ih (by omega) t ht

/-- The output on record is not shown: incomplete, or accepted automatically. -/
theorem shouldShow_false (hR : PRel env h0 p D) (hown : IsAddressPath p.path)
    (hst : p.state = .outputsStarted ∨ p.state = .txFinished) (h : p.shouldShow = some false)
    {o : OutDesc} {os : List OutDesc} (hD : D.outputs = o :: os) (hna : o.approved = false)
    (hc : o.box.complete = true) : Automatic p.path os o.box := by
  obtain ⟨t, oi, o', os', hu, hoi, hD', hO, hT⟩ := hR.newest hst
  rw [hD] at hD'
  simp only [List.cons.injEq] at hD'
  obtain ⟨rfl, rfl⟩ := hD'
  unfold P2pk.shouldShow at h
  rw [if_neg (by rcases hst with h | h <;> simp [h]), hu] at h
  simp only at h
  rw [hoi] at h
  simp only at h
  have hfin : oi.finished = true := by rw [hO.finished]; exact hc
  cases hty : oi.type with
  | minersFee =>
    left
    refine ⟨hO.ofFee hty, ?_⟩
    unfold Ergo.shouldShow at h
    rw [if_neg (by simp [hfin]), hty] at h
    simp only [Option.some.injEq, decide_eq_false_iff_not] at h
    intro r hr
    have hlt := hT.refs o (by rw [hD]; simp) r hr
    obtain ⟨id, hid⟩ : ∃ id, D.table[r.1]? = some id := ⟨_, List.getElem?_eq_getElem hlt⟩
    have hmem : id ∈ p.amounts.table := by
      have := hT.full.amt.pre
      exact this.subset (List.mem_of_getElem? hid)
    obtain ⟨i, hi⟩ := tableFind_mem hmem
    have h1 := hO.toks.amt id i hi
    rw [usedCount_zero h i] at h1
    exact tokRefs_zero h1.symm r hr hid
  | bip32 =>
    right
    obtain ⟨q, hq, hqd⟩ := hO.ofBip32 hty
    have hqa : IsAddressPath q := by
      rw [← validate_address]
      exact hT.paths o (by rw [hD]; simp) q hq |>.1
    have hlast : t.lastChange = [] ∨ IsAddressPath t.lastChange := by
      rcases hT.change with h | ⟨o', ho', hs⟩
      · exact .inl h
      · right
        rw [← validate_address]
        exact hT.paths o' (List.mem_of_find?_eq_some ho') _ hs |>.1
    obtain ⟨h5, hcase⟩ := (C34_partial p.path t.lastChange q oi hown hlast hqa hfin hty hqd).1 h
    rcases hcase with hl5 | hw
    · right
      refine ⟨q, hq, hqa, h5, ?_⟩
      rcases hT.change with h | ⟨o', ho', hs⟩
      · rw [h] at hl5; simp at hl5
      · rw [hD] at ho'
        simp only [List.find?_cons, hna] at ho'
        refine ⟨o', _, ho', hs, ?_, hl5⟩
        rcases hlast with h | h
        · rw [h] at hl5; simp at hl5
        · exact h
    · left
      exact ⟨q, hq, hqa, h5, hw⟩
  | _ =>
    unfold Ergo.shouldShow at h
    rw [if_neg (by simp [hfin]), hty] at h
    simp at h

/-! ## The session -/

theorem signOp_withOut {key : Bytes} {sub : UInt8} (h1 : 0x16 ≤ sub)
    (h : signOp env key p sub data = .ok p') : ∃ f g, p.withOut f g = .ok p' := by
  have hne : ∀ n : UInt8, n < 0x16 → sub ≠ n := by
    intro n hn he
    subst he
    rw [UInt8.lt_iff_toNat_lt] at hn
    rw [UInt8.le_iff_toNat_le] at h1
    omega
  unfold signOp at h
  rw [if_neg (hne _ (by decide)), if_neg (hne _ (by decide)), if_neg (hne _ (by decide)),
    if_neg (hne _ (by decide)), if_neg (hne _ (by decide)), if_neg (hne _ (by decide))] at h
  split at h
  · exact ⟨_, _, h⟩
  split at h
  · unfold opFee at h
    split at h
    · simp at h
    · exact ⟨_, _, h⟩
  split at h
  · unfold opChange at h
    split at h
    · simp at h
    split at h
    · simp at h
    split at h
    · simp at h
    · exact ⟨_, _, h⟩
  split at h
  · exact ⟨_, _, h⟩
  · exact ⟨_, _, h⟩

/-- What a command for a part of an output does to the list of outputs. -/
theorem step_part {sub : UInt8} {o : OutDesc} {os : List OutDesc} (h1 : 0x16 ≤ sub)
    (hD : D.outputs = o :: os) :
    ∃ b, (D.step (.cmd sub data)).outputs = { o with box := b } :: os := by
  have hne : ∀ n : UInt8, n < 0x16 → sub ≠ n := by
    intro n hn he
    subst he
    rw [UInt8.lt_iff_toNat_lt] at hn
    rw [UInt8.le_iff_toNat_le] at h1
    omega
  unfold TxDesc.step
  dsimp only
  rw [if_neg (hne _ (by decide)), if_neg (hne _ (by decide)), if_neg (hne _ (by decide)),
    if_neg (hne _ (by decide)), if_neg (hne _ (by decide)), if_neg (hne _ (by decide))]
  simp only [onOutput_cons hD]
  split
  · exact ⟨_, rfl⟩
  split
  · exact ⟨_, rfl⟩
  split
  · exact ⟨_, rfl⟩
  split
  · exact ⟨_, rfl⟩
  split
  · exact ⟨_, rfl⟩
  · exact ⟨o.box, hD⟩

/-- What the other commands do to the list of outputs. -/
theorem step_other {sub : UInt8} (h1 : sub < 0x16) :
    (D.step (.cmd sub data)).outputs = D.outputs ∨ (D.step (.cmd sub data)).outputs = [] ∨
      (D.step (.cmd sub data)).outputs = ⟨outHeader data, false⟩ :: D.outputs := by
  have hne : ∀ n : UInt8, 0x16 ≤ n → sub ≠ n := by
    intro n hn he
    subst he
    rw [UInt8.lt_iff_toNat_lt] at h1
    rw [UInt8.le_iff_toNat_le] at hn
    omega
  by_cases e : sub = 0x10
  · subst e; exact .inr (.inl rfl)
  by_cases e1 : sub = 0x11
  · subst e1; exact .inl rfl
  by_cases e2 : sub = 0x12
  · subst e2
    left
    show (D.frame data).outputs = _
    unfold TxDesc.frame
    split
    · rfl
    · exact onInput_outputs.1
  by_cases e3 : sub = 0x13
  · subst e3; exact .inl onInput_outputs.1
  by_cases e4 : sub = 0x14
  · subst e4; exact .inl rfl
  by_cases e5 : sub = 0x15
  · subst e5; exact .inr (.inr rfl)
  left
  unfold TxDesc.step
  dsimp only
  rw [if_neg e, if_neg e1, if_neg e2, if_neg e3, if_neg e4, if_neg e5, if_neg (hne _ (by decide)),
    if_neg (hne _ (by decide)), if_neg (hne _ (by decide)), if_neg (hne _ (by decide)),
    if_neg (hne _ (by decide))]

theorem header_incomplete (d : Bytes) : (outHeader d).complete = false := by
  simp [outHeader, BoxDesc.complete, BoxDesc.scriptDone]

/-- A command for a part of an output is accepted only while the output is incomplete. -/
theorem part_incomplete {key : Bytes} {sub : UInt8} {o : OutDesc} {os : List OutDesc}
    (hR : PRel env h0 p D) (h : signOp env key p sub data = .ok p') (h1 : 0x16 ≤ sub)
    (hD : D.outputs = o :: os) : o.box.complete = false := by
  have hne : ∀ n : UInt8, n < 0x16 → sub ≠ n := by
    intro n hn he
    subst he
    rw [UInt8.lt_iff_toNat_lt] at hn
    rw [UInt8.le_iff_toNat_le] at h1
    omega
  unfold signOp at h
  rw [if_neg (hne _ (by decide)), if_neg (hne _ (by decide)), if_neg (hne _ (by decide)),
    if_neg (hne _ (by decide)), if_neg (hne _ (by decide)), if_neg (hne _ (by decide))] at h
  have fin : ∀ {f : FullSt → FullSt × Res FullErr} {g : OutInfo → Bool → OutRes},
      p.withOut f g = .ok p' →
      (∀ (x x' : FullSt) (r : Res FullErr), FullRel env.keyOf h0 x D →
        OutRel env x.s.a.table D.table x.s.o o.box → f x = (x', r) → r.passes = true →
        o.box.complete = false) → o.box.complete = false := by
    intro f g hw hk
    obtain ⟨t, oi, o', os', x, r, q, hst, hu, hoi, hD', hT, hF, hO, hf, hrp, hq, hp'⟩ :=
      withOut_ok hR hw
    rw [hD] at hD'
    simp only [List.cons.injEq] at hD'
    obtain ⟨rfl, rfl⟩ := hD'
    exact hk _ x r hF hO hf hrp
  split at h
  · refine fin h ?_
    intro x x' r hF hO hf hrp
    exact not_complete (addBoxTree_full hF hD hO hf hrp).1
  split at h
  · unfold opFee at h
    split at h
    · simp at h
    · refine fin h ?_
      intro x x' r hF hO hf hrp
      exact not_complete (setScript_full (s := .fee) (bytes := minersFeeTree)
        (fun b => rfl) (by simp) feeTree_eq hF hD hO hf hrp).1
  split at h
  · unfold opChange at h
    split at h
    · simp at h
    rename_i path rest hpath
    split at h
    · simp at h
    split at h
    · simp at h
    · rename_i pub cc hpub
      refine fin h ?_
      intro x x' r hF hO hf hrp
      exact not_complete (setScript_full (s := .change path) (bytes := treeGenerateP2pk pub)
        (fun b => rfl) (by simp) (by
          simp only [scriptBytes, Env.keyOf, hpub, treeGenerateP2pk]
          rfl) hF hD hO hf hrp).1
  split at h
  · refine fin h ?_
    intro x x' r hF hO hf hrp
    exact (addBoxTokens_full hF hD hO hf hrp).1
  · refine fin h ?_
    intro x x' r hF hO hf hrp
    exact (addBoxRegisters_full hF hD hO hf hrp).1

/-- After an accepted command for a part of an output. -/
theorem part_newest {key : Bytes} {sub : UInt8} (hR : PRel env h0 p D)
    (h : signOp env key p sub data = .ok p') (h1 : 0x16 ≤ sub) :
    ∃ o os b, D.outputs = o :: os ∧
      (D.step (.cmd sub data)).outputs = { o with box := b } :: os ∧
      (p'.state = .outputsStarted ∨ p'.state = .txFinished) ∧ o.approved = false := by
  obtain ⟨f, g, hw⟩ := signOp_withOut h1 h
  obtain ⟨t, oi, o, os, x, r, q, hst, hu, hoi, hD, hT, hF, hO, hf, hrp, hq, hp'⟩ := withOut_ok hR hw
  obtain ⟨b, hb⟩ := step_part (data := data) h1 hD
  have hs' : p'.state = .outputsStarted ∨ p'.state = .txFinished := by
    rw [hp']
    simp only
    unfold P2pk.checkFinished
    split
    · exact .inr rfl
    · exact .inl hst
  refine ⟨o, os, b, hD, hb, hs', ?_⟩
  cases ha : o.approved with
  | false => rfl
  | true =>
    exfalso
    -- an approved output is complete: no command for it is accepted
    have hcomp := hT.appr o (by rw [hD]; simp) ha
    rw [part_incomplete hR h h1 hD] at hcomp
    simp at hcomp

/-- The state of a signing session against what was accepted in it; `w`: an output is on display. -/
def SignRel (env : Env) (w : Prop) (S : SignSess) (x : SignCtx) : Prop :=
  ∃ network path token p0,
    parseSignInit S.start.data (S.start.p2 = 2) = .ok (network, path, token) ∧
    p2pkInit env path network S.start.rnd.keys = .ok p0 ∧
    x.p.path = path ∧ x.p.network = network ∧ x.p.key = p0.key ∧
    PRel env p0.hash x.p (describe S.log) ∧
    (¬ w → AllShown path (describe S.log).outputs) ∧
    (w → (x.p.state = .outputsStarted ∨ x.p.state = .txFinished) ∧
      ∃ o os, (describe S.log).outputs = o :: os ∧ o.box.complete = true ∧ o.approved = false ∧
        AllShown path os)

theorem describe_append (l : List Entry) (e : Entry) : describe (l ++ [e]) = (describe l).step e := by
  simp [describe]

theorem signRel_init (a : Request) (network : UInt8) (path : List UInt32) (token : UInt32) (p0 : P2pk)
    (s : UInt8) : parseSignInit a.data (a.p2 = 2) = .ok (network, path, token) →
    p2pkInit env path network a.rnd.keys = .ok p0 →
    SignRel env False ⟨a, s, []⟩ ⟨true, s, { p0 with u := .uiApprove token }⟩ := by
  intro h1 h2
  obtain ⟨_, _, secret, h0, key, _, _, hp⟩ := p2pkInit_ok h2
  refine ⟨network, path, token, p0, h1, h2, ?_, ?_, rfl, ?_, fun _ => trivial, fun h => h.elim⟩
  · rw [hp]
  · rw [hp]
  · rw [hp]; exact ⟨rfl, rfl, rfl⟩

theorem signRel_step {key : Bytes} (S : SignSess) (x : SignCtx) (sub : UInt8) (data : Bytes) (p : P2pk) :
    SignRel env False S x → 0x10 ≤ sub → sub ≤ 0x1A → signOp env key x.p sub data = .ok p →
    (sub < 0x16 ∨ p.shouldShow = some false) →
    SignRel env False { S with log := S.log ++ [.cmd sub data] } { x with p := p } := by
  intro hP h1 h2 ho hn
  obtain ⟨network, path, token, p0, i1, i2, i3, i4, i5, hR, hsh, _⟩ := hP
  obtain ⟨k1, k2, k3⟩ := signOp_keeps ho
  have hR' := signOp_rel hR ho h1 h2
  refine ⟨network, path, token, p0, i1, i2, k1.trans i3, k3.trans i4, k2.trans i5, ?_, ?_,
    fun h => h.elim⟩
  · rw [describe_append]; exact hR'
  · intro _
    have hsh' := hsh (by simp)
    simp only [describe_append]
    by_cases hlt : sub < 0x16
    · rcases step_other (D := describe S.log) (data := data) hlt with he | he | he
      · rw [he]; exact hsh'
      · rw [he]; trivial
      · rw [he]
        refine ⟨?_, hsh'⟩
        simp only [header_incomplete]
        simp
    · have hge : 0x16 ≤ sub := by
        rw [UInt8.lt_iff_toNat_lt] at hlt
        rw [UInt8.le_iff_toNat_le]; omega
      have hn' : p.shouldShow = some false := by
        rcases hn with hn | hn
        · exact absurd hn hlt
        · exact hn
      obtain ⟨o, os, b, hD, hD', hst, hna⟩ := part_newest hR ho hge
      rw [hD']
      rw [hD] at hsh'
      refine ⟨fun hc => .inr ?_, hsh'.2⟩
      have := shouldShow_false hR' (by
        rw [k1, i3, ← validate_address]; exact (p2pkInit_ok i2).1) hst hn' hD' hna hc
      rw [k1, i3] at this
      exact this

theorem signRel_show {key : Bytes} (S : SignSess) (x : SignCtx) (sub : UInt8) (data : Bytes) (p : P2pk)
    (t : TxData) (o : OutInfo) : SignRel env False S x → 0x16 ≤ sub → sub ≤ 0x1A →
    signOp env key x.p sub data = .ok p → p.shouldShow = some true → p.u = .transaction t →
    t.out = some o →
    SignRel env True { S with log := S.log ++ [.cmd sub data] }
      { x with p := { p with u := .transaction { t with lastChange := [] } } } := by
  intro hP h1 h2 ho hn hu hout
  obtain ⟨network, path, token, p0, i1, i2, i3, i4, i5, hR, hsh, _⟩ := hP
  obtain ⟨k1, k2, k3⟩ := signOp_keeps ho
  have hR' := signOp_rel hR ho (by
    rw [UInt8.le_iff_toNat_le] at h1 ⊢
    have : (0x10 : UInt8).toNat ≤ (0x16 : UInt8).toNat := by decide
    omega) h2
  obtain ⟨t', oi, o', os', hu', _, hD', _, hT', hc, hst⟩ := shouldShow_true hR' hn
  rw [hu] at hu'
  cases hu'
  obtain ⟨o1, os1, b, hD, hD2, _, hna⟩ := part_newest hR ho h1
  rw [hD'] at hD2
  simp only [List.cons.injEq] at hD2
  obtain ⟨rfl, rfl⟩ := hD2
  have hsh' := hsh (by simp)
  rw [hD] at hsh'
  refine ⟨network, path, token, p0, i1, i2, k1.trans i3, k3.trans i4, k2.trans i5, ?_,
    fun h => absurd trivial h, fun _ => ⟨hst, ?_⟩⟩
  · rw [describe_append]
    exact prel_of (t := { t with lastChange := [] })
      (by rcases hst with h | h <;> simp [h]) (by rcases hst with h | h <;> simp [h]) rfl hT'.forget
  · rw [describe_append]
    exact ⟨_, _, hD', hc, hna, hsh'.2⟩

theorem signRel_approve (S : SignSess) (x : SignCtx) (t : TxData) (o : OutInfo) (last : List UInt32) :
    SignRel env True S x → x.p.u = .transaction t → t.out = some o →
    (o.type = .bip32 ∧ o.data = .path last ∨ o.type ≠ .bip32 ∧ last = []) →
    SignRel env False { S with log := S.log ++ [.approve] }
      { x with p := { x.p with u := .transaction { t with lastChange := last } } } := by
  intro hP hu hout hl
  obtain ⟨network, path, token, p0, i1, i2, i3, i4, i5, hR, _, hw⟩ := hP
  obtain ⟨hst, o1, os, hD, hc, hna, hsh⟩ := hw trivial
  obtain ⟨t', oi, o', os', hu', hoi, hD', hO, hT⟩ := hR.newest hst
  rw [hu] at hu'
  cases hu'
  rw [hout] at hoi
  cases hoi
  rw [hD] at hD'
  simp only [List.cons.injEq] at hD'
  obtain ⟨rfl, rfl⟩ := hD'
  have hstep : (describe S.log).step .approve =
      { describe S.log with outputs := { o1 with approved := true } :: os } := by
    simp only [TxDesc.step, hD]
  refine ⟨network, path, token, p0, i1, i2, i3, i4, i5, ?_, ?_, fun h => h.elim⟩
  · rw [describe_append, hstep]
    refine prel_of (t := { t with lastChange := last })
      (by rcases hst with h | h <;> simp [h]) (by rcases hst with h | h <;> simp [h]) rfl ?_
    refine hT.approve hD hc ?_
    rcases hl with ⟨h1, h2⟩ | ⟨_, h2⟩
    · obtain ⟨q, hq, hqd⟩ := hO.ofBip32 h1
      rw [h2] at hqd
      cases hqd
      exact .inr hq
    · exact .inl h2
  · intro _
    rw [describe_append, hstep]
    exact ⟨fun _ => .inl rfl, hsh⟩

theorem signRel_confirm (S : SignSess) (x : SignCtx) : SignRel env False S x → x.p.state = .txFinished →
    SignRel env False S { x with p := { x.p with state := .finalized, u := .uiConfirm } } := by
  intro hP hst
  obtain ⟨network, path, token, p0, i1, i2, i3, i4, i5, hR, hsh, _⟩ := hP
  refine ⟨network, path, token, p0, i1, i2, i3, i4, i5, ?_, hsh, fun h => h.elim⟩
  obtain ⟨t, hu, hT⟩ := hR.tx (by simp [hst]) (by simp [hst])
  rw [hst] at hT
  exact ⟨t, hT⟩

/-- Every signing session follows its description. -/
theorem sign_rel {env : Env} {nanoS : Bool} {key : Bytes} {tr : List Obs} {d : Device}
    (h : Runs env nanoS key tr d) {x : SignCtx} {S : SignSess} (hx : d.ctx = .sign x)
    (ha : x.approved = true) (hS : (know tr).sign = some S) : SignRel env (AsksOutput d) S x :=
  sign_induct (key := key) (SignRel env) signRel_init signRel_step signRel_show signRel_approve
    signRel_confirm h x S hx ha hS

end Ergo
