import Verif.Proof.AcceptDev

/-! # Exactly which outputs the user is asked about -/

namespace Ergo
open Spec

/-- Path of the change output approved last. -/
def P2pk.lastC (p : P2pk) : List UInt32 :=
  match p.u with
  | .transaction t => t.lastChange
  | _ => []

theorem withTx_lastC {p q : P2pk} {f : FullSt → FullSt × Res FullErr} (h : p.withTx f = .ok q) :
    q.lastC = p.lastC := by
  unfold P2pk.withTx at h
  split at h
  · rename_i hu
    split at h
    · simp only [OpRes.ok.injEq] at h; subst h; simp [P2pk.lastC, hu]
    · simp only [OpRes.ok.injEq] at h; subst h; simp [P2pk.lastC, hu]
    · simp at h
    · simp at h
  · simp at h

theorem withOut_lastC {p q : P2pk} {f : FullSt → FullSt × Res FullErr} {g : OutInfo → Bool → OutRes}
    (h : p.withOut f g = .ok q) : q.lastC = p.lastC := by
  unfold P2pk.withOut at h
  split at h
  · simp at h
  split at h
  · rename_i hu
    split at h
    · simp at h
    · split at h
      · simp at h
      · simp at h
      · split at h
        · simp at h
        · simp at h
        · simp only [OpRes.ok.injEq] at h; subst h; simp [P2pk.lastC, hu]
  · simp at h

theorem addInput_lastC {p q : P2pk} {b : Bytes} {v : UInt64} {n : UInt8} {e : UInt32}
    (h : p.addInput b v n e = .ok q) : q.lastC = p.lastC := by
  unfold P2pk.addInput at h
  split at h
  · simp at h
  split at h
  · rename_i p1 hw
    split at h
    · simp at h
    · simp only [OpRes.ok.injEq] at h; subst h; exact (withTx_lastC hw :)
  · rename_i hn; exact absurd h (by intro he; exact hn _ he)

theorem addInputTokens_lastC {p q : P2pk} {b : Bytes} {i : UInt8} {t : Bytes}
    (h : p.addInputTokens b i t = .ok q) : q.lastC = p.lastC := by
  unfold P2pk.addInputTokens at h
  split at h
  · simp at h
  · exact withTx_lastC h

theorem signOp_lastC {env : Env} {key : Bytes} {p q : P2pk} {sub : UInt8} {data : Bytes}
    (h : signOp env key p sub data = .ok q) (h1 : 0x10 ≤ sub) :
    q.lastC = if sub = 0x10 then [] else p.lastC := by
  by_cases e : sub = 0x10
  · subst e
    rw [if_pos rfl]
    replace h : opStart p data = .ok q := h
    unfold opStart at h
    split at h
    · simp at h
    · unfold P2pk.startTx at h
      split at h
      · simp at h
      · split at h
        · simp at h
        · simp at h
        · simp only [OpRes.ok.injEq] at h; subst h; rfl
  rw [if_neg e]
  by_cases hge : 0x16 ≤ sub
  · obtain ⟨f, g, hw⟩ := signOp_withOut hge h
    exact withOut_lastC hw
  unfold signOp at h
  rw [if_neg e] at h
  split at h
  · unfold P2pk.addTokens at h
    split at h
    · simp at h
    · exact withTx_lastC h
  split at h
  · unfold opFrame at h
    simp only at h
    split at h
    · simp at h
    split at h
    · simp at h
    split at h
    · simp at h
    split at h
    · exact addInputTokens_lastC h
    · split at h
      · rename_i p1 hw
        exact (addInputTokens_lastC h).trans (addInput_lastC hw)
      · rename_i hn; exact absurd h (by intro he; exact hn _ he)
  split at h
  · unfold P2pk.addExtension at h
    split at h
    · simp at h
    · exact withTx_lastC h
  split at h
  · unfold P2pk.addDataInputs at h
    split at h
    · simp at h
    · exact withTx_lastC h
  split at h
  · unfold opOutput at h
    split at h
    · simp at h
    · unfold P2pk.addOutput at h
      split at h
      · simp at h
      split at h
      · rename_i p1 hw
        split at h
        · rename_i t hu
          simp only [OpRes.ok.injEq] at h; subst h
          rw [← withTx_lastC hw]
          simp [P2pk.lastC, hu]
        · simp at h
      · rename_i hn; exact absurd h (by intro he; exact hn _ he)
  exfalso
  have hne : ∀ n : UInt8, 0x16 ≤ n → sub ≠ n := by
    rintro n hn rfl
    exact hge hn
  have hle : sub ≤ 0x1A := by
    rw [UInt8.le_iff_toNat_le] at hge ⊢
    have : (0x16 : UInt8).toNat ≤ (0x1A : UInt8).toNat := by decide
    omega
  exact sub_range ⟨h1, hle⟩ e (by assumption) (by assumption) (by assumption) (by assumption)
    (by assumption) (hne _ (by decide)) (hne _ (by decide)) (hne _ (by decide)) (hne _ (by decide))
    (hne _ (by decide))

/-- Commands before the parts of outputs, other than the first. -/
theorem step_grows {D : TxDesc} {data : Bytes} {sub : UInt8} (h1 : sub < 0x16) (e : ¬ sub = 0x10) :
    (D.step (.cmd sub data)).outputs = D.outputs ∨
      (D.step (.cmd sub data)).outputs = ⟨outHeader data, false⟩ :: D.outputs := by
  have hne : ∀ n : UInt8, 0x16 ≤ n → sub ≠ n := by
    intro n hn he
    subst he
    rw [UInt8.lt_iff_toNat_lt] at h1
    rw [UInt8.le_iff_toNat_le] at hn
    omega
  by_cases e1 : sub = 0x11
  · subst e1; exact .inl rfl
  by_cases e2 : sub = 0x12
  · subst e2
    left
    show (D.frame data).outputs = _
    unfold TxDesc.frame
    split
    · rfl
    · exact onInput_outputs.1
  by_cases e3 : sub = 0x13
  · subst e3; exact .inl onInput_outputs.1
  by_cases e4 : sub = 0x14
  · subst e4; exact .inl rfl
  by_cases e5 : sub = 0x15
  · subst e5; exact .inr rfl
  left
  unfold TxDesc.step
  dsimp only
  rw [if_neg e, if_neg e1, if_neg e2, if_neg e3, if_neg e4, if_neg e5, if_neg (hne _ (by decide)),
    if_neg (hne _ (by decide)), if_neg (hne _ (by decide)), if_neg (hne _ (by decide)),
    if_neg (hne _ (by decide))]

/-- The path of the newest approved output, if it is change. -/
def lastPath (l : List OutDesc) : List UInt32 :=
  match l.find? (·.approved) with
  | some o => match o.box.script with
    | some (.change q) => q
    | _ => []
  | none => []

theorem sign_last {env : Env} {nanoS : Bool} {key : Bytes} {tr : List Obs} {d : Device}
    (h : Runs env nanoS key tr d) {x : SignCtx} {S : SignSess} (hx : d.ctx = .sign x)
    (ha : x.approved = true) (hS : (know tr).sign = some S) (hq : ¬ AsksOutput d)
    (hf : x.p.state ≠ .finalized) : x.p.lastC = lastPath (describe S.log).outputs := by
  have := sign_induct (env := env) (key := key) (fun w S x => SignRel env w S x ∧
    (¬ w → x.p.state ≠ .finalized → x.p.lastC = lastPath (describe S.log).outputs))
    ?_ ?_ ?_ ?_ ?_ h x S hx ha hS
  · exact this.2 hq hf
  · intro a network path token p0 s h1 h2
    refine ⟨signRel_init a network path token p0 s h1 h2, fun _ _ => ?_⟩
    rfl
  · rintro S x sub data p ⟨hR, hl⟩ h1 h2 ho hn
    refine ⟨signRel_step S x sub data p hR h1 h2 ho hn, fun _ hfin => ?_⟩
    show p.lastC = _
    rw [signOp_lastC ho h1]
    obtain ⟨_, _, _, _, _, _, _, _, _, hP, _⟩ := hR
    have hfin' : x.p.state ≠ .finalized := (signOp_open ho).1
    simp only [describe_append]
    split
    · rename_i e; subst e; rfl
    rw [hl (by simp) hfin']
    by_cases hge : 0x16 ≤ sub
    · obtain ⟨o, os, b, hD, hD', _, hna⟩ := part_newest hP ho hge
      rw [hD, hD']
      simp [lastPath, hna]
    · have hlt : sub < 0x16 := by
        rw [UInt8.le_iff_toNat_le] at hge
        rw [UInt8.lt_iff_toNat_lt]; omega
      rcases step_grows (D := describe S.log) (data := data) hlt (by assumption) with he | he
      · rw [he]
      · rw [he]; simp [lastPath]
  · intro S x sub data p t o hP h1 h2 ho hn hu hout
    exact ⟨signRel_show S x sub data p t o hP.1 h1 h2 ho hn hu hout, fun h => absurd trivial h⟩
  · rintro S x t o last ⟨hR, hl⟩ hu hout hla
    refine ⟨signRel_approve S x t o last hR hu hout hla, fun _ hfin => ?_⟩
    obtain ⟨_, _, _, _, _, _, _, _, _, hP, _, hw⟩ := hR
    obtain ⟨hst, o1, os, hD, hc, hna, hsh⟩ := hw trivial
    obtain ⟨t', oi, o', os', hu', hoi, hD', hO, hT⟩ := hP.newest hst
    rw [hu] at hu'
    cases hu'
    rw [hout] at hoi
    cases hoi
    rw [hD] at hD'
    simp only [List.cons.injEq] at hD'
    obtain ⟨rfl, rfl⟩ := hD'
    have hstep : (describe S.log).step .approve =
        { describe S.log with outputs := { o1 with approved := true } :: os } := by
      simp only [TxDesc.step, hD]
    simp only [describe_append, hstep, P2pk.lastC, lastPath, List.find?_cons]
    rcases hla with ⟨h1, h2⟩ | ⟨h1, rfl⟩
    · obtain ⟨q, hq, hqd⟩ := hO.ofBip32 h1
      rw [h2] at hqd
      cases hqd
      rw [hq]
    · split
      · rename_i q hq
        have hs := hO.script
        rw [hq] at hs
        exact absurd hs.1 h1
      · rfl
  · rintro S x ⟨hR, hl⟩ hst
    exact ⟨signRel_confirm S x hR hst, fun _ h => absurd rfl h⟩

theorem usedCount_none {oi : OutInfo} (h : ∀ i, oi.tokens.getD i 0 = 0) : oi.usedCount = 0 := by
  unfold OutInfo.usedCount
  rw [List.countP_eq_zero]
  intro v hv
  obtain ⟨i, hi⟩ := List.mem_iff_getElem?.1 hv
  have := h i
  rw [List.getD_eq_getElem?_getD, hi] at this
  simp only [Option.getD_some] at this
  simp [this]

theorem tokRefs_none {base : List Bytes} {l : List (Nat × Nat)} (h : ∀ t ∈ l, t.2 = 0) (id : Bytes) :
    tokRefs base l id = 0 := by
  induction l with
  | nil => rfl
  | cons a l ih =>
    rw [tokRefs_cons, ih (fun t ht => h t (by simp [ht]))]
    have := h a (by simp)
    simp [this]

variable {env : Env} {h0 : Bytes} {p p' : P2pk} {D : TxDesc} {data : Bytes}

/-- Outputs that need no decision are not shown. -/
theorem shouldShow_automatic (hR : PRel env h0 p D) (hown : IsAddressPath p.path)
    (hst : p.state = .outputsStarted ∨ p.state = .txFinished) {o : OutDesc} {os : List OutDesc}
    (hD : D.outputs = o :: os) (hna : o.approved = false) (hc : o.box.complete = true)
    (hl : p.lastC = lastPath D.outputs) (h : Automatic p.path os o.box) :
    p.shouldShow = some false := by
  obtain ⟨t, oi, o', os', hu, hoi, hD', hO, hT⟩ := hR.newest hst
  rw [hD] at hD'
  simp only [List.cons.injEq] at hD'
  obtain ⟨rfl, rfl⟩ := hD'
  have hfin : oi.finished = true := by rw [hO.finished]; exact hc
  unfold P2pk.shouldShow
  rw [if_neg (by rcases hst with h | h <;> simp [h]), hu]
  simp only
  rw [hoi]
  simp only
  have hs := hO.script
  have hlc : t.lastChange = lastPath D.outputs := by
    rw [← hl]; simp [P2pk.lastC, hu]
  have hlast : t.lastChange = [] ∨ IsAddressPath t.lastChange := by
    rcases hT.change with h | ⟨o', ho', hs⟩
    · exact .inl h
    · right
      rw [← validate_address]
      exact hT.paths o' (List.mem_of_find?_eq_some ho') _ hs |>.1
  rcases h with ⟨hf, h0⟩ | ⟨q, hq, hqa, h5, hw⟩ | ⟨q, hq, hqa, h5, o', q', ho', hq', ha', h5'⟩
  · rw [hf] at hs
    unfold Ergo.shouldShow
    rw [if_neg (by simp [hfin]), hs.1]
    simp only [Option.some.injEq, decide_eq_false_iff_not]
    rw [usedCount_none]
    · simp
    · intro i
      by_cases he : ∃ id, tableFind p.amounts.table id = some i
      · obtain ⟨id, hid⟩ := he
        have := hO.toks.amt id i hid
        rw [tokRefs_none h0] at this
        rw [← UInt64.toNat_inj]; exact this
      · exact hO.toks.zero i (fun id hid => he ⟨id, hid⟩)
  · rw [hq] at hs
    exact (C34_partial p.path t.lastChange q oi hown hlast hqa hfin hs.1 hs.2.2).2 ⟨h5, .inr hw⟩
  · rw [hq] at hs
    refine (C34_partial p.path t.lastChange q oi hown hlast hqa hfin hs.1 hs.2.2).2 ⟨h5, .inl ?_⟩
    rw [hlc, hD]
    simp [lastPath, hna, ho', hq', h5']

/-- Exactly the complete outputs that need a decision are shown. -/
theorem shouldShow_iff (hR : PRel env h0 p D) (hown : IsAddressPath p.path)
    (hst : p.state = .outputsStarted ∨ p.state = .txFinished) {o : OutDesc} {os : List OutDesc}
    (hD : D.outputs = o :: os) (hna : o.approved = false) (hl : p.lastC = lastPath D.outputs) :
    p.shouldShow = some true ↔ o.box.complete = true ∧ ¬ Automatic p.path os o.box := by
  constructor
  · intro h
    obtain ⟨_, _, o', os', _, _, hD', _, _, hc, _⟩ := shouldShow_true hR h
    rw [hD] at hD'
    simp only [List.cons.injEq] at hD'
    obtain ⟨rfl, rfl⟩ := hD'
    refine ⟨hc, fun ha => ?_⟩
    rw [shouldShow_automatic hR hown hst hD hna hc hl ha] at h
    cases h
  · rintro ⟨hc, ha⟩
    cases hs : p.shouldShow with
    | none => exact absurd hs (shouldShow_some hR)
    | some b =>
      cases b with
      | true => rfl
      | false => exact absurd (shouldShow_false hR hown hst hs hD hna hc) ha

/-- In a session that goes on and when nothing is asked: an accepted part of an output makes the
device ask exactly if the output is complete and needs a decision. -/
theorem part_asks {nanoS : Bool} {key : Bytes} {tr : List Obs} {d : Device}
    (h : Runs env nanoS key tr d) {S : SignSess} (hS : (know tr).sign = some S) (hL : Live tr)
    (ha : d.asks = none) {sub : UInt8} {data : Bytes} (hl : data.length ≤ 255)
    (h1 : 0x16 ≤ sub) (h2 : sub ≤ 0x1A) (rnd : Rnd)
    (hf : Fits env key (describe S.log) sub data) :
    ∃ network path token o os, parseSignInit S.start.data (S.start.p2 = 2) = .ok (network, path, token) ∧
      (describe (S.log ++ [.cmd sub data])).outputs = o :: os ∧
      ((d.step env nanoS (.apdu 0xE0 0x21 sub S.id data rnd)).2 = .wait ∧
          o.box.complete = true ∧ ¬ Automatic path os o.box ∨
        (d.step env nanoS (.apdu 0xE0 0x21 sub S.id data rnd)).2 = .sw 0x9000 [] ∧
          ¬ (o.box.complete = true ∧ ¬ Automatic path os o.box)) := by
  have h1' : 0x10 ≤ sub := UInt8.le_trans (by decide) h1
  obtain ⟨hb, hc, hk, x, hx, hap, hid, hid0, hnf, h0, hR⟩ := ready_sign h hS hL ha
  rw [sign_step hb hc hx hap hid hid0 hl (.inl ⟨h1', h2⟩), signSub_eq hc hx hap h1' h2]
  obtain ⟨p, ho⟩ := (signOp_fits hR hnf (got_pos h hS) hl key h1' h2).2 hf
  obtain ⟨network, path, token, p0, i1, i2, i3, i4, i5, _⟩ := sign_rel h hx hap hS
  have hq : ¬ AsksOutput d := by
    rintro ⟨s, hs, _⟩
    rw [asks_none h.inv ha] at hs
    cases hs
  have hlc := sign_last h hx hap hS hq hnf
  obtain ⟨o, os, b, hD, hD', hst, hna⟩ := part_newest hR ho h1
  have hR' := signOp_rel hR ho h1' h2
  obtain ⟨k1, _, _⟩ := signOp_keeps ho
  have hne : ¬ sub = 0x10 := by rintro rfl; exact absurd h1 (by decide)
  have hlc' : p.lastC = lastPath ((describe S.log).step (.cmd sub data)).outputs := by
    rw [signOp_lastC ho h1', if_neg hne, hlc, hD, hD']
    simp [lastPath, hna]
  have hown : IsAddressPath p.path := by
    rw [k1, i3, ← validate_address]; exact (p2pkInit_ok i2).1
  have hiff := shouldShow_iff hR' hown hst hD' hna hlc'
  rw [k1, i3] at hiff
  refine ⟨network, path, token, _, os, i1, by rw [describe_append, hD'], ?_⟩
  rw [hk, ho, if_neg (by
    rw [UInt8.le_iff_toNat_le] at h1
    rw [UInt8.lt_iff_toNat_lt]; omega)]
  simp only [Device.signShow]
  cases hsh : p.shouldShow with
  | none => exact absurd hsh (shouldShow_some hR')
  | some v =>
    cases v with
    | false => exact .inr ⟨rfl, fun hh => by rw [hiff.2 hh] at hsh; cases hsh⟩
    | true =>
      obtain ⟨t, oi, _, _, hu, hout, _⟩ := shouldShow_true hR' hsh
      simp only [hu, hout]
      exact .inl ⟨trivial, hiff.1 hsh⟩

end Ergo
