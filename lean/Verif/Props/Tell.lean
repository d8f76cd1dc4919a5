import Verif.Spec.Tell
import Verif.Props.Display
import Verif.Props.TokenId
import Verif.Props.PathExact
import Verif.Props.Exact
import Mathlib.Data.List.GetD
/-!
# C85: what the pages of a question tell apart
-/
namespace Ergo
open Spec

theorem hexChars_fullHex : ∀ b : Bytes, hexChars b = fullHex b
  | [] => rfl
  | b :: bs => by
    have ih := hexChars_fullHex bs
    unfold hexChars at ih ⊢
    rw [List.flatMap_cons, ih]
    rfl

theorem fullHex_append (a b : Bytes) : fullHex (a ++ b) = fullHex a ++ fullHex b := by
  induction a with
  | nil => rfl
  | cons x a ih => simp [fullHex, ih]

theorem fullHex_take (b : Bytes) (n : Nat) : (fullHex b).take (2 * n) = fullHex (b.take n) := by
  induction n generalizing b with
  | zero => simp [fullHex]
  | succ n ih =>
    cases b with
    | nil => simp [fullHex]
    | cons x b => rw [show 2 * (n + 1) = 2 * n + 1 + 1 by ring]; simp [fullHex, ih]

theorem fullHex_drop (b : Bytes) (n : Nat) : (fullHex b).drop (2 * n) = fullHex (b.drop n) := by
  induction n generalizing b with
  | zero => simp
  | succ n ih =>
    cases b with
    | nil => simp [fullHex]
    | cons x b => rw [show 2 * (n + 1) = 2 * n + 1 + 1 by ring]; simp [fullHex, ih]

/-- The text of a token id determines exactly its ends. -/
theorem idText_iff (nanoS : Bool) {a b : Bytes} (ha : a.length = 32) (hb : b.length = 32) :
    idText nanoS a = idText nanoS b ↔ SameEnds nanoS a b := by
  have hla := fullHex_length a
  have hlb := fullHex_length b
  have key : idText nanoS a = idText nanoS b ↔
      (fullHex a).take (if nanoS then 7 else 26) = (fullHex b).take (if nanoS then 7 else 26) ∧
      (fullHex a).drop (64 - if nanoS then 7 else 26) =
        (fullHex b).drop (64 - if nanoS then 7 else 26) := by
    unfold idText
    simp only [hexChars_fullHex]
    constructor
    · intro h
      have l1 : ((fullHex a).take (if nanoS then 7 else 26) ++ "...".toList).length =
          ((fullHex b).take (if nanoS then 7 else 26) ++ "...".toList).length := by
        simp [hla, hlb, ha, hb]
      exact ⟨List.append_cancel_right (List.append_inj_left h l1), List.append_inj_right h l1⟩
    · rintro ⟨h1, h2⟩
      simp only [h1, h2]
  rw [key]
  unfold SameEnds
  cases nanoS with
  | false =>
    simp only [Bool.false_eq_true, if_false]
    rw [show (26 : Nat) = 2 * 13 by rfl, show 64 - 2 * 13 = 2 * 19 by rfl, fullHex_take, fullHex_take,
      fullHex_drop, fullHex_drop]
    exact ⟨fun h => ⟨fullHex_inj h.1, fullHex_inj h.2⟩, fun h => ⟨by rw [h.1], by rw [h.2]⟩⟩
  | true =>
    simp only [if_true]
    have split7 : ∀ {c : Bytes}, c.length = 32 → (fullHex c).take 7 =
        fullHex (c.take 3) ++ [hexChar ((c.getD 3 0).toNat / 16)] := by
      intro c hc
      rw [← fullHex_take, show (7 : Nat) = 2 * 3 + 1 by rfl, List.take_succ]
      congr 1
      have h3 : c.drop 3 = c.getD 3 0 :: c.drop 4 := by
        rw [List.getD_eq_getElem _ _ (by omega)]
        exact List.drop_eq_getElem_cons (by omega)
      have : (fullHex c)[2 * 3]? = ((fullHex c).drop (2 * 3))[0]? := by simp
      rw [this, fullHex_drop, h3]
      rfl
    have split57 : ∀ {c : Bytes}, c.length = 32 → (fullHex c).drop 57 =
        hexChar ((c.getD 28 0).toNat % 16) :: fullHex (c.drop 29) := by
      intro c hc
      have h3 : c.drop 28 = c.getD 28 0 :: c.drop 29 := by
        rw [List.getD_eq_getElem _ _ (by omega)]
        exact List.drop_eq_getElem_cons (by omega)
      rw [show (57 : Nat) = 2 * 28 + 1 by rfl, ← List.drop_drop, fullHex_drop, h3]
      rfl
    rw [show 64 - 7 = 57 by rfl, split7 ha, split7 hb, split57 ha, split57 hb]
    have hl : ∀ c : UInt8, c.toNat / 16 < 16 ∧ c.toNat % 16 < 16 := by
      intro c; have := c.toNat_lt; omega
    constructor
    · rintro ⟨h1, h2⟩
      obtain ⟨g1, g2⟩ := List.append_inj h1 (by simp [fullHex_length, ha, hb])
      simp only [List.cons.injEq] at g2 h2
      exact ⟨fullHex_inj g1, hexChar_inj _ (hl _).1 _ (hl _).1 g2.1,
        hexChar_inj _ (hl _).2 _ (hl _).2 h2.1, fullHex_inj h2.2⟩
    · rintro ⟨h1, h2, h3, h4⟩
      rw [h1, h2, h3, h4]
      exact ⟨rfl, rfl⟩

/-- Pages of lists of tokens are the same exactly if the lists look the same. -/
theorem tokenListPages_iff {α : Type} {nanoS : Bool} {v : Nat → α → ShowRes} : ∀ {l m : List (Bytes × α)}
    (n : Nat), (∀ t ∈ l, t.1.length = 32) → (∀ t ∈ m, t.1.length = 32) →
    (∀ n, ∀ t ∈ l, ∀ u ∈ m, v n t.2 = v n u.2 → t.2 = u.2) →
    ((l.zipIdx n).flatMap (fun t => [ShowRes.page ⟨.token t.2, .text (idText nanoS t.1.1)⟩, v t.2 t.1.2]) =
      (m.zipIdx n).flatMap (fun t => [ShowRes.page ⟨.token t.2, .text (idText nanoS t.1.1)⟩, v t.2 t.1.2]) ↔
      SameTokens nanoS l m)
  | [], [], n, _, _, _ => by simp [SameTokens]
  | [], u :: m, n, _, _, _ => by simp [SameTokens]
  | t :: l, [], n, _, _, _ => by simp [SameTokens]
  | t :: l, u :: m, n, hl, hm, hv => by
    have ih := tokenListPages_iff (l := l) (m := m) (v := v) (nanoS := nanoS) (n + 1)
      (fun t ht => hl t (by simp [ht])) (fun t ht => hm t (by simp [ht]))
      (fun n t ht u hu => hv n t (by simp [ht]) u (by simp [hu]))
    unfold SameTokens at ih ⊢
    rw [List.forall₂_cons, ← ih, ← idText_iff nanoS (hl t (by simp)) (hm u (by simp))]
    simp only [List.zipIdx_cons, List.flatMap_cons, List.cons_append, List.nil_append, List.cons.injEq,
      ShowRes.page.injEq, Page.mk.injEq, Shown.text.injEq, true_and]
    constructor
    · rintro ⟨h1, h2, h3⟩; exact ⟨⟨h1, hv n t (by simp) u (by simp) h2⟩, h3⟩
    · rintro ⟨⟨h1, h2⟩, h3⟩; exact ⟨h1, by rw [h2], h3⟩

theorem addressText_iff (env : Env) (k n m : UInt8) {c c' : Bytes} (hl : c.length = c'.length) :
    addressText env k n c = addressText env k m c' ↔ n = m ∧ c = c' := by
  constructor
  · intro h
    have := base58_inj h
    simp only [List.cons_append, List.cons.injEq] at this
    exact ⟨UInt8.add_right_inj k |>.1 this.1, List.append_inj_left this.2 hl⟩
  · rintro ⟨rfl, rfl⟩; rfl

/-- Pages of scripts are the same exactly if network and payee are. -/
theorem scriptPage_iff {env : Env} (hwf : env.WF) (n m : UInt8) (b c : Bytes) :
    scriptPage env n b = scriptPage env m c ↔ n = m ∧ payee env b = payee env c := by
  have hh : ∀ b, ((env.blake b).take 24).length = 24 := by intro b; simp [hwf.blake_len]
  unfold scriptPage payee
  by_cases h1 : IsKeyScript b (b.drop 3) <;> by_cases h2 : IsKeyScript c (c.drop 3)
  · rw [if_pos h1, if_pos h2, if_pos h1, if_pos h2]
    simp only [Page.mk.injEq, Shown.text.injEq, true_and, Payee.key.injEq]
    rw [addressText_iff env 1 n m (by rw [h1.2.1, h2.2.1])]
    refine and_congr_right (fun _ => ⟨fun h => ?_, fun h => by rw [h]⟩)
    rw [h1.1, h2.1, h]
  · rw [if_pos h1, if_neg h2, if_pos h1, if_neg h2]
    split <;> simp
  · rw [if_neg h1, if_pos h2, if_neg h1, if_pos h2]
    split <;> simp
  · rw [if_neg h1, if_neg h2, if_neg h1, if_neg h2]
    by_cases h3 : IsHashScript b ((b.drop 17).take 24) <;>
      by_cases h4 : IsHashScript c ((c.drop 17).take 24)
    · rw [if_pos h3, if_pos h4, if_pos h3, if_pos h4]
      simp only [Page.mk.injEq, Shown.text.injEq, true_and, Payee.hash.injEq]
      exact addressText_iff env 2 n m (by rw [h3.2, h4.2])
    · rw [if_pos h3, if_neg h4, if_pos h3, if_neg h4]
      simp only [Page.mk.injEq, Shown.text.injEq, true_and, Payee.hash.injEq]
      exact addressText_iff env 2 n m (by rw [h3.2, hh])
    · rw [if_neg h3, if_pos h4, if_neg h3, if_pos h4]
      simp only [Page.mk.injEq, Shown.text.injEq, true_and, Payee.hash.injEq]
      exact addressText_iff env 2 n m (by rw [h4.2, hh])
    · rw [if_neg h3, if_neg h4, if_neg h3, if_neg h4]
      simp only [Page.mk.injEq, Shown.text.injEq, true_and, Payee.hash.injEq]
      exact addressText_iff env 2 n m (by rw [hh, hh])

theorem ofNat_inj64 {a b : Nat} (ha : a < 2 ^ 64) (hb : b < 2 ^ 64) :
    UInt64.ofNat a = UInt64.ofNat b ↔ a = b := by
  constructor
  · intro h
    have := congrArg UInt64.toNat h
    rw [UInt64.toNat_ofNat', UInt64.toNat_ofNat', Nat.mod_eq_of_lt ha, Nat.mod_eq_of_lt hb] at this
    exact this
  · rintro rfl; rfl

theorem balancePage_inj {n : Nat} {a b : Int} (h : balancePage n a = balancePage n b) : a = b := by
  unfold balancePage at h
  by_cases ha : a = -2 ^ 63 <;> by_cases hb : b = -2 ^ 63
  · omega
  · rw [if_pos ha, if_neg hb] at h; simp at h
  · rw [if_neg ha, if_pos hb] at h; simp at h
  · rw [if_neg ha, if_neg hb] at h
    simp only [ShowRes.page.injEq, Page.mk.injEq, true_and] at h
    split at h <;> split at h <;> simp at h <;> omega

theorem scriptPage_title (env : Env) (n : UInt8) (b : Bytes) :
    (scriptPage env n b).title = .address ∨ (scriptPage env n b).title = .scriptHash := by
  unfold scriptPage
  split
  · exact .inl rfl
  · split <;> exact .inr rfl

theorem screen_of {d : Device} {t : Title} (h : d.asks = some t) : ∃ s, d.screen = some s := by
  cases hs : d.screen with
  | none => simp [Device.asks, hs] at h
  | some s => exact ⟨s, rfl⟩

/-- The tokens that are burned or minted have ids of 32 bytes. -/
theorem burned_len {env : Env} {nanoS : Bool} {key : Bytes} {tr : List Obs} {d : Device}
    (h : Runs env nanoS key tr d) (hq : d.asks = some .approveSigning) {S : SignSess}
    (hS : (know tr).sign = some S) : ∀ t ∈ burnedMinted (describe S.log), t.1.length = 32 := by
  obtain ⟨s, x, S', hs, hcb, hx, hS', hu, hst, hpath, hf, hfmt, h0, hR⟩ := confirming h hq
  rw [hS] at hS'
  cases hS'
  obtain ⟨_, _, _, _, _, _, _, t, hT⟩ := hR.final hst
  intro t ht
  unfold burnedMinted at ht
  obtain ⟨id, hid, rfl⟩ := List.mem_map.1 ht
  rw [List.mem_filter] at hid
  apply hT.full.amt.ids
  by_contra hc
  simp only [ne_eq, decide_eq_true_eq] at hid
  exact hid.2 ((hT.full.amt.tin0 id hc).trans (hT.full.amt.tout0 id hc).symm)

theorem allPages_dyn {env : Env} (hwf : env.WF) {nanoS : Bool} {key : Bytes} {tr : List Obs} {d : Device}
    (h : Runs env nanoS key tr d) {t : Title} (hq : d.asks = some t)
    (ht : t = .approveSigning ∨ t = .confirmOutput) :
    d.allPages env nanoS = .page ⟨t, .nothing⟩ :: d.dynPages env nanoS := by
  obtain ⟨s, hs⟩ := screen_of hq
  have hA := h.inv.asks hs
  obtain ⟨a, f0, p1, hf, p3⟩ := h.inv.asking _ hs
  unfold Device.allPages
  rw [hq] at hA
  rcases ht with rfl | rfl
  · cases hcb : s.cb <;> rw [hcb] at p3 hA <;> simp [AsksFor] at hA
    obtain ⟨q1, q2, _, x, S, _, hS, _, _, _, rfl⟩ := p3
    rw [pages_eq hs hf]
    rfl
  · cases hcb : s.cb <;> rw [hcb] at p3 hA <;> simp [AsksFor] at hA
    obtain ⟨q1, q2, q3, _, x, S, t, o, _, hS, _, _, _, rfl⟩ := p3
    rw [pages_eq hs hf]
    rfl

/-- C85: when the user is asked to sign, two devices of the same kind show the same pages exactly if the
signing paths, the amount and the fee are the same, and the burned and minted tokens are one for one the
same in amount and in the ends of their ids. -/
theorem C85_transaction {env : Env} (hwf : env.WF) {nanoS : Bool} {key1 key2 : Bytes}
    {tr1 tr2 : List Obs} {d1 d2 : Device} (h1 : Runs env nanoS key1 tr1 d1)
    (h2 : Runs env nanoS key2 tr2 d2) (hq1 : d1.asks = some .approveSigning)
    (hq2 : d2.asks = some .approveSigning) {S1 S2 : SignSess} (hS1 : (know tr1).sign = some S1)
    (hS2 : (know tr2).sign = some S2) :
    d1.allPages env nanoS = d2.allPages env nanoS ↔
      SameTx nanoS (pathOf (S1.start.data.drop 1)) (describe S1.log)
        (pathOf (S2.start.data.drop 1)) (describe S2.log) := by
  have ok1 := log_ok h1 hS1 S1.log [] (by simp)
  have ok2 := log_ok h2 hS2 S2.log [] (by simp)
  have l1 := burned_len h1 hq1 hS1
  have l2 := burned_len h2 hq2 hS2
  have v1 := ok1.sums.value
  have v2 := ok2.sums.value
  have f1 : (describe S1.log).sumOut Script.isFee < 2 ^ 64 := by have := ok1.own; omega
  have f2 : (describe S2.log).sumOut Script.isFee < 2 ^ 64 := by have := ok2.own; omega
  rw [allPages_dyn hwf h1 hq1 (.inl rfl), allPages_dyn hwf h2 hq2 (.inl rfl), tx_shown h1 hq1 hS1,
    tx_shown h2 hq2 hS2]
  unfold txShown tokenListPages SameTx
  simp only [List.cons.injEq, ShowRes.page.injEq, Page.mk.injEq, Shown.text.injEq, Shown.erg.injEq, true_and]
  rw [ofNat_inj64 (by omega) (by omega), ofNat_inj64 f1 f2,
    tokenListPages_iff (nanoS := nanoS) (v := balancePage) 1 l1 l2 (fun n t _ u _ h => balancePage_inj h)]
  exact and_congr_left (fun _ => ⟨fun h => pathText_inj h, fun h => by rw [h]⟩)

/-- C85: when the user is asked about an output, two devices of the same kind show the same pages exactly
if the outputs look the same: the same key and network, or not keys and the same 24 bytes of hash and
network; the same value; tokens one for one the same in amount and in the ends of their ids; for change the
same first 69 characters of the path. -/
theorem C85_output {env : Env} (hwf : env.WF) {nanoS : Bool} {key1 key2 : Bytes}
    {tr1 tr2 : List Obs} {d1 d2 : Device} (h1 : Runs env nanoS key1 tr1 d1)
    (h2 : Runs env nanoS key2 tr2 d2) (hq1 : d1.asks = some .confirmOutput)
    (hq2 : d2.asks = some .confirmOutput) {S1 S2 : SignSess} (hS1 : (know tr1).sign = some S1)
    (hS2 : (know tr2).sign = some S2) :
    ∃ o1 older1 o2 older2, (describe S1.log).outputs = o1 :: older1 ∧
      (describe S2.log).outputs = o2 :: older2 ∧
      (d1.allPages env nanoS = d2.allPages env nanoS ↔
        SameOutput env nanoS (S1.start.data.headD 0) (describe S1.log) o1
          (S2.start.data.headD 0) (describe S2.log) o2) := by
  have facts : ∀ {key : Bytes} {tr : List Obs} {d : Device} {S : SignSess}, Runs env nanoS key tr d →
      d.asks = some .confirmOutput → (know tr).sign = some S →
      ∃ o older s, (describe S.log).outputs = o :: older ∧ o.box.script = some s ∧ o.box.value < 2 ^ 64 ∧
        (∀ t ∈ outTokens (describe S.log) o, t.1.length = 32 ∧ t.2 < 2 ^ 64) := by
    intro key tr d S h hq hS
    have ok := log_ok h hS S.log [] (by simp)
    obtain ⟨_, _, S', _, o, os, D, _, hS', rfl, hD, hc, _⟩ := confirmingOutput h hq
    rw [hS] at hS'
    cases hS'
    have hs : ∃ s, o.box.script = some s := by
      cases hs : o.box.script with
      | none => simp [BoxDesc.complete, BoxDesc.scriptDone, hs] at hc
      | some s => exact ⟨s, rfl⟩
    obtain ⟨s, hs⟩ := hs
    refine ⟨o, os, s, hD, hs, (ok.outs o (by rw [hD]; simp)).value, ?_⟩
    intro t ht
    unfold outTokens at ht
    obtain ⟨id, hid, rfl⟩ := List.mem_map.1 ht
    rw [List.mem_filter, List.mem_eraseDups] at hid
    refine ⟨ok.table id hid.1, ?_⟩
    have a1 := ok.tokOut id
    have a2 := ok.sums.toks id
    rw [tokOut_cons o os id hD] at a1
    show tokRefs _ _ _ < _
    omega
  obtain ⟨o1, older1, s1, e1, g1, v1, t1⟩ := facts h1 hq1 hS1
  obtain ⟨o2, older2, s2, e2, g2, v2, t2⟩ := facts h2 hq2 hS2
  refine ⟨o1, older1, o2, older2, e1, e2, ?_⟩
  rw [allPages_dyn hwf h1 hq1 (.inr rfl), allPages_dyn hwf h2 hq2 (.inr rfl), out_shown hwf h1 hq1 hS1,
    out_shown hwf h2 hq2 hS2]
  have htok := tokenListPages_iff (nanoS := nanoS) (v := amountPage) 1 (fun t ht => (t1 t ht).1)
    (fun t ht => (t2 t ht).1) (fun n t ht u hu h => by
      simp only [amountPage, ShowRes.page.injEq, Page.mk.injEq, Shown.amount.injEq, true_and] at h
      exact (ofNat_inj64 (t1 t ht).2 (t2 u hu).2).1 h)
  have hval := ofNat_inj64 v1 v2
  unfold outputShown SameOutput
  rw [e1, e2]
  simp only [g1, g2, List.cons.injEq, true_and]
  cases s1 <;> cases s2 <;> dsimp only
  · rw [← htok, ← hval, ← and_assoc, ← scriptPage_iff hwf]
    simp [tokenListPages]
  · have := scriptPage_title env (S1.start.data.headD 0) ‹_›
    refine iff_of_false (fun h => ?_) id
    simp only [List.cons.injEq, ShowRes.page.injEq] at h
    rw [h.1] at this
    simp at this
  · refine iff_of_false (fun h => ?_) id
    simp at h
  · have := scriptPage_title env (S2.start.data.headD 0) ‹_›
    refine iff_of_false (fun h => ?_) id
    simp only [List.cons.injEq, ShowRes.page.injEq] at h
    rw [← h.1] at this
    simp at this
  · rw [← htok, ← hval]
    simp [tokenListPages]
  · refine iff_of_false (fun h => ?_) id
    simp at h
  · refine iff_of_false (fun h => ?_) id
    simp at h
  · refine iff_of_false (fun h => ?_) id
    simp at h
  · rename_i p q
    by_cases hp : 70 ≤ pathNeed p <;> by_cases hq : 70 ≤ pathNeed q
    · rw [if_pos hp, if_pos hq]; exact iff_of_true rfl (.inl ⟨hp, hq⟩)
    · rw [if_pos hp, if_neg hq]; simp; omega
    · rw [if_neg hp, if_pos hq]; simp; omega
    · rw [if_neg hp, if_neg hq]
      simp only [List.cons.injEq, ShowRes.page.injEq, Page.mk.injEq, Shown.text.injEq, true_and, and_true]
      constructor
      · intro h; exact .inr ⟨by omega, by omega, h⟩
      · rintro (h | h)
        · omega
        · exact h.2.2

theorem tokenPages_iff (a b : UInt32) : tokenPages a = tokenPages b ↔ a = b := by
  unfold tokenPages
  split <;> split <;> simp_all [eq_comm]

/-- C85: for the questions at the start of an operation, two devices show the same pages exactly if the
requests look the same. -/
theorem C85_request {env : Env} (hwf : env.WF) {nanoS : Bool} {key1 key2 : Bytes}
    {tr1 tr2 : List Obs} {d1 d2 : Device} (h1 : Runs env nanoS key1 tr1 d1)
    (h2 : Runs env nanoS key2 tr2 d2) {t : Title} (hq1 : d1.asks = some t) (hq2 : d2.asks = some t)
    (ht1 : t ≠ .approveSigning) (ht2 : t ≠ .confirmOutput) {a1 a2 : Request}
    (ha1 : (know tr1).pending = some a1) (ha2 : (know tr2).pending = some a2) :
    d1.allPages env nanoS = d2.allPages env nanoS ↔
      SameRequest env (know tr1) a1 (know tr2) a2 := by
  have stat : ∀ {key : Bytes} {tr : List Obs} {d : Device}, Runs env nanoS key tr d → d.asks = some t →
      d.allPages env nanoS = d.pages.map .page := by
    intro key tr d h hq
    obtain ⟨s, hs⟩ := screen_of hq
    have hA := h.inv.asks hs
    obtain ⟨a, f0, p1, hf, p3⟩ := h.inv.asking _ hs
    have hstat : f0.count = 0 → d.dynPages env nanoS = [] := by
      intro h0; rw [dynPages_eq hs hf, h0]; rfl
    unfold Device.allPages
    rw [hstat, List.append_nil]
    rw [hq] at hA
    cases hcb : s.cb <;> rw [hcb] at p3 hA
    · obtain ⟨q1, _, _, path, token, pub, chain, t, _, _, _, _, rfl, _⟩ := p3; rfl
    · obtain ⟨q1, _, _, network, rest, path, token, pub, chain, raw, t, _, _, _, _, _, _, hh⟩ := p3
      rcases hh with ⟨_, rfl, _⟩ | ⟨_, s, _, _, rfl, _⟩ <;> rfl
    · obtain ⟨q1, _, _, _, x, s, _, _, _, rfl, _⟩ := p3; rfl
    · obtain ⟨q1, q2, _, _, network, path, token, p, s, t, _, _, _, _, _, rfl, _⟩ := p3; rfl
    · simp [AsksFor] at hA; exact absurd hA ht2
    · simp [AsksFor] at hA; exact absurd hA ht1
  have inj : d1.allPages env nanoS = d2.allPages env nanoS ↔ d1.pages = d2.pages := by
    rw [stat h1 hq1, stat h2 hq2]
    exact ⟨fun h => List.map_injective_iff.2 (fun a b h => by simpa using h) h, fun h => by rw [h]⟩
  rw [inj]
  obtain ⟨c1, c2, c3, c4, c5⟩ := C16_screen h1
  obtain ⟨e1, e2, e3, e4, e5⟩ := C16_screen h2
  obtain ⟨s, hs⟩ := screen_of hq1
  have hA := h1.inv.asks hs
  rw [hq1] at hA
  unfold SameRequest
  cases hcb : s.cb <;> rw [hcb] at hA
  · have : t = .extPubKeyExport := by simpa [AsksFor] using hA
    subst this
    obtain ⟨a, b1, b2, _, b4⟩ := c1 hq1
    rw [ha1] at b1; cases b1
    obtain ⟨a, f1, f2, _, f4⟩ := e1 hq2
    rw [ha2] at f1; cases f1
    rw [b4, f4]
    simp [pathPage, tokenPages_iff, b2, f2, Request.path]
  · rcases (show some t = some .confirmSendAddress ∨ some t = some .confirmAddress from hA) with hA | hA
    · cases hA
      obtain ⟨a, b1, b2, b3, _, b4⟩ := c2 hq1
      rw [ha1] at b1; cases b1
      obtain ⟨a, f1, f2, f3, _, f4⟩ := e2 hq2
      rw [ha2] at f1; cases f1
      rw [b4, f4]
      simp [pathPage, tokenPages_iff, b2, f2, b3, f3, Request.path]
    · cases hA
      obtain ⟨a, r1, b1, b2, b3, _, b5, b4⟩ := c3 hq1
      rw [ha1] at b1; cases b1
      obtain ⟨a, r2, f1, f2, f3, _, f5, f4⟩ := e3 hq2
      rw [ha2] at f1; cases f1
      rw [b4, f4, b5, f5]
      have : base58 r1 = base58 r2 ↔ r1 = r2 := ⟨base58_inj, fun h => by rw [h]⟩
      simp [pathPage, tokenPages_iff, b2, f2, b3, f3, Request.path, this]
  · have : t = .confirmAttest := by simpa [AsksFor] using hA
    subst this
    obtain ⟨a, b1, b2, _, b4⟩ := c4 hq1
    rw [ha1] at b1; cases b1
    obtain ⟨a, f1, f2, _, f4⟩ := e4 hq2
    rw [ha2] at f1; cases f1
    rw [b4, f4]
    simp [tokenPages_iff, b2, f2]
  · have : t = .p2pkSigning := by simpa [AsksFor] using hA
    subst this
    obtain ⟨a, b1, b2, _, _, b4⟩ := c5 hq1
    rw [ha1] at b1; cases b1
    obtain ⟨a, f1, f2, _, _, f4⟩ := e5 hq2
    rw [ha2] at f1; cases f1
    rw [b4, f4]
    unfold Ghost.Knows
    by_cases k1 : a1.token ≠ 0 ∧ a1.token = (know tr1).app <;>
      by_cases k2 : a2.token ≠ 0 ∧ a2.token = (know tr2).app
    · rw [if_pos k1, if_pos k2, eq_true k1, eq_true k2]; simp [pathPage, b2, f2, Request.path]
    · rw [if_pos k1, if_neg k2, eq_true k1, eq_false k2]; simp [pathPage, b2, f2, Request.path]
    · rw [if_neg k1, if_pos k2, eq_false k1, eq_true k2]; simp [pathPage, b2, f2, Request.path]
    · rw [if_neg k1, if_neg k2, eq_false k1, eq_false k2]; simp [pathPage, b2, f2, Request.path]
  · simp [AsksFor] at hA; exact absurd hA ht2
  · simp [AsksFor] at hA; exact absurd hA ht1

/-- C85: an export of a key never looks like that of another path: account paths are shown in full. -/
theorem C85_account {env : Env} (hwf : env.WF) {nanoS : Bool} {key1 key2 : Bytes}
    {tr1 tr2 : List Obs} {d1 d2 : Device} (h1 : Runs env nanoS key1 tr1 d1)
    (h2 : Runs env nanoS key2 tr2 d2) (hq1 : d1.asks = some .extPubKeyExport)
    (hq2 : d2.asks = some .extPubKeyExport) {a1 a2 : Request}
    (ha1 : (know tr1).pending = some a1) (ha2 : (know tr2).pending = some a2)
    (hp : d1.allPages env nanoS = d2.allPages env nanoS) :
    a1.path = a2.path ∧ a1.token = a2.token := by
  have hreq := (C85_request hwf h1 h2 hq1 hq2 (by decide) (by decide) ha1 ha2).1 hp
  have full : ∀ {key : Bytes} {tr : List Obs} {d : Device} {a : Request}, Runs env nanoS key tr d →
      d.asks = some .extPubKeyExport → (know tr).pending = some a →
      a.ins = 0x10 ∧ (pathText a.path).take 59 = pathText a.path := by
    intro key tr d a h hq ha
    obtain ⟨s, hs⟩ := screen_of hq
    have hA := h.inv.asks hs
    obtain ⟨a', f0, p1, hf, p3⟩ := h.inv.asking _ hs
    rw [ha] at p1; cases p1
    rw [hq] at hA
    cases hcb : s.cb <;> rw [hcb] at p3 hA <;> simp [AsksFor] at hA
    obtain ⟨q1, _, _, path, token, pub, chain, t, q2, q6, _, q7, _, _⟩ := p3
    refine ⟨q1, ?_⟩
    have hpath : a.path = path := by
      unfold Request.path; rw [if_pos q1]; exact parsePathToken_path q2
    have e1 := C36_account path _ t (by decide) ((validate_account _).1 q6) q7
    have e2 := C36_prefix_partial path _ t (by decide) q7
    rw [hpath]
    exact e2.symm.trans e1
  obtain ⟨i1, f1⟩ := full h1 hq1 ha1
  obtain ⟨i2, f2⟩ := full h2 hq2 ha2
  refine ⟨pathText_inj ?_, hreq.2.2.1 (by rw [i1]; decide)⟩
  rw [← f1, ← f2]
  exact hreq.1 (by rw [i1]; decide)

/-! ## Examples -/

/-- A request for the address of a path of eight components, the last of which begins at the 57th
character of the text. -/
def longAddress (x : UInt8) : List Event :=
  [cmd 0x11 1 1 (0 :: 8 :: [0x80, 0, 0, 44, 0x80, 0, 1, 0xAD, 0xFF, 0xFF, 0xFF, 0xFF, 0, 0, 0, 1,
    0x7F, 0xFF, 0xFF, 0xFF, 0x7F, 0xFF, 0xFF, 0xFF, 0x7F, 0xFF, 0xFF, 0xFF, 0x7F, 0xFF, 0xFF, x])]

/-- C36 is false on the device too: requests for the addresses of two paths show the same pages. -/
theorem C36_device_negation : ∃ env nanoS key tr1 tr2 d1 d2 a1 a2, Env.WF env ∧
    Runs env nanoS key tr1 d1 ∧ Runs env nanoS key tr2 d2 ∧
    d1.asks = some .confirmSendAddress ∧ d2.asks = some .confirmSendAddress ∧
    (know tr1).pending = some a1 ∧ (know tr2).pending = some a2 ∧ a1.path ≠ a2.path ∧
    d1.allPages env nanoS = d2.allPages env nanoS := by
  have h1 : (know (seen (longAddress 1))).pending.map (fun a => (a.ins, a.p1, a.token, a.path)) =
      some (0x11, 1, 0, [0x8000002C, 0x800001AD, 0xFFFFFFFF, 1, 2147483647, 2147483647, 2147483647,
        2147483393]) := by
    decide +kernel
  have h2 : (know (seen (longAddress 2))).pending.map (fun a => (a.ins, a.p1, a.token, a.path)) =
      some (0x11, 1, 0, [0x8000002C, 0x800001AD, 0xFFFFFFFF, 1, 2147483647, 2147483647, 2147483647,
        2147483394]) := by
    decide +kernel
  obtain ⟨a1, g1, e1⟩ := Option.map_eq_some_iff.1 h1
  obtain ⟨a2, g2, e2⟩ := Option.map_eq_some_iff.1 h2
  simp only [Prod.mk.injEq] at e1 e2
  obtain ⟨i1, j1, t1, p1⟩ := e1
  obtain ⟨i2, j2, t2, p2⟩ := e2
  have r1 : Runs toyEnv false [1] (seen (longAddress 1)) (after (longAddress 1)) :=
    runs_boot (longAddress 1) (by decide +kernel)
  have r2 : Runs toyEnv false [1] (seen (longAddress 2)) (after (longAddress 2)) :=
    runs_boot (longAddress 2) (by decide +kernel)
  have q1 : (after (longAddress 1)).asks = some .confirmSendAddress := by decide +kernel
  have q2 : (after (longAddress 2)).asks = some .confirmSendAddress := by decide +kernel
  refine ⟨toyEnv, false, [1], _, _, _, _, a1, a2, toyEnv_wf, r1, r2, q1, q2, g1, g2,
    by rw [p1, p2]; decide, ?_⟩
  rw [C85_request toyEnv_wf r1 r2 q1 q2 (by decide) (by decide) g1 g2]
  refine ⟨fun _ => ?_, fun _ h => by rw [j1] at h; exact absurd h (by decide), fun _ => by rw [t1, t2],
    fun h => by rw [i1] at h; exact absurd h (by decide)⟩
  rw [p1, p2]
  have f1 := C36_prefix_partial
    [0x8000002C, 0x800001AD, 0xFFFFFFFF, 1, 2147483647, 2147483647, 2147483647, 2147483393] 60
    "44'/429'/2147483647'/1/2147483647/2147483647/2147483647/214".toList (by decide) (by decide +kernel)
  have f2 := C36_prefix_partial
    [0x8000002C, 0x800001AD, 0xFFFFFFFF, 1, 2147483647, 2147483647, 2147483647, 2147483394] 60
    "44'/429'/2147483647'/1/2147483647/2147483647/2147483647/214".toList (by decide) (by decide +kernel)
  exact f1.symm.trans f2

/-- A token id; only the byte in the middle varies. -/
def midId (x : UInt8) : Bytes := List.replicate 15 0xAB ++ [x] ++ List.replicate 16 0xCD

/-- One input of value 100 with 5 of a token; an output of 90 with 3 of it, fee 10; up to the output. -/
def midTx (x : UInt8) : List Event :=
  demoOpen ++ [cmd 0x21 0x10 7 [0, 1, 0, 0, 1, 0, 2], cmd 0x21 0x11 7 (midId x),
   cmd 0x21 0x12 7 (demoFrame 1 1 0 100 [midId x ++ [0, 0, 0, 0, 0, 0, 0, 5]] [0, 0, 0, 0]),
   cmd 0x21 0x15 7 [0, 0, 0, 0, 0, 0, 0, 90, 0, 0, 0, 36, 0, 0, 0, 1, 1, 0, 0, 0, 0],
   cmd 0x21 0x16 7 demoTree, cmd 0x21 0x19 7 [0, 0, 0, 0, 0, 0, 0, 0, 0, 0, 0, 3]]

/-- Approval of the output and the fee output, up to the last question. -/
def midEnd : List Event :=
  [.left, .left, .both, cmd 0x21 0x15 7 [0, 0, 0, 0, 0, 0, 0, 10, 0, 0, 0, 105, 0, 0, 0, 1, 0, 0, 0, 0, 0],
   cmd 0x21 0x17 7 [], cmd 0x21 0x20 7 []]

/-- C41 is false on the device too: transactions with different tokens show the same pages, at the
question for the output … -/
theorem C41_device_negation_output : ∃ env nanoS key tr1 tr2 d1 d2 S1 S2, Env.WF env ∧
    Runs env nanoS key tr1 d1 ∧ Runs env nanoS key tr2 d2 ∧
    d1.asks = some .confirmOutput ∧ d2.asks = some .confirmOutput ∧
    d1.allPages env nanoS = d2.allPages env nanoS ∧
    (know tr1).sign = some S1 ∧ (know tr2).sign = some S2 ∧
    (describe S1.log).outputs.map (outTokens (describe S1.log)) = [[(midId 1, 3)]] ∧
    (describe S2.log).outputs.map (outTokens (describe S2.log)) = [[(midId 2, 3)]] := by
  have h1 : (know (seen (midTx 1))).sign.map
      (fun S => (describe S.log).outputs.map (outTokens (describe S.log))) = some [[(midId 1, 3)]] := by
    decide +kernel
  have h2 : (know (seen (midTx 2))).sign.map
      (fun S => (describe S.log).outputs.map (outTokens (describe S.log))) = some [[(midId 2, 3)]] := by
    decide +kernel
  obtain ⟨S1, g1, e1⟩ := Option.map_eq_some_iff.1 h1
  obtain ⟨S2, g2, e2⟩ := Option.map_eq_some_iff.1 h2
  exact ⟨toyEnv, false, [1], _, _, _, _, S1, S2, toyEnv_wf, runs_boot (midTx 1) (by decide +kernel),
    runs_boot (midTx 2) (by decide +kernel), by decide +kernel, by decide +kernel, by decide +kernel,
    g1, g2, e1, e2⟩

/-- … and at the last question, where 2 of the token are burned. -/
theorem C41_device_negation_transaction : ∃ env nanoS key tr1 tr2 d1 d2 S1 S2, Env.WF env ∧
    Runs env nanoS key tr1 d1 ∧ Runs env nanoS key tr2 d2 ∧
    d1.asks = some .approveSigning ∧ d2.asks = some .approveSigning ∧
    d1.allPages env nanoS = d2.allPages env nanoS ∧
    (know tr1).sign = some S1 ∧ (know tr2).sign = some S2 ∧
    burnedMinted (describe S1.log) = [(midId 1, 2)] ∧ burnedMinted (describe S2.log) = [(midId 2, 2)] := by
  have h1 : (know (seen (midTx 1 ++ midEnd))).sign.map (fun S => burnedMinted (describe S.log)) =
      some [(midId 1, 2)] := by
    decide +kernel
  have h2 : (know (seen (midTx 2 ++ midEnd))).sign.map (fun S => burnedMinted (describe S.log)) =
      some [(midId 2, 2)] := by
    decide +kernel
  obtain ⟨S1, g1, e1⟩ := Option.map_eq_some_iff.1 h1
  obtain ⟨S2, g2, e2⟩ := Option.map_eq_some_iff.1 h2
  exact ⟨toyEnv, false, [1], _, _, _, _, S1, S2, toyEnv_wf,
    runs_boot (midTx 1 ++ midEnd) (by decide +kernel), runs_boot (midTx 2 ++ midEnd) (by decide +kernel),
    by decide +kernel, by decide +kernel, by decide +kernel, g1, g2, e1, e2⟩

/-- The relations on concrete data: ids differing in the middle look the same on the Nano X, amounts are
told apart. -/
example : SameTokens false [(midId 1, 2)] [(midId 2, 2)] ∧
    ¬ SameTokens true [(midId 1, 2)] [(midId 1, 3)] := by
  unfold SameTokens
  simp [SameEnds, midId]

end Ergo
