import Verif.Proof.ShownOrder
import Verif.Proof.RefPaged
/-!
# The pages of every question (C81)
-/
namespace Ergo
open Spec

/-- The pages about the transaction. -/
theorem tx_shown {env : Env} {nanoS : Bool} {key : Bytes} {tr : List Obs} {d : Device}
    (h : Runs env nanoS key tr d) (hq : d.asks = some .approveSigning) {S : SignSess}
    (hS : (know tr).sign = some S) :
    d.dynPages env nanoS = txShown nanoS (pathOf (S.start.data.drop 1)) (describe S.log) := by
  obtain ⟨s, x, S', hs, hcb, hx, hS', hu, hst, hpath, hf, hfmt, h0, hR⟩ := confirming h hq
  rw [hS] at hS'
  cases hS'
  obtain ⟨_, _, _, _, _, _, _, t, hT⟩ := hR.final hst
  obtain ⟨L, h1, h2, h3, h4⟩ := txPages (nanoS := nanoS) hT.full.amt hfmt
  have hamt : x.p.amounts.value = UInt64.ofNat ((describe S.log).sumIn -
      ((describe S.log).sumOut Script.isChange + (describe S.log).sumOut Script.isFee)) := by
    have := hT.full.amt.value
    rw [← UInt64.ofNat_toNat (x := x.p.amounts.value)]
    congr 1
    simp only at this
    omega
  have hfee : x.p.amounts.fee = UInt64.ofNat ((describe S.log).sumOut Script.isFee) := by
    rw [← hT.full.amt.fee]; simp
  have hL : L = burnedMinted (describe S.log) := by
    have htab : (grow (describe S.log).table (inIds (describe S.log))).eraseDups =
        ((describe S.log).table ++ (describe S.log).inputs.reverse.flatMap
          (fun i => i.tokens.map (fun t => t.1))).eraseDups := eraseDups_grow _ _
    have htab' : x.p.amounts.table = grow (describe S.log).table (inIds (describe S.log)) := hT.tab
    unfold burnedMinted
    rw [← htab, ← htab']
    refine listed_eq (P := fun id => (describe S.log).tokIn id ≠ (describe S.log).tokOut id) h2 ?_ ?_ h4
    · intro id b
      rw [h3]
      constructor
      · rintro ⟨rfl, hb⟩; exact ⟨rfl, by intro e; apply hb; omega⟩
      · rintro ⟨rfl, hb⟩; exact ⟨rfl, by intro e; apply hb; omega⟩
    · intro id hid
      by_contra hc
      exact hid ((hT.full.amt.tin0 id hc).trans (hT.full.amt.tout0 id hc).symm)
  unfold txShown
  rw [dynPages_eq hs hf, hcb, ← hpath, ← hamt, ← hfee, ← hL, ← h1]
  apply List.map_congr_left
  intro k _
  simp only [Device.show, hx, hu]

theorem isKeyScript_drop {b k : Bytes} (h : IsKeyScript b k) : k = b.drop 3 := by
  rw [h.1]; simp

theorem isHashScript_drop {b k : Bytes} (h : IsHashScript b k) : k = (b.drop 17).take 24 := by
  rw [h.1, List.append_assoc]
  have : k.length = 24 := h.2
  rw [List.drop_left' (by rfl), ← this, List.take_left' rfl]

/-- There is only one page for a script. -/
theorem scriptPage_eq {env : Env} {n : UInt8} {b : Bytes} {p : Page} (h : ScriptPage env n b p) :
    p = scriptPage env n b := by
  unfold scriptPage
  have hlen : ∀ k h', IsKeyScript b k → IsHashScript b h' → False := by
    intro k h' hk hh
    have e1 := congrArg List.length hk.1
    have e2 := congrArg List.length hh.1
    have := hk.2.1
    have := hh.2
    simp at e1 e2
    omega
  rcases h with ⟨k, hk, rfl⟩ | ⟨h, hh, rfl⟩ | ⟨h1, h2, rfl⟩
  · have e := isKeyScript_drop hk
    subst e
    rw [if_pos hk]
  · have e := isHashScript_drop hh
    subst e
    rw [if_neg (fun hk => hlen _ _ hk hh), if_pos hh]
  · rw [if_neg (fun hk => h1 ⟨_, hk⟩), if_neg (fun hh => h2 ⟨_, hh⟩)]

/-- The pages about an output. -/
theorem out_shown {env : Env} (hwf : env.WF) {nanoS : Bool} {key : Bytes} {tr : List Obs} {d : Device}
    (h : Runs env nanoS key tr d) (hq : d.asks = some .confirmOutput) {S : SignSess}
    (hS : (know tr).sign = some S) :
    d.dynPages env nanoS = outputShown env nanoS (S.start.data.headD 0) (describe S.log) := by
  obtain ⟨s, x, S', oi, o, os, D, hs, hS', rfl, hD, hc, hna, hnet, hf, hO, hids, hrefs, hpaths, htab, hp⟩ :=
    confirmingOutput h hq
  rw [hS] at hS'
  cases hS'
  have hsc := hO.script
  have hfin : oi.finished = true := by rw [hO.finished]; exact hc
  have rest : oi.type ≠ .bip32 → d.dynPages env nanoS =
      printAddress env oi (S.start.data.headD 0) ::
      .page ⟨.outputValue, .erg (UInt64.ofNat o.box.value)⟩ ::
      tokenListPages nanoS amountPage (outTokens (describe S.log) o) := by
    intro hty
    obtain ⟨L, h1, h2, h3, h4⟩ :=
      outPages (nanoS := nanoS) (network := S.start.data.headD 0) hO hids hty
    have hL : L = outTokens (describe S.log) o := by
      unfold outTokens
      obtain ⟨e, h5, _⟩ := grow_set (inIds (describe S.log)) (describe S.log).table
      have htab' : x.p.amounts.table = (describe S.log).table ++ e := (show _ = _ from htab).trans h5
      have hmem : ∀ id, tokRefs (describe S.log).table o.box.tokens id ≠ 0 →
          id ∈ (describe S.log).table := fun id => tokRefs_table
      refine listed_eq
        (P := fun id => tokRefs (describe S.log).table o.box.tokens id ≠ 0) h2 ?_ hmem ?_
      · intro id a
        rw [h3]
        constructor
        · rintro ⟨rfl, hb⟩; exact ⟨rfl, hb⟩
        · rintro ⟨rfl, hb⟩; exact ⟨rfl, hb⟩
      · refine h4.imp_of_mem ?_
        intro a b ha hb hab
        have key : ∀ id, id ∈ L.map (·.1) → id ∈ (describe S.log).table := by
          intro id hid
          obtain ⟨⟨id', v⟩, hm, rfl⟩ := List.mem_map.1 hid
          obtain ⟨rfl, hv⟩ := (h3 _ _).1 hm
          exact hmem _ hv
        obtain ⟨i, j, g1, g2, g3⟩ := hab
        rw [htab', tableFind_left (key _ ha)] at g1
        rw [htab', tableFind_left (key _ hb)] at g2
        exact ⟨i, j, g1, g2, g3⟩
    rw [hp, h1, hL]
  unfold outputShown
  rw [hD]
  dsimp only
  cases hscr : o.box.script with
  | none =>
    exfalso
    have := complete_done hc
    simp [BoxDesc.scriptDone, hscr] at this
  | some sc =>
    cases sc with
    | change p =>
      dsimp only
      have hcp := changePages h hq hS hD hscr
      obtain ⟨S2, o2, os2, c1, c2, c3, c4⟩ := C33_change_partial h hq
      rw [hS] at c1
      cases c1
      rw [hD] at c2
      cases c2
      obtain ⟨_, _, _, e⟩ := c4 p hscr
      split
      · rename_i hn
        rw [if_pos hn] at hcp; exact hcp
      · rename_i hn
        rw [if_neg hn] at hcp
        obtain ⟨q, hcp⟩ := hcp
        rcases e with e | e
        · exact e
        · rw [hcp] at e; simp at e
    | raw b =>
      dsimp only
      have hl : b.length = o.box.treeSize := by
        have := complete_done hc
        simpa [BoxDesc.scriptDone, hscr] using this
      rw [hscr] at hsc
      simp only [ScriptRel, if_pos hl, hc] at hsc
      have hty : oi.type ≠ .bip32 := by
        rw [hsc.2.1]
        unfold rawInfo
        split
        · simp
        · split <;> simp
      obtain ⟨p, e1, e2⟩ := script_page hwf hnet hfin hsc.2.1 hsc.2.2
      rw [rest hty, e1, scriptPage_eq e2]
    | fee =>
      dsimp only
      rw [hscr] at hsc
      rw [rest (by rw [hsc.1]; simp)]
      simp only [printAddress, hfin, hsc.1]
      rfl

end Ergo
