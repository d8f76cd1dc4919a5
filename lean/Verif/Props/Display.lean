import Verif.Proof.DisplayNow
import Verif.Props.Reference
import Verif.Props.Union
/-!
# C81: everything on the display is given by the table
-/
namespace Ergo
open Spec

/-- C81: in every state that can be reached, the page on the display is the one that the table gives
for what was observed before; at Approve, Reject and in the menu there is no page. -/
theorem C81_display {env : Env} (hwf : env.WF) {nanoS : Bool} {key : Bytes} {tr : List Obs} {d : Device}
    (h : Runs env nanoS key tr d) : (d.page env nanoS).map .page = display env nanoS tr :=
  display_eq hwf h

/-- C81: every reply is that of the table, without exception: this includes the replies to paging, with
the pages that cannot be shown and those where the device is undefined. -/
theorem C81_reply {env : Env} (hwf : env.WF) {nanoS : Bool} {key : Bytes} {tr : List Obs} {d : Device}
    (h : Runs env nanoS key tr d) (e : Event) :
    (d.step env nanoS e).2 = foretold env nanoS key tr e := by
  have he : ∀ e, ¬ (e = .left ∨ e = .right) → (d.step env nanoS e).2 = expected env key tr e := by
    intro e hn
    rcases C80_reply hwf h e with g | ⟨_, g, _⟩
    · exact g
    · exact absurd g hn
  cases e with
  | apdu cla ins p1 p2 data rnd => exact he _ (by simp)
  | left => exact reply_moved hwf h (.inl rfl)
  | right => exact reply_moved hwf h (.inr rfl)
  | both => exact he _ (by simp)

theorem foretold_unpaged (env : Env) (nanoS : Bool) (key : Bytes) (tr : List Obs) (e : Event) :
    foretold env nanoS key (tr.map unpaged) e = foretold env nanoS key tr e := by
  cases e <;> unfold foretold <;> dsimp only
  · exact (expected_unpaged env key tr _).2
  · rw [position_unpaged, know_unpaged]
  · rw [position_unpaged, know_unpaged]
  · exact (expected_unpaged env key tr _).2

/-- A signed transaction with two tokens: the pages of the last question, as given by the table. -/
example : (List.range 10).map (fun k => display toyEnv true (seen (demoOpen ++
      demoTokTx [0, 0, 0, 0, 0, 0, 0, 4] ++ demoTokEnd ++ List.replicate k .right))) =
    [some (.page ⟨.approveSigning, .nothing⟩), some (.page ⟨.p2pkPath, .text "44'/429'/0'/0/0".toList⟩),
     some (.page ⟨.txAmount, .erg 90⟩), some (.page ⟨.txFee, .erg 10⟩),
     some (.page ⟨.token 1, .text "AAAAAAA...AAAAAAA".toList⟩), some (.page ⟨.tokenValue 1, .burning 2⟩),
     some (.page ⟨.token 2, .text "BBBBBBB...BBBBBBB".toList⟩), some (.page ⟨.tokenValue 2, .minting 4⟩),
     none, none] := by
  decide +kernel

/-- C81: what is on the display after a sequence of events is a function of the events, the environment
and the key of the application. -/
theorem C81_run {env : Env} (hwf : env.WF) {nanoS : Bool} {key : Bytes} {tr : List Obs} {d : Device}
    (h : Runs env nanoS key tr d) :
    (d.page env nanoS).map .page = display env nanoS (foreseen env key (tr.map (·.event))) := by
  rw [← C80_run hwf h, display_eq hwf h]
  unfold display
  rw [position_unpaged, know_unpaged]

/-- C81: the table says which sequences of events have an execution: exactly those in which no event
hangs the device or makes it undefined. -/
theorem C81_defined {env : Env} (hwf : env.WF) (nanoS : Bool) (key : Bytes) (es : List Event) :
    (∃ tr d, Runs env nanoS key tr d ∧ tr.map (·.event) = es) ↔
      ∀ e es', (e :: es') <:+ es →
        foretold env nanoS key (foreseen env key es') e ≠ .hang ∧
        foretold env nanoS key (foreseen env key es') e ≠ .ub := by
  have same : ∀ {tr d} (e : Event), Runs env nanoS key tr d →
      foretold env nanoS key (foreseen env key (tr.map (·.event))) e = (d.step env nanoS e).2 := by
    intro tr d e h
    rw [← C80_run hwf h, foretold_unpaged, C81_reply hwf h]
  induction es with
  | nil =>
    refine ⟨fun _ e es' h => ?_, fun _ => ⟨[], _, .boot, rfl⟩⟩
    simp at h
  | cons e es ih =>
    constructor
    · rintro ⟨tr, d, h, he⟩
      cases h with
      | boot => simp at he
      | @step tr d e' h hh hu =>
        simp only [List.map_cons, List.cons.injEq] at he
        obtain ⟨he1, he2⟩ := he
        have he1 : e' = e := he1
        subst he1
        intro e2 es2 hsuf
        rw [List.suffix_cons_iff] at hsuf
        rcases hsuf with hsuf | hsuf
        · simp only [List.cons.injEq] at hsuf
          obtain ⟨rfl, rfl⟩ := hsuf
          rw [← he2, same _ h]
          exact ⟨hh, hu⟩
        · exact ih.1 ⟨tr, d, h, he2⟩ e2 es2 hsuf
    · intro hall
      obtain ⟨tr, d, h, he⟩ := ih.2 (fun e2 es2 hsuf => hall e2 es2 (hsuf.trans (List.suffix_cons _ _)))
      obtain ⟨g1, g2⟩ := hall e es (List.suffix_refl _)
      rw [← he, same _ h] at g1 g2
      exact ⟨_, _, .step e h g1 g2, by simp [Device.observe, he]⟩

/-! ## Where paging is undefined -/

theorem tokenPages_at {α : Type} (nanoS : Bool) (value : Nat → α → ShowRes) :
    ∀ (L : List (Bytes × α)) (m i : Nat),
    ((L.zipIdx m).flatMap (fun t =>
      [.page ⟨.token t.2, .text (idText nanoS t.1.1)⟩, value t.2 t.1.2]))[2 * i]? =
        L[i]?.map (fun t => .page ⟨.token (m + i), .text (idText nanoS t.1)⟩) ∧
    ((L.zipIdx m).flatMap (fun t =>
      [.page ⟨.token t.2, .text (idText nanoS t.1.1)⟩, value t.2 t.1.2]))[2 * i + 1]? =
        L[i]?.map (fun t => value (m + i) t.2)
  | [], m, i => by simp
  | x :: L, m, 0 => by simp [List.zipIdx_cons]
  | x :: L, m, i + 1 => by
    have ih := tokenPages_at nanoS value L (m + 1) i
    rw [List.zipIdx_cons, List.flatMap_cons]
    have e : 2 * (i + 1) = 2 * i + 1 + 1 := by omega
    rw [e]
    simp only [List.cons_append, List.nil_append, List.getElem?_cons_succ]
    rw [ih.1, ih.2, show m + 1 + i = m + (i + 1) by omega]
    exact ⟨rfl, rfl⟩

theorem balancePage_ub {n : Nat} {b : Int} : balancePage n b = .ub ↔ b = -2 ^ 63 := by
  unfold balancePage
  split
  · simp_all
  · rename_i h
    constructor
    · intro e; cases e
    · intro e; exact absurd e h

/-- The place of the only undefined page about a transaction. -/
theorem txShown_ub {nanoS : Bool} {path : List UInt32} {D : TxDesc} {p : Page} {k : Nat} :
    (ShowRes.page p :: txShown nanoS path D)[k]? = some .ub ↔
      ∃ i id, k = 5 + 2 * i ∧ (burnedMinted D)[i]? = some (id, -2 ^ 63) := by
  unfold txShown tokenListPages
  have hat := fun i => tokenPages_at nanoS balancePage (burnedMinted D) 1 i
  rcases k with _ | _ | _ | _ | k
  · simp; omega
  · simp; omega
  · simp; omega
  · simp; omega
  · simp only [List.getElem?_cons_succ]
    obtain ⟨j, hj | hj⟩ : ∃ j, k = 2 * j ∨ k = 2 * j + 1 := ⟨k / 2, by omega⟩
    · rw [hj, (hat j).1]
      constructor
      · intro h
        cases hb : (burnedMinted D)[j]? <;> rw [hb] at h <;> simp at h
      · rintro ⟨i, id, e, _⟩; omega
    · rw [hj, (hat j).2]
      constructor
      · intro h
        cases hb : (burnedMinted D)[j]? with
        | none => rw [hb] at h; simp at h
        | some t =>
          rw [hb] at h
          simp only [Option.map_some, Option.some.injEq] at h
          exact ⟨j, t.1, by omega, by rw [hb, ← balancePage_ub.1 h]⟩
      · rintro ⟨i, id, e, hi⟩
        have : i = j := by omega
        subst this
        rw [hi]
        simp only [Option.map_some, Option.some.injEq]
        exact balancePage_ub.2 rfl

/-- C81: the device is undefined exactly when the user pages to the amount of a token that is minted by
2^63; the pages before are the title, the path, amount and fee, and two for every token before it. -/
theorem C81_undefined {env : Env} (hwf : env.WF) {nanoS : Bool} {key : Bytes} {tr : List Obs} {d : Device}
    (h : Runs env nanoS key tr d) (e : Event) :
    (d.step env nanoS e).2 = .ub ↔
      ∃ S k i id, (know tr).sign = some S ∧ question tr = some .approveSigning ∧ position tr = some k ∧
        (e = .left ∧ leftOf (know tr).pagesNow k = 5 + 2 * i ∨
          e = .right ∧ rightOf (know tr).pagesNow k = 5 + 2 * i) ∧
        (burnedMinted (describe S.log))[i]? = some (id, -2 ^ 63) := by
  have hshown : ∀ {S}, (know tr).sign = some S → d.asks = some .approveSigning →
      (know tr).shownNow env nanoS = .page ⟨.approveSigning, .nothing⟩ ::
        txShown nanoS (pathOf (S.start.data.drop 1)) (describe S.log) := by
    intro S hS hq
    obtain ⟨s, x, S', hs, hcb, hx, hS', hu, hst, hpath, hf, _⟩ := confirming h hq
    rw [shownNow_eq hwf h hs, Device.allPages, tx_shown h hq hS, pages_eq hs hf]
    rfl
  have hub : ∀ o : Option ShowRes, reached o = .ub ↔ o = some .ub := by
    intro o
    cases o with
    | none => simp [reached]
    | some r => cases r <;> simp [reached]
  constructor
  · intro hr
    have hq : (e = .left ∨ e = .right) ∧ d.asks = some .approveSigning := by
      obtain ⟨g1, g2, _⟩ := C21_defined h e hr
      exact ⟨g1, g2⟩
    obtain ⟨he, hq⟩ := hq
    obtain ⟨s, x, S, hs, hcb, hx, hS, _⟩ := confirming h hq
    have hp := position_eq h
    rw [hs] at hp
    rw [reply_moved hwf h he] at hr
    refine ⟨S, s.flow.ringPos, ?_⟩
    rcases he with rfl | rfl <;> unfold foretold at hr <;> dsimp only at hr <;>
      rw [hp, hshown hS hq, hub] at hr
    · obtain ⟨i, id, e1, e2⟩ := txShown_ub.1 hr
      exact ⟨i, id, hS, (question_eq h).trans hq, hp, .inl ⟨rfl, e1⟩, e2⟩
    · obtain ⟨i, id, e1, e2⟩ := txShown_ub.1 hr
      exact ⟨i, id, hS, (question_eq h).trans hq, hp, .inr ⟨rfl, e1⟩, e2⟩
  · rintro ⟨S, k, i, id, hS, hq, hp, he, hi⟩
    rw [question_eq h] at hq
    rcases he with ⟨rfl, hk⟩ | ⟨rfl, hk⟩
    · rw [reply_moved hwf h (.inl rfl)]
      unfold foretold; dsimp only
      rw [hp, hshown hS hq, hub]
      exact txShown_ub.2 ⟨i, id, hk, hi⟩
    · rw [reply_moved hwf h (.inr rfl)]
      unfold foretold; dsimp only
      rw [hp, hshown hS hq, hub]
      exact txShown_ub.2 ⟨i, id, hk, hi⟩

/-- 2 of token A are burned and 2^63 of token B are minted: the second amount is at position 7. -/
example :
    let es := demoOpen ++ demoTokTx [0x80, 0, 0, 0, 0, 0, 0, 0] ++ demoTokEnd ++ List.replicate 6 .right
    ((after es).step toyEnv false .right).2 = .ub ∧ position (seen es) = some 6 ∧
    ((know (seen es)).sign.map (fun S => burnedMinted (describe S.log))) =
      some [(demoIdA, 2), (demoIdB, -2 ^ 63)] := by
  decide +kernel

end Ergo
