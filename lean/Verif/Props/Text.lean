import Verif.Proof.DrawDevice
import Verif.Proof.Legible
/-!
# C56: the characters in the arrays behind the screens
-/
namespace Ergo
open Spec

/-- C56: whatever the state of the device, drawing any dynamic screen of the flow on display stays
within the arrays of 20 and 70 characters, and leaves in them title and value of the page, complete
and with a terminator; a screen that cannot be drawn is refused with the status word of the page.
There is undefined behaviour only for the pages of C47. -/
theorem C56_drawn {env : Env} {nanoS : Bool} {key : Bytes} {tr : List Obs} {d : Device}
    (h : Runs env nanoS key tr d) :
    List.Forall₂ Renders (d.dynPages env nanoS) (d.dynDrawn env nanoS) := dynDrawn_renders h

/-- The arrays as C strings. -/
def shownStrings (l : List (Option Drawn)) : List (Option (String × String)) :=
  l.map (·.map fun r => (String.ofList (cstr r.title), String.ofList (cstr r.text)))

example : shownStrings ((after (demoOpen ++ demoTokTx [0, 0, 0, 0, 0, 0, 0, 4] ++
      demoTokEnd)).dynDrawn toyEnv true) =
    [some ("P2PK Path", "44'/429'/0'/0/0"), some ("Transaction Amount", "0.000000090 ERG"),
     some ("Transaction Fee", "0.000000010 ERG"),
     some ("Token [1]", "AAAAAAA...AAAAAAA"), some ("Token [1] Value", "Burning: 2"),
     some ("Token [2]", "BBBBBBB...BBBBBBB"), some ("Token [2] Value", "Minting: 4")] := by
  decide +kernel

theorem forall2_at {α β : Type} {R : α → β → Prop} {l : List α} {m : List β} (h : List.Forall₂ R l m) :
    ∀ {k : Nat} {a : α}, l[k]? = some a → ∃ b, m[k]? = some b ∧ R a b := by
  induction h with
  | nil => intro k a e; simp at e
  | cons hr _ ih =>
    intro k a e
    cases k with
    | zero => simp at e; subst e; exact ⟨_, by simp, hr⟩
    | succ k => simp at e; obtain ⟨b, h1, h2⟩ := ih e; exact ⟨b, by simpa using h1, h2⟩

theorem renders_page {p : Page} {r : Option Drawn} (h : Renders (.page p) r) :
    ∃ w, r = some w ∧ w.sw = 0x9000 ∧ Holds 20 w.title (titleText p.title) ∧
      Holds 70 w.text (shownText p.shown) := by
  cases r with
  | none => exact h.elim
  | some w => exact ⟨w, rfl, h⟩

/-- C56: when the user is asked to approve the transaction, the characters of the second and third
screen are the amounts that leave the wallet and that go to miners, in ERG with nine decimals. -/
theorem C56_amounts {env : Env} {nanoS : Bool} {key : Bytes} {tr : List Obs} {d : Device}
    (h : Runs env nanoS key tr d) (hq : d.asks = some .approveSigning) :
    ∃ S D r1 r2, (know tr).sign = some S ∧ D = describe S.log ∧
      (d.dynDrawn env nanoS)[1]? = some (some r1) ∧ (d.dynDrawn env nanoS)[2]? = some (some r2) ∧
      Holds 20 r1.title "Transaction Amount".toList ∧ Holds 20 r2.title "Transaction Fee".toList ∧
      Holds 70 r1.text (ergText (D.sumIn - D.sumOut Script.isChange - D.sumOut Script.isFee)) ∧
      Holds 70 r2.text (ergText (D.sumOut Script.isFee)) := by
  obtain ⟨S, D, amount, fee, L, h1, h2, h3, h4, h5, _⟩ := C04_screen h hq
  have hd := C56_drawn h
  rw [h3] at hd
  obtain ⟨q1, e1, g1⟩ := forall2_at hd (k := 1) rfl
  obtain ⟨q2, e2, g2⟩ := forall2_at hd (k := 2) rfl
  obtain ⟨r1, rfl, _, a1, b1⟩ := renders_page g1
  obtain ⟨r2, rfl, _, a2, b2⟩ := renders_page g2
  refine ⟨S, D, r1, r2, h1, h2, e1, e2, a1, a2, ?_, ?_⟩
  · rw [show D.sumIn - D.sumOut Script.isChange - D.sumOut Script.isFee = amount.toNat by omega]
    exact b1
  · rw [← h5]; exact b2

example : ergText 1234567890 = "1.234567890 ERG".toList ∧ ergText 5 = "0.000000005 ERG".toList ∧
    ergText (2 ^ 64 - 1) = "18446744073.709551615 ERG".toList := by decide +kernel

/-- C56: for every token whose amounts in inputs and outputs differ (other than by 2^63, see C47) one
screen has its id and the next the exact difference, as characters. -/
theorem C56_tokens {env : Env} {nanoS : Bool} {key : Bytes} {tr : List Obs} {d : Device}
    (h : Runs env nanoS key tr d) (hq : d.asks = some .approveSigning) :
    ∃ S D, (know tr).sign = some S ∧ D = describe S.log ∧
      ∀ id, D.tokIn id ≠ D.tokOut id → D.tokOut id ≠ D.tokIn id + 2 ^ 63 →
        ∃ k n r r', (d.dynDrawn env nanoS)[k]? = some (some r) ∧
          (d.dynDrawn env nanoS)[k + 1]? = some (some r') ∧
          Holds 20 r.title ("Token [".toList ++ Nat.toDigits 10 n ++ "]".toList) ∧
          Holds 70 r.text (idText nanoS id) ∧
          Holds 20 r'.title ("Token [".toList ++ Nat.toDigits 10 n ++ "] Value".toList) ∧
          Holds 70 r'.text (if D.tokIn id < D.tokOut id
            then "Minting: ".toList ++ Nat.toDigits 10 (D.tokOut id - D.tokIn id)
            else "Burning: ".toList ++ Nat.toDigits 10 (D.tokIn id - D.tokOut id)) := by
  obtain ⟨S, D, amount, fee, L, h1, h2, h3, h4, h5, h6, h7⟩ := C04_screen h hq
  refine ⟨S, D, h1, h2, fun id hne h63 => ?_⟩
  have hm : (id, (D.tokIn id : Int) - (D.tokOut id : Int)) ∈ L := (h7 _ _).2 ⟨rfl, by omega⟩
  obtain ⟨k, n, e1, e2⟩ := tokList_at (nanoS := nanoS) (value := balancePage)
    [.page ⟨.p2pkPath, .text (pathText (pathOf (S.start.data.drop 1)))⟩,
      .page ⟨.txAmount, .erg amount⟩, .page ⟨.txFee, .erg fee⟩] hm
  have hd := C56_drawn h
  rw [h3] at hd
  unfold balancePage at e2
  rw [if_neg (by omega)] at e2
  obtain ⟨q1, f1, g1⟩ := forall2_at hd e1
  obtain ⟨q2, f2, g2⟩ := forall2_at hd e2
  obtain ⟨r1, rfl, _, a1, b1⟩ := renders_page g1
  obtain ⟨r2, rfl, _, a2, b2⟩ := renders_page g2
  refine ⟨k, n, r1, r2, f1, f2, a1, b1, a2, ?_⟩
  by_cases hlt : D.tokIn id < D.tokOut id
  · rw [if_pos hlt]
    simp only at b2
    rw [if_pos (by omega),
      show ((D.tokIn id : Int) - (D.tokOut id : Int)).natAbs = D.tokOut id - D.tokIn id by omega] at b2
    exact b2
  · rw [if_neg hlt]
    simp only at b2
    rw [if_neg (by omega),
      show ((D.tokIn id : Int) - (D.tokOut id : Int)).natAbs = D.tokIn id - D.tokOut id by omega] at b2
    exact b2

/-- C56: texts of numbers are legible: two different values, or values of different kinds (amounts in
ERG, token amounts, minted amounts, burned amounts, application ids), never have the same text. -/
theorem C56_legible {s s' : Shown} (hs : s.numeric = true) (hs' : s'.numeric = true)
    (h : shownText s = shownText s') : s = s' := shownText_inj hs hs' h

example : shownText (.erg 1) ≠ shownText (.erg 10000000000) ∧
    shownText (.amount 12) ≠ shownText (.minting 12) ∧
    shownText (.appToken 0x00c0ffee) = "0x00c0ffee".toList := by decide +kernel

/-- C56: an array has room for one text only, so the characters read off an array are the text. -/
theorem C56_read {n : Nat} {b t t' : List Char} (h : Holds n b t) (h' : Holds n b t') : t = t' := by
  rw [← h.cstr, ← h'.cstr]

example : Holds 6 ['1', '2', nul, '9', '9', nul] ['1', '2'] := ⟨rfl, ⟨['9', '9', nul], rfl⟩, by decide⟩

/-- C56: the array of 60 characters of the static path screens holds the text of the path whenever the
path is accepted for display, and the function refuses without a write out of bounds otherwise. -/
theorem C56_path (p : List UInt32) :
    (∀ t, pathFormat p 60 = some t → ∃ b, drawPath p = some (b, true) ∧ Holds 60 b t) ∧
    (pathFormat p 60 = none → ∃ b, drawPath p = some (b, false)) := by
  obtain ⟨h1, h2⟩ := formatPath_eq p (n := 60) (by decide)
  exact ⟨h1, fun h => ⟨_, h2 h⟩⟩

example : (drawPath [0x8000002C, 0x800001AD, 0x80000000, 0, 5]).map (fun r => (cstr r.1, r.2)) =
    some ("44'/429'/0'/0/5".toList, true) := by decide +kernel

/-- C56: the array of 11 characters of the application screens holds "0x" and the eight digits of the
application id, in full. -/
theorem C56_application (v : UInt32) :
    ∃ b, drawAppId v = some b ∧ Holds 11 b (shownText (.appToken v)) := by
  have h1 : ∀ d < 16, "0123456789abcdef".toList.getD d '?' ≠ nul := by decide
  unfold drawAppId
  refine holds_snprintf (n := 11) (s := "0x".toList ++ hex08 v.toNat) (by simp [hex08]) ?_
  intro h
  rcases List.mem_append.1 h with h | h
  · exact absurd h (by decide)
  · obtain ⟨i, _, e⟩ := List.mem_map.1 h
    exact h1 _ (Nat.mod_lt _ (by decide)) e

example : (drawAppId 0xdeadbeef).map cstr = some "0xdeadbeef".toList := by decide +kernel

end Ergo
