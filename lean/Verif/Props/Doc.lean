import Verif.Proof.Doc
import Verif.Props.Start
import Verif.Proof.Inv
import Verif.Proof.WalletBox
/-!
# C73: the documented requests and the accepted ones

The claim that exactly the documented requests are accepted is false (`C73_negation`); one direction and
the exact further demands hold.
-/
namespace Ergo
open Spec

/-- C73, one direction: a start command that is answered with success, put on the screen, or left without an
answer (no session id) is in the documentation. -/
theorem C73_accepted_partial {env : Env} (hwf : env.WF) {nanoS : Bool} {key : Bytes} {tr : List Obs} {d : Device}
    (h : Runs env nanoS key tr d) (ha : d.asks = none) (a : Request) (hl : a.data.length ≤ 255)
    (hs : starts a.ins a.p1 a.p2 = true) (hr : ¬ IsError (d.step env nanoS a.event).2) : a.Documented := by
  obtain ⟨_, _, _, h4, _⟩ := C51_reply hwf h ha a hl hs
  have : ¬ ¬ a.Good env := fun hg => hr (h4.2 (.inl hg))
  exact ((good_iff hs).1 (not_not.1 this)).1

/-- C73, exactly: a documented request is answered with an error if and only if it fails one of the further
demands, a key cannot be computed, or its path is too long for the screen.  With a token that was approved
before, attestations and exports are answered at once, and the start of signing is asked nevertheless. -/
theorem C73_exact_partial {env : Env} (hwf : env.WF) {nanoS : Bool} {key : Bytes} {tr : List Obs} {d : Device}
    (h : Runs env nanoS key tr d) (ha : d.asks = none) (a : Request) (hl : a.data.length ≤ 255)
    (hs : starts a.ins a.p1 a.p2 = true) (hd : a.Documented) :
    let r := (d.step env nanoS a.event).2
    (IsError r ↔ ¬ a.Narrower ∨ ¬ a.Keys env ∨ a.IdDrawn ∧ ¬ a.AtOnce (know tr).app ∧ ¬ a.Showable) ∧
    (a.Narrower → a.Keys env → a.IdDrawn → a.token ≠ 0 → a.token = (know tr).app →
      (a.ins = 0x20 ∨ a.ins = 0x10 → ∃ out, r = .sw 0x9000 out) ∧
      (a.ins = 0x21 → a.Showable → r = .wait)) := by
  intro r
  obtain ⟨h1, h2, _, h4, _⟩ := C51_reply hwf h ha a hl hs
  have hg := good_iff (env := env) hs
  refine ⟨?_, fun hn hk hi ht hta => ⟨fun hins => ?_, fun hins hsh => ?_⟩⟩
  · rw [h4, hg]
    by_cases hn : a.Narrower <;> by_cases hk : a.Keys env <;> simp [hn, hk, hd]
  · refine h1.2 ⟨hg.2 ⟨hd, hn, hk⟩, hi, ht, hta, ?_⟩
    rcases hins with hins | hins
    · exact .inr (.inr hins)
    · exact .inl hins
  · exact h2.2 ⟨hg.2 ⟨hd, hn, hk⟩, hi, (C51_kinds a _).2.1 hins, hsh⟩

/-- A request of the theorem on a fresh device: the export of `m/44'/429'/0'` is asked. -/
example : starts 0x10 1 0 = true ∧ ((Device.boot [1]).step toyEnv false (cmd 0x10 1 0 demoPath3)).2 = .wait := by
  decide +kernel

/-- Export of the key of `m/44'/429'`. -/
def docShort : Request := ⟨0x10, 1, 0, [2, 0x80, 0, 0, 44, 0x80, 0, 1, 0xAD], demoRnd⟩
/-- Export of the key of `m/44'/429'/0'/1`. -/
def docSoft : Request := ⟨0x10, 1, 0, [4, 0x80, 0, 0, 44, 0x80, 0, 1, 0xAD, 0x80, 0, 0, 0, 0, 0, 0, 1], demoRnd⟩
/-- Start of signing on network 5. -/
def docNet5 : Request := ⟨0x21, 1, 1, 5 :: demoPath 0, demoRnd⟩
/-- Start of signing with the path `m/44'/429'/0'/7/0`. -/
def docChain : Request :=
  ⟨0x21, 1, 1, [0, 5, 0x80, 0, 0, 44, 0x80, 0, 1, 0xAD, 0x80, 0, 0, 0, 0, 0, 0, 7, 0, 0, 0, 0], demoRnd⟩
/-- Attestation of a box with 21 tokens. -/
def docBox : Request :=
  ⟨0x20, 1, 1, List.replicate 32 1 ++ [0, 2, 0, 0, 0, 0, 0, 0, 0, 9, 0, 0, 0, 36, 0, 0, 0, 1, 21, 0, 0, 0, 0],
   demoRnd⟩

theorem docPath_check {least rest : Nat} {len : UInt8} {d d' : Bytes} (p : List UInt32)
    (hp : bufPath len.toNat d = some (p, d'))
    (h : (len :: d).length = pathLen (len :: d) + rest ∧ least ≤ field (len :: d) 0 1 ∧ field (len :: d) 0 1 ≤ 10)
    (h0 : p[0]? = some 0x8000002C) (h1 : p[1]? = some 0x800001AD)
    (h2 : ∀ c ∈ p[2]?, 2 ^ 31 ≤ c.toNat) : DocPath least (len :: d) rest := by
  have e := pathOf_read hp
  exact ⟨h.1, h.2.1, h.2.2, e ▸ h0, e ▸ h1, fun c hc => h2 c (by rwa [e] at hc)⟩

theorem keys_toyEnv (a : Request) (hr : a.rnd = demoRnd) (hk : a.ins = 0x21 → a.path.length < 200) :
    a.Keys toyEnv := by
  refine ⟨fun _ => rfl, fun hi => ?_⟩
  have hk := hk hi
  generalize a.path = p at hk
  refine ⟨_, rfl, ?_, 0, by decide, ?_⟩
  · have : be (List.replicate 31 0 ++ [UInt8.ofNat (p.length + 1)]) = p.length + 1 := by
      rw [be_append_one]
      have h0 : be (List.replicate 31 0) = 0 := by decide +kernel
      rw [h0, UInt8.toNat_ofNat']
      omega
    refine ⟨by rw [this]; omega, ?_, rfl⟩
    rw [this]; unfold groupOrder; omega
  · rw [hr]; refine ⟨by decide +kernel, by decide +kernel, rfl⟩

/-- C73 as stated is false: documented requests that are answered with an error, although the keys can be
computed; and a start of signing with the token of the last approval that is asked nevertheless. -/
theorem C73_negation : Env.WF toyEnv ∧
    (∀ a ∈ [docShort, docSoft, docNet5, docChain, docBox], a.Documented ∧ a.Keys toyEnv ∧
      IsError ((Device.boot [1]).step toyEnv false a.event).2) ∧
    ∃ tr d, ∃ a : Request, Runs toyEnv false [1] tr d ∧ d.asks = none ∧ a.Documented ∧ a.ins = 0x21 ∧ a.token ≠ 0 ∧
      a.token = (know tr).app ∧ (d.step toyEnv false a.event).2 = .wait := by
  refine ⟨toyEnv_wf, ?_, ?_⟩
  · intro a ha
    simp only [List.mem_cons, List.not_mem_nil, or_false] at ha
    rcases ha with rfl | rfl | rfl | rfl | rfl
    · refine ⟨.inl ⟨rfl, .inl rfl, rfl, ?_⟩, keys_toyEnv _ rfl (fun h => absurd h (by decide)), ⟨_, ?_, rfl⟩⟩
      · exact docPath_check [0x8000002C, 0x800001AD] (d' := []) (by decide +kernel) (by decide +kernel) rfl rfl
          (by decide)
      · decide
    · refine ⟨.inl ⟨rfl, .inl rfl, rfl, ?_⟩, keys_toyEnv _ rfl (fun h => absurd h (by decide)), ⟨_, ?_, rfl⟩⟩
      · exact docPath_check [0x8000002C, 0x800001AD, 0x80000000, 1] (d' := []) (by decide +kernel)
          (by decide +kernel) rfl rfl (by decide)
      · decide
    · refine ⟨.inr (.inr (.inr ⟨rfl, rfl, .inl rfl, by decide, by decide, ?_⟩)), keys_toyEnv _ rfl (fun _ => (pathOf_length _ 0 (by decide)).trans_lt (by decide)), ⟨_, ?_, rfl⟩⟩
      · exact docPath_check [0x8000002C, 0x800001AD, 0x80000000, 0, 0] (d' := []) (by decide +kernel)
          (by decide +kernel) rfl rfl (by decide)
      · decide
    · refine ⟨.inr (.inr (.inr ⟨rfl, rfl, .inl rfl, by decide, by decide, ?_⟩)), keys_toyEnv _ rfl (fun _ => (pathOf_length _ 0 (by decide)).trans_lt (by decide)), ⟨_, ?_, rfl⟩⟩
      · exact docPath_check [0x8000002C, 0x800001AD, 0x80000000, 7, 0] (d' := []) (by decide +kernel)
          (by decide +kernel) rfl rfl (by decide)
      · decide
    · exact ⟨.inr (.inr (.inl ⟨rfl, rfl, .inl rfl, by decide⟩)), keys_toyEnv _ rfl (fun h => absurd h (by decide)), ⟨_, by decide, rfl⟩⟩
  · have h := runs_boot (key := [1]) (env := toyEnv) (nanoS := false)
      [cmd 0x10 2 0 (demoPath3 ++ [0, 0, 0, 5]), .left, .left, .both] (by decide +kernel)
    generalize hw : (Device.boot [1]).watch toyEnv false []
      [cmd 0x10 2 0 (demoPath3 ++ [0, 0, 0, 5]), .left, .left, .both] = w at h
    refine ⟨w.1, w.2, ⟨0x21, 1, 2, 0 :: demoPath 0 ++ [0, 0, 0, 5], demoRnd⟩, h, ?_, ?_, rfl, ?_, ?_, ?_⟩
    · subst hw; decide +kernel
    · refine .inr (.inr (.inr ⟨rfl, rfl, .inr rfl, by decide, by decide, ?_⟩))
      exact docPath_check [0x8000002C, 0x800001AD, 0x80000000, 0, 0] (d' := [0, 0, 0, 5]) (by decide +kernel)
          (by decide +kernel) rfl rfl (by decide)
    · decide +kernel
    · subst hw; decide +kernel
    · subst hw; decide +kernel

/-- The documentation allows the fee script (0x17) and the change script (0x18) only in an output announced
with script size 0; the device takes the fee script in an output announced with 105 bytes. -/
theorem C73_size_negation : ∃ tr d S o, Runs toyEnv false [1] tr d ∧ d.asks = none ∧ (know tr).sign = some S ∧
    (describe S.log).outputs.head? = some o ∧ o.box.treeSize = 105 ∧ o.box.script = none ∧
    (d.step toyEnv false (cmd 0x21 0x17 S.id [])).2 = .sw 0x9000 [] := by
  have h := runs_boot (key := [1]) (env := toyEnv) (nanoS := false) (demoOpen ++ demoTx.take 8) (by decide +kernel)
  generalize hw : (Device.boot [1]).watch toyEnv false [] (demoOpen ++ demoTx.take 8) = w at h
  have h3 : (know w.1).sign.map (fun S => (S.id, ((describe S.log).outputs.head?.map fun o =>
      (o.box.treeSize, o.box.script.isNone)))) = some (7, some (105, true)) := by
    subst hw; decide +kernel
  obtain ⟨S, hS, hD⟩ := Option.map_eq_some_iff.1 h3
  simp only [Prod.mk.injEq] at hD
  obtain ⟨hid, hD⟩ := hD
  obtain ⟨o, ho, hoD⟩ := Option.map_eq_some_iff.1 hD
  simp only [Prod.mk.injEq, Option.isNone_iff_eq_none] at hoD
  refine ⟨w.1, w.2, S, o, h, ?_, hS, ho, hoD.1, hoD.2, ?_⟩
  · subst hw; decide +kernel
  · rw [hid]; subst hw; decide +kernel

/-- The request of `docNet5` with network 16 is asked, and is documented, narrower, and its keys exist. -/
example : ((Device.boot [1]).step toyEnv false (cmd 0x21 1 1 (16 :: demoPath 0))).2 = .wait ∧
    ((Device.boot [1]).step toyEnv false docNet5.event).2 ≠ .wait := by decide +kernel

end Ergo
