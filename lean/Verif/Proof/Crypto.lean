import Verif.Spec.Crypto
import Verif.Proof.Schnorr
import Mathlib.Tactic.Tauto
/-!
# Memory of the cryptographic functions
-/
namespace Ergo
open Spec
namespace Work

variable {sdk : Sdk}

@[simp] theorem arr_call (s : Work) (c : SdkCall) (ok : Bool) : (s.call c ok).arr = s.arr := rfl
@[simp] theorem calls_call (s : Work) (c : SdkCall) (ok : Bool) : (s.call c ok).calls = (c, ok) :: s.calls := rfl
@[simp] theorem calls_put (s : Work) (a : WArr) (o : Nat) (b : Bytes) : (s.put a o b).calls = s.calls := rfl
@[simp] theorem calls_wipe (s : Work) (a : WArr) (n : Nat) : (s.wipe a n).calls = s.calls := rfl
@[simp] theorem hash_call (s : Work) (c : SdkCall) (ok : Bool) : (s.call c ok).hash = s.hash := rfl
@[simp] theorem hash_put (s : Work) (a : WArr) (o : Nat) (b : Bytes) : (s.put a o b).hash = s.hash := rfl
@[simp] theorem hash_wipe (s : Work) (a : WArr) (n : Nat) : (s.wipe a n).hash = s.hash := rfl
@[simp] theorem draws_call (s : Work) (c : SdkCall) (ok : Bool) : (s.call c ok).draws = s.draws := rfl
@[simp] theorem draws_put (s : Work) (a : WArr) (o : Nat) (b : Bytes) : (s.put a o b).draws = s.draws := rfl
@[simp] theorem draws_wipe (s : Work) (a : WArr) (n : Nat) : (s.wipe a n).draws = s.draws := rfl

theorem put_other {s : Work} {a x : WArr} {o : Nat} {b : Bytes} (h : x ≠ a) : (s.put a o b).arr x = s.arr x :=
  if_neg h
theorem wipe_other {s : Work} {a x : WArr} {n : Nat} (h : x ≠ a) : (s.wipe a n).arr x = s.arr x := if_neg h
@[simp] theorem wipe_same (s : Work) (a : WArr) (n : Nat) : (s.wipe a n).arr a = zeros n := if_pos rfl
theorem put_same (s : Work) (a : WArr) (o : Nat) (b : Bytes) :
    (s.put a o b).arr a = (s.arr a).take o ++ b ++ (s.arr a).drop (o + b.length) := if_pos rfl
theorem put_full {s : Work} {a : WArr} {b : Bytes} (h : b.length = (s.arr a).length) : (s.put a 0 b).arr a = b := by
  rw [put_same]; simp [h]

theorem length_fit (n : Nat) (b : Bytes) : (fit n b).length = n := by
  simp [fit, zeros]
theorem length_zeros (n : Nat) : (zeros n).length = n := by simp [zeros]

/-- Arrays outside of `S` are the same. -/
def Only (S : List WArr) (s s' : Work) : Prop := ∀ a, a ∉ S → s'.arr a = s.arr a

theorem Only.rfl {S : List WArr} {s : Work} : Only S s s := fun _ _ => Eq.refl _
theorem Only.trans {S : List WArr} {s s' s'' : Work} (h : Only S s s') (h' : Only S s' s'') : Only S s s'' :=
  fun a ha => (h' a ha).trans (h a ha)
theorem only_put {S : List WArr} {s : Work} {a : WArr} (h : a ∈ S) (o : Nat) (b : Bytes) : Only S s (s.put a o b) :=
  fun _ hx => put_other (fun e => hx (e ▸ h))
theorem only_wipe {S : List WArr} {s : Work} {a : WArr} (h : a ∈ S) (n : Nat) : Only S s (s.wipe a n) :=
  fun _ hx => wipe_other (fun e => hx (e ▸ h))
theorem only_next {S : List WArr} {s : Work} {r : Work × Bool} {f : Work → Work × Bool} (h : Only S s r.1)
    (h' : ∀ s, Only S s (f s).1) : Only S s (next r f).1 := by
  unfold next
  split
  · exact h.trans (h' _)
  · exact h

theorem only_hashInit {S : List WArr} (s : Work) : Only S s (s.hashInit sdk).1 := by
  intro a _; simp only [hashInit]; split <;> rfl
theorem only_hashUpdate {S : List WArr} (s : Work) (b : Bytes) : Only S s (s.hashUpdate sdk b).1 := by
  intro a _; simp only [hashUpdate]; split <;> rfl
theorem only_notLarge {S : List WArr} (s : Work) (b : Bytes) : Only S s (s.notLarge sdk b).1 := fun _ _ => rfl
theorem only_mulBase {S : List WArr} (hS : .buf ∈ S) (s : Work) (k : Bytes) : Only S s (s.mulBase sdk k).1 := by
  intro a ha
  have h : a ≠ .buf := fun e => ha (e ▸ hS)
  simp only [mulBase]
  split <;> simp only [put_other h, arr_call]
theorem only_drawNonce {S : List WArr} (hS : .nonce ∈ S) (s : Work) : Only S s (s.drawNonce sdk) :=
  fun _ hx => put_other (fun e => hx (e ▸ hS))

theorem only_tryInit (s : Work) : Only [.buf, .nonce] s (s.tryInit sdk).1 := by
  unfold tryInit
  exact only_next (only_hashInit _) fun s => only_next (only_hashUpdate _ _) fun s =>
    only_next .rfl fun s => only_next (only_notLarge _ _) fun s => only_next (only_mulBase (by simp) _ _) fun s =>
    only_next (only_hashUpdate _ _) fun s => only_next (only_hashUpdate _ _) fun s =>
    only_next (only_drawNonce (by simp) _) fun s => only_next .rfl fun s => only_next (only_notLarge _ _) fun s =>
    only_next (only_mulBase (by simp) _ _) fun s => only_hashUpdate _ _

theorem only_signInitLoop (fuel : Nat) : ∀ s : Work, Only [.buf, .nonce] s (s.signInitLoop sdk fuel).1 ∧
    (s.arr .buf = zeros 65 → (s.signInitLoop sdk fuel).1.arr .buf = zeros 65) := by
  induction fuel with
  | zero => exact fun s => ⟨.rfl, id⟩
  | succ n ih =>
    intro s
    simp only [signInitLoop]
    have h : Only [.buf, .nonce] s ((s.tryInit sdk).1.wipe .buf 65) :=
      (only_tryInit s).trans (only_wipe (by simp) _)
    split
    · exact ⟨h, fun _ => wipe_same _ _ _⟩
    · exact ⟨h.trans (ih _).1, fun _ => (ih _).2 (wipe_same _ _ _)⟩

theorem only_hashFinal {S : List WArr} (hS : .sig ∈ S) (s : Work) : Only S s (s.hashFinal sdk).1 := by
  intro a ha
  have h : a ≠ .sig := fun e => ha (e ▸ hS)
  simp only [hashFinal]; split <;> simp only [put_other h, arr_call]
theorem only_challenge {S : List WArr} (hS : .buf ∈ S) (s : Work) : Only S s s.challenge :=
  (only_put hS _ _).trans (only_put hS _ _)
theorem only_mulSecret {S : List WArr} (hS : .buf ∈ S) (s : Work) : Only S s (s.mulSecret sdk).1 := by
  intro a ha
  have h : a ≠ .buf := fun e => ha (e ▸ hS)
  simp only [mulSecret, put_other h, arr_call]
theorem only_addNonce {S : List WArr} (hS : .sig ∈ S) (s : Work) : Only S s (s.addNonce sdk).1 := by
  intro a ha
  have h : a ≠ .sig := fun e => ha (e ▸ hS)
  simp only [addNonce, put_other h, arr_call]
theorem only_signFinish (s : Work) : Only [.buf, .sig] s (s.signFinish sdk).1 := by
  unfold signFinish
  exact only_next (only_hashFinal (by simp) _) fun s => only_next (only_challenge (by simp) _) fun s =>
    only_next (only_mulSecret (by simp) _) fun s => only_next (only_addNonce (by simp) _) fun s =>
    only_wipe (by simp) _

/-- `crypto_derive_private_key`. -/
theorem derivePrivate_facts (path : List UInt32) (key chain : WArr) (hk : key ≠ .raw) (hc : chain ≠ .raw)
    (s : Work) : Only [.raw, key, chain] s (s.derivePrivate sdk path key chain).1 ∧
    ((s.derivePrivate sdk path key chain).1.calls = (.derive, false) :: s.calls ∧
        (sdk.derive s.time path).1 ≠ 0 ∧ (s.derivePrivate sdk path key chain).2 = (sdk.derive s.time path).1.toUInt16 ∨
      (s.derivePrivate sdk path key chain).1.arr .raw = zeros 64 ∧
        ∃ b t k, (s.derivePrivate sdk path key chain).1.calls = (.initKey, b) :: (.derive, true) :: s.calls ∧
          (s.derivePrivate sdk path key chain).2 = (sdk.initKey t k).1.toUInt16 ∧
          b = decide ((sdk.initKey t k).1 = 0)) := by
  unfold derivePrivate
  simp only
  split
  · rename_i h
    refine ⟨?_, .inl ⟨?_, h, rfl⟩⟩
    · exact ((only_wipe (by simp) _).trans (only_put (S := [.raw, key, chain]) (a := .raw)
        (s := (s.wipe .raw 64).call .derive _) (by simp) _ _)).trans (only_put (by simp) _ _)
    · simp only [calls_put, calls_call, calls_wipe]
      have : decide ((sdk.derive (s.wipe .raw 64).time path).1 = 0) = false := decide_eq_false h
      rw [this]
  · rename_i h
    refine ⟨?_, .inr ⟨wipe_same _ _ _, _, _, _, ?_, rfl, rfl⟩⟩
    · intro a ha
      have h1 : a ≠ .raw := fun e => ha (by simp [e])
      have h2 : a ≠ key := fun e => ha (by simp [e])
      have h3 : a ≠ chain := fun e => ha (by simp [e])
      simp only [wipe_other h1, put_other h1, put_other h2, put_other h3, arr_call]
    · simp only [calls_put, calls_call, calls_wipe]
      have : decide ((sdk.derive (s.wipe .raw 64).time path).1 = 0) = true := decide_eq_true (Decidable.not_not.1 h)
      rw [this]

theorem append_eq_one {α : Type} {l t : List α} {a : α} (h : a :: t = l ++ t) : l = [a] := by
  have : l ++ t = [a] ++ t := h.symm
  exact List.append_cancel_right this

/-- `crypto_generate_private_key`: always wiped, except for the 64 bytes of a failed derivation. -/
theorem generatePrivate_facts (path : List UInt32) (s : Work) :
    Only [.raw, .ecfp, .chain, .secret] s (s.generatePrivate sdk path).1 ∧
    (s.generatePrivate sdk path).1.arr .ecfp = zeros 32 ∧ (s.generatePrivate sdk path).1.arr .chain = zeros 32 ∧
    ((s.generatePrivate sdk path).2 ≠ 0 → (s.generatePrivate sdk path).1.arr .secret = s.arr .secret) ∧
    ((s.generatePrivate sdk path).1.calls = (.derive, false) :: s.calls ∧
        (sdk.derive s.time path).1 ≠ 0 ∧ (s.generatePrivate sdk path).2 = (sdk.derive s.time path).1.toUInt16 ∨
      (s.generatePrivate sdk path).1.arr .raw = zeros 64 ∧
        ∃ b t k, (s.generatePrivate sdk path).1.calls = (.initKey, b) :: (.derive, true) :: s.calls ∧
          (s.generatePrivate sdk path).2 = (sdk.initKey t k).1.toUInt16 ∧
          b = decide ((sdk.initKey t k).1 = 0)) := by
  have h := derivePrivate_facts (sdk := sdk) path .ecfp .chain (by decide) (by decide) (s.wipe .ecfp 32)
  obtain ⟨h1, h2⟩ := h
  unfold generatePrivate
  simp only
  have hs : ∀ r : Work × UInt16, ∀ a, a ≠ .secret → a ≠ .ecfp → a ≠ .chain →
      (((if r.2 = 0 then r.1.put .secret 0 ((r.1.arr .ecfp).take 32) else r.1).wipe .ecfp 32).wipe .chain 32).arr a =
        r.1.arr a := by
    intro r a h1 h2 h3
    rw [wipe_other h3, wipe_other h2]
    split
    · exact put_other h1
    · rfl
  have hc : ∀ r : Work × UInt16, (((if r.2 = 0 then r.1.put .secret 0 ((r.1.arr .ecfp).take 32) else r.1).wipe .ecfp 32).wipe .chain 32).calls =
        r.1.calls := by
    intro r; split <;> rfl
  refine ⟨?_, by rw [wipe_other (by decide), wipe_same], wipe_same _ _ _, ?_, ?_⟩
  · intro a ha
    simp only [List.mem_cons, List.not_mem_nil, or_false, not_or] at ha
    rw [hs _ a ha.2.2.2 ha.2.1 ha.2.2.1, h1 a (by simp; tauto), wipe_other ha.2.1]
  · intro hne
    rw [wipe_other (by decide), wipe_other (by decide), if_neg hne, h1 _ (by decide), wipe_other (by decide)]
  · rw [hc, hs _ .raw (by decide) (by decide) (by decide)]
    exact h2

/-- `crypto_generate_public_key`: always wiped, except for the 64 bytes of a failed derivation. -/
theorem generatePublic_facts (path : List UInt32) (has : Bool) (s : Work) :
    Only [.raw, .priv, .pub, .rawPub, if has then .chainOut else .tempChain] s (s.generatePublic sdk path has).1 ∧
    (s.generatePublic sdk path has).1.arr .priv = zeros 32 ∧
    (has = false → (s.generatePublic sdk path has).1.arr .tempChain = zeros 32) ∧
    ∃ l, (s.generatePublic sdk path has).1.calls = l ++ s.calls ∧
      ((SdkCall.derive, false) ∉ l → (s.generatePublic sdk path has).1.arr .raw = zeros 64) ∧
      (CodesSurvive sdk → (s.generatePublic sdk path has).2 = 0 →
        l = [(.genPair, true), (.initKey, true), (.derive, true)]) := by
  generalize hch : (if has then WArr.chainOut else WArr.tempChain) = chain
  have hcr : chain ≠ .raw := by rw [← hch]; cases has <;> decide
  obtain ⟨h1, h2⟩ := derivePrivate_facts (sdk := sdk) path .priv chain (by decide) hcr ((s.wipe .priv 32).wipe .pub 65)
  unfold generatePublic
  simp only [hch]
  generalize ((s.wipe .priv 32).wipe .pub 65).derivePrivate sdk path .priv chain = r at *
  have hi : ∀ s : Work, Only [.pub, .rawPub] s (s.initPublic sdk).1 ∧
      (s.initPublic sdk).1.calls = (.genPair, decide ((sdk.genPair s.time (s.arr .priv)).1 = 0)) :: s.calls ∧
      (s.initPublic sdk).2 = (sdk.genPair s.time (s.arr .priv)).1.toUInt16 := by
    intro s
    unfold initPublic
    simp only
    refine ⟨?_, ?_, trivial⟩
    · intro a ha
      have h1 : a ≠ .pub := fun e => ha (by simp [e])
      have h2 : a ≠ .rawPub := fun e => ha (by simp [e])
      split <;> simp only [put_other h1, put_other h2, arr_call]
    · split <;> rfl
  obtain ⟨g1, g2, g3⟩ := hi r.1
  have hcut : ∀ c : UInt32, c.toUInt16 = 0 ↔ c.toNat % 65536 = 0 := by
    intro c
    rw [← UInt16.toNat_inj, UInt32.toNat_toUInt16]; rfl
  have hq : Only [.raw, .priv, .pub, .rawPub, chain] s (if r.2 = 0 then r.1.initPublic sdk else r).1 ∧
      (if r.2 = 0 then r.1.initPublic sdk else r).1.arr .raw = r.1.arr .raw := by
    have hr : Only [.raw, .priv, .pub, .rawPub, chain] s r.1 := by
      intro a ha
      simp only [List.mem_cons, List.not_mem_nil, or_false, not_or] at ha
      rw [h1 a (by simp; tauto), wipe_other ha.2.2.1, wipe_other ha.2.1]
    split
    · refine ⟨hr.trans ?_, g1 _ (by decide)⟩
      intro a ha
      simp only [List.mem_cons, List.not_mem_nil, or_false, not_or] at ha
      exact g1 a (by simp; tauto)
    · exact ⟨hr, rfl⟩
  have hfin : ∀ m : Work, Only [.raw, .priv, .pub, .rawPub, chain] m
      (if has then m.wipe .priv 32 else (m.wipe .priv 32).wipe .tempChain 32) ∧
      (if has then m.wipe .priv 32 else (m.wipe .priv 32).wipe .tempChain 32).arr .priv = zeros 32 ∧
      (if has then m.wipe .priv 32 else (m.wipe .priv 32).wipe .tempChain 32).arr .raw = m.arr .raw ∧
      (if has then m.wipe .priv 32 else (m.wipe .priv 32).wipe .tempChain 32).calls = m.calls := by
    intro m
    cases has with
    | true => exact ⟨only_wipe (by simp) _, wipe_same _ _ _, wipe_other (by decide), rfl⟩
    | false =>
      simp only [Bool.false_eq_true, if_false] at hch ⊢
      subst hch
      exact ⟨(only_wipe (by simp) _).trans (only_wipe (by simp) _), by rw [wipe_other (by decide), wipe_same],
        by rw [wipe_other (by decide), wipe_other (by decide)], rfl⟩
  obtain ⟨f1, f2, f3, f4⟩ := hfin (if r.2 = 0 then r.1.initPublic sdk else r).1
  refine ⟨hq.1.trans f1, f2, fun h => by simp only [h, Bool.false_eq_true, if_false, wipe_same], ?_⟩
  simp only [calls_wipe] at h2
  rcases h2 with ⟨h2, h3, h4⟩ | ⟨h2, b, t, k, h3, h4, h5⟩
  · by_cases h0 : r.2 = 0
    · rw [if_pos h0] at f4 ⊢
      rw [f4, g2, h2]
      refine ⟨[_, _], rfl, fun h => absurd (by simp) h, fun hc h => ?_⟩
      rw [h4, hcut] at h0
      exact absurd h0 (hc.1 _ _ h3)
    · rw [if_neg h0] at f4 ⊢
      rw [f4, h2]
      exact ⟨[_], rfl, fun h => absurd (by simp) h, fun hc h => absurd h h0⟩
  · by_cases h0 : r.2 = 0
    · rw [if_pos h0] at f4 f3 ⊢
      rw [f4, g2, h3]
      refine ⟨[_, _, _], rfl, fun _ => ?_, fun hc h => ?_⟩
      · rw [f3, g1 _ (by decide), h2]
      · rw [g3, hcut] at h
        rw [h4, hcut] at h0
        have e1 : (sdk.initKey t k).1 = 0 := by
          by_contra hne; exact hc.2.1 _ _ hne h0
        have e2 : (sdk.genPair r.1.time (r.1.arr .priv)).1 = 0 := by
          by_contra hne; exact hc.2.2 _ _ hne h
        rw [h5]
        simp only [e1, e2, decide_true]
    · rw [if_neg h0] at f4 f3 ⊢
      rw [f4, h3]
      exact ⟨[_, _], rfl, fun _ => by rw [f3, h2], fun hc h => absurd h h0⟩

/-! ## Calls of the signing functions -/

/-- Calls are only added. -/
def Grows (s s' : Work) : Prop := ∃ l, s'.calls = l ++ s.calls

theorem Grows.rfl {s : Work} : Grows s s := ⟨[], Eq.refl _⟩
theorem Grows.trans {s s' s'' : Work} (h : Grows s s') (h' : Grows s' s'') : Grows s s'' := by
  obtain ⟨l, h⟩ := h
  obtain ⟨l', h'⟩ := h'
  exact ⟨l' ++ l, by rw [h', h, List.append_assoc]⟩
theorem grows_next {s : Work} {r : Work × Bool} {f : Work → Work × Bool} (h : Grows s r.1)
    (h' : ∀ s, Grows s (f s).1) : Grows s (next r f).1 := by
  unfold next
  split
  · exact h.trans (h' _)
  · exact h

theorem calls_hashInit (s : Work) : (s.hashInit sdk).1.calls = (.hash, (s.hashInit sdk).2) :: s.calls := by
  simp only [hashInit]; split <;> rfl
theorem calls_hashUpdate (s : Work) (b : Bytes) :
    (s.hashUpdate sdk b).1.calls = (.hash, (s.hashUpdate sdk b).2) :: s.calls := by
  simp only [hashUpdate]; split <;> rfl
theorem calls_hashFinal (s : Work) : (s.hashFinal sdk).1.calls = (.hash, (s.hashFinal sdk).2) :: s.calls := by
  simp only [hashFinal]; split <;> rfl
theorem calls_notLarge (s : Work) (b : Bytes) (h : (s.notLarge sdk b).2 = true) :
    (s.notLarge sdk b).1.calls = (.cmp, true) :: s.calls := by
  simp only [notLarge, Bool.and_eq_true, decide_eq_true_eq] at h ⊢
  rw [calls_call, decide_eq_true h.1]
theorem calls_mulBase (s : Work) (k : Bytes) :
    (s.mulBase sdk k).1.calls = (.mult, (s.mulBase sdk k).2) :: s.calls := by
  simp only [mulBase]
  split
  · rename_i h
    simp only [calls_put, calls_call, decide_eq_false h]
  · rename_i h
    simp only [calls_put, calls_call, decide_eq_true (Decidable.not_not.1 h)]
theorem calls_mulSecret (s : Work) : (s.mulSecret sdk).1.calls = (.multm, (s.mulSecret sdk).2) :: s.calls := rfl
theorem calls_addNonce (s : Work) : (s.addNonce sdk).1.calls = (.addm, (s.addNonce sdk).2) :: s.calls := rfl

theorem grows_tryInit (s : Work) : Grows s (s.tryInit sdk).1 := by
  unfold tryInit
  have hu : ∀ (s : Work) b, Grows s (s.hashUpdate sdk b).1 := fun s b => ⟨[_], calls_hashUpdate s b⟩
  have hm : ∀ (s : Work) b, Grows s (s.mulBase sdk b).1 := fun s b => ⟨[_], calls_mulBase s b⟩
  have hl : ∀ (s : Work) b, Grows s (s.notLarge sdk b).1 := fun s b => ⟨[_], Eq.refl _⟩
  exact grows_next ⟨[_], calls_hashInit s⟩ fun s => grows_next (hu _ _) fun s =>
    grows_next .rfl fun s => grows_next (hl _ _) fun s => grows_next (hm _ _) fun s =>
    grows_next (hu _ _) fun s => grows_next (hu _ _) fun s =>
    grows_next ⟨[], Eq.refl _⟩ fun s => grows_next .rfl fun s => grows_next (hl _ _) fun s =>
    grows_next (hm _ _) fun s => hu _ _

theorem next_ok {r : Work × Bool} {f : Work → Work × Bool} (h : (next r f).2 = true) :
    r.2 = true ∧ (f r.1).2 = true ∧ next r f = f r.1 := by
  unfold next at h ⊢
  split at h
  · rename_i hr
    exact ⟨hr, h, if_pos hr⟩
  · simp at h

/-- The calls of one successful attempt (newest first). -/
def attemptCalls : List (SdkCall × Bool) :=
  [(.hash, true), (.mult, true), (.cmp, true), (.hash, true), (.hash, true), (.mult, true), (.cmp, true),
   (.hash, true), (.hash, true)]

theorem tryInit_ok (s : Work) (h : (s.tryInit sdk).2 = true) :
    (s.tryInit sdk).1.calls = attemptCalls ++ s.calls := by
  unfold tryInit at h ⊢
  obtain ⟨a1, h, e1⟩ := next_ok h
  rw [e1]; clear e1
  obtain ⟨a2, h, e2⟩ := next_ok h
  rw [e2]; clear e2
  obtain ⟨a3, h, e3⟩ := next_ok h
  rw [e3]; clear e3
  obtain ⟨a4, h, e4⟩ := next_ok h
  rw [e4]; clear e4
  obtain ⟨a5, h, e5⟩ := next_ok h
  rw [e5]; clear e5
  obtain ⟨a6, h, e6⟩ := next_ok h
  rw [e6]; clear e6
  obtain ⟨a7, h, e7⟩ := next_ok h
  rw [e7]; clear e7
  obtain ⟨a8, h, e8⟩ := next_ok h
  rw [e8]; clear e8
  obtain ⟨a9, h, e9⟩ := next_ok h
  rw [e9]; clear e9
  obtain ⟨a10, h, e10⟩ := next_ok h
  rw [e10]; clear e10
  obtain ⟨a11, h, e11⟩ := next_ok h
  rw [e11]; clear e11
  rw [calls_hashUpdate, h, calls_mulBase, a11, calls_notLarge _ _ a10]
  show _ :: _ :: _ :: (hashUpdate sdk _ _).1.calls = _
  rw [calls_hashUpdate, a7, calls_hashUpdate, a6, calls_mulBase, a5, calls_notLarge _ _ a4, calls_hashUpdate, a2,
    calls_hashInit, a1]
  rfl

theorem signInitLoop_ok (fuel : Nat) : ∀ s : Work, Grows s (s.signInitLoop sdk fuel).1 ∧
    ((s.signInitLoop sdk fuel).2 = true → ∃ l, (s.signInitLoop sdk fuel).1.calls = attemptCalls ++ l ++ s.calls) := by
  induction fuel with
  | zero => exact fun s => ⟨.rfl, fun h => absurd h (by simp [signInitLoop])⟩
  | succ n ih =>
    intro s
    simp only [signInitLoop]
    have hg : Grows s ((s.tryInit sdk).1.wipe .buf 65) := grows_tryInit s
    split
    · rename_i h
      exact ⟨hg, fun _ => ⟨[], by rw [calls_wipe, tryInit_ok s h]; simp⟩⟩
    · obtain ⟨i1, i2⟩ := ih ((s.tryInit sdk).1.wipe .buf 65)
      refine ⟨hg.trans i1, fun h => ?_⟩
      obtain ⟨l, e⟩ := i2 h
      obtain ⟨l', e'⟩ := hg
      exact ⟨l ++ l', by rw [e, e']; simp⟩

theorem zeros_of_beNat {b : Bytes} (h : beNat b = 0) : b = zeros b.length := by
  rw [beNat_eq] at h
  induction b with
  | nil => rfl
  | cons x b ih =>
    simp only [be] at h
    have h1 : x.toNat * 256 ^ b.length = 0 := by omega
    have h2 : be b = 0 := by omega
    have h3 : x = 0 := by
      have : 0 < 256 ^ b.length := Nat.pow_pos (by decide)
      have hx : x.toNat = 0 := by
        rcases Nat.mul_eq_zero.1 h1 with h | h
        · exact h
        · omega
      exact UInt8.toNat_inj.1 hx
    rw [ih h2, h3]
    simp [zeros, List.replicate_succ]

/-- `ergo_secp256k1_schnorr_p2pk_sign_finish`. -/
theorem signFinish_facts (s : Work) : ∃ l, (s.signFinish sdk).1.calls = l ++ s.calls ∧
    ((SdkCall.multm, false) ∉ l → (SdkCall.addm, false) ∉ l → s.arr .buf = zeros 65 →
      (s.signFinish sdk).1.arr .buf = zeros 65) ∧
    ((s.signFinish sdk).2 = true → l = [(.addm, true), (.multm, true), (.hash, true)]) := by
  unfold signFinish
  have hb : (s.hashFinal sdk).1.arr .buf = s.arr .buf := only_hashFinal (S := [.sig]) (by simp) s _ (by decide)
  by_cases h1 : (s.hashFinal sdk).2 = true
  case neg =>
    rw [next, if_neg h1]
    exact ⟨[_], calls_hashFinal s, fun _ _ h => hb.trans h, fun h => by simp at h⟩
  rw [next, if_pos h1]
  have hc1 := calls_hashFinal (sdk := sdk) s
  rw [h1] at hc1
  have hsig : 32 ≤ ((s.hashFinal sdk).1.arr .sig).length := by
    simp only [hashFinal] at h1 ⊢
    rw [if_pos h1, put_same]
    simp only [List.length_append, length_fit]
    omega
  generalize (s.hashFinal sdk).1 = s1 at hb hc1 hsig ⊢
  by_cases h2 : beNat ((s1.challenge.arr .buf).take 32) = 0
  case pos =>
    rw [next, if_neg (by simp [h2])]
    refine ⟨[_], hc1, fun _ _ hz => ?_, fun h => by simp at h⟩
    rw [← hb] at hz
    have e : s1.challenge.arr .buf = zeros 8 ++ (s1.arr .sig).take 24 ++ zeros 33 := by
      simp only [challenge, put_same, put_other (show WArr.sig ≠ .buf by decide), hz]
      have l24 : (List.take 24 (s1.arr .sig)).length = 24 := by simp; omega
      rw [l24]
      simp [zeros]
    rw [e] at h2
    have l32 : (zeros 8 ++ (s1.arr .sig).take 24).length = 32 := by simp [zeros]; omega
    rw [List.take_left' l32] at h2
    have := zeros_of_beNat h2
    rw [l32] at this
    show s1.challenge.arr .buf = _
    rw [e, this]
    simp [zeros]
  rw [next, if_pos (by simp [h2])]
  by_cases h3 : (s1.challenge.mulSecret sdk).2 = true
  case neg =>
    rw [next, if_neg h3]
    refine ⟨[_, _], by rw [calls_mulSecret]; show _ :: s1.calls = _; rw [hc1]; rfl, fun h => absurd ?_ h, fun h => by simp at h⟩
    rw [Bool.not_eq_true] at h3
    simp [h3]
  have hc2 := calls_mulSecret (sdk := sdk) s1.challenge
  rw [h3, show s1.challenge.calls = s1.calls from rfl, hc1] at hc2
  rw [next, if_pos h3]
  generalize (s1.challenge.mulSecret sdk).1 = s2 at hc2 ⊢
  by_cases h4 : (s2.addNonce sdk).2 = true
  case neg =>
    rw [next, if_neg h4]
    refine ⟨[_, _, _], by rw [calls_addNonce, hc2]; rfl, fun _ h => absurd ?_ h, fun h => by simp at h⟩
    rw [Bool.not_eq_true] at h4
    simp [h4]
  rw [next, if_pos h4]
  exact ⟨_, by rw [calls_wipe, calls_addNonce, hc2, h4]; rfl, fun _ _ _ => wipe_same _ _ _, fun _ => rfl⟩

end Work
end Ergo
