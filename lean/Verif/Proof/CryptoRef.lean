import Verif.Proof.Crypto
/-!
# The memory-level functions compute what the rest of the model assumes
-/
namespace Ergo
open Spec
namespace Work
variable {sdk : Sdk} {env : Env}

theorem fit_self {n : Nat} {b : Bytes} (h : b.length = n) : fit n b = b := by
  unfold fit; rw [← h]; simp

theorem take_fit (b : Bytes) : (fit 64 b).take 32 = keyPart b := by
  unfold fit keyPart zeros
  rw [List.take_take]
  simp only [List.take_append, List.take_replicate]
  congr 1
  simp; omega

theorem next_true (s : Work) (f : Work → Work × Bool) : next (s, true) f = f s := rfl
theorem next_false (s : Work) (f : Work → Work × Bool) : next (s, false) f = (s, false) := rfl

theorem error16 {c : UInt32} (h : Error16 c) : c.toUInt16 ≠ 0 := by
  intro e
  rw [← UInt16.toNat_inj, UInt32.toNat_toUInt16] at e
  exact h e

theorem error16_ne {c : UInt32} (h : Error16 c) : c ≠ 0 := by
  rintro rfl; exact h rfl

/-- `crypto_derive_private_key`, successful. -/
theorem derivePrivate_some (H : Serves sdk env) (W : env.WF) {path : List UInt32} {key chain : WArr}
    (hk : key ≠ .raw) (hkc : key ≠ chain) (hc : chain ≠ .raw) {s : Work} (lk : (s.arr key).length = 32)
    (lc : (s.arr chain).length = 32) {k c : Bytes} (h : env.derive path = some (k, c)) :
    (s.derivePrivate sdk path key chain).2 = 0 ∧ (s.derivePrivate sdk path key chain).1.arr key = k ∧
    (s.derivePrivate sdk path key chain).1.arr chain = c ∧
    (s.derivePrivate sdk path key chain).1.hash = s.hash ∧ (s.derivePrivate sdk path key chain).1.draws = s.draws := by
  obtain ⟨raw, e1, e2⟩ := H.derive_some path k c h s.time (s.time + 1)
  obtain ⟨l1, l2⟩ := W.derive_len path k c h
  have t1 : (s.wipe .raw 64).time = s.time := rfl
  have hraw : ((((s.wipe .raw 64).call .derive true).put .raw 0 (fit 64 raw)).put chain 0
      (fit 32 c)).arr .raw = fit 64 raw := by
    rw [put_other hc.symm, put_full]
    rw [length_fit]; simp [length_zeros]
  have t2 : ((((s.wipe .raw 64).call .derive true).put .raw 0 (fit 64 raw)).put chain 0
      (fit 32 c)).time = s.time + 1 := rfl
  simp only [derivePrivate, t1, e1, ne_eq, not_true_eq_false, if_false, decide_true, hraw, take_fit, t2, e2]
  refine ⟨rfl, ?_, ?_, rfl, rfl⟩
  · rw [wipe_other hk, put_full, fit_self l1]
    rw [length_fit, arr_call, put_other hkc, put_other hk, arr_call, wipe_other hk, lk]
  · rw [wipe_other hc, put_other hkc.symm, arr_call, put_full, fit_self l2]
    rw [length_fit, put_other hc, arr_call, wipe_other hc, lc]

/-- `crypto_derive_private_key`, failing. -/
theorem derivePrivate_none (H : Serves sdk env) {path : List UInt32} {key chain : WArr} (hc : chain ≠ .raw) {s : Work}
    (h : env.derive path = none) : (s.derivePrivate sdk path key chain).2 ≠ 0 := by
  have t1 : (s.wipe .raw 64).time = s.time := rfl
  rcases H.derive_none path h s.time (s.time + 1) with e | ⟨e, e'⟩
  · simp only [derivePrivate, t1, error16_ne e, ne_eq, not_false_eq_true, if_true]
    exact error16 e
  · have hraw : ((((s.wipe .raw 64).call .derive true).put .raw 0
        (fit 64 (sdk.derive s.time path).2.1)).put chain 0
        (fit 32 (sdk.derive s.time path).2.2)).arr .raw = fit 64 (sdk.derive s.time path).2.1 := by
      rw [put_other hc.symm, put_full]
      rw [length_fit]; simp [length_zeros]
    have t2 : ((((s.wipe .raw 64).call .derive true).put .raw 0
        (fit 64 (sdk.derive s.time path).2.1)).put chain 0
        (fit 32 (sdk.derive s.time path).2.2)).time = s.time + 1 := rfl
    simp only [derivePrivate, t1, e, ne_eq, not_true_eq_false, if_false, decide_true, hraw, take_fit, t2]
    exact error16 e'

/-- `crypto_generate_private_key`. -/
theorem generatePrivate_some (H : Serves sdk env) (W : env.WF) {path : List UInt32} {s : Work} (hs : Sized s)
    {k : Bytes} (h : env.genPrivate path = some k) :
    (s.generatePrivate sdk path).2 = 0 ∧ (s.generatePrivate sdk path).1.arr .secret = k ∧
    (s.generatePrivate sdk path).1.hash = s.hash ∧ (s.generatePrivate sdk path).1.draws = s.draws := by
  unfold Env.genPrivate at h
  obtain ⟨⟨k', c⟩, h1, rfl⟩ := Option.map_eq_some_iff.1 h
  obtain ⟨a1, a2, a3, a4, a5⟩ := derivePrivate_some (sdk := sdk) (key := .ecfp) (chain := .chain) (s := s.wipe .ecfp 32)
    H W (by decide) (by decide) (by decide) (by simp [length_zeros]) (by rw [wipe_other (by decide)]; exact hs _) h1
  have b1 := (derivePrivate_facts (sdk := sdk) path .ecfp .chain (by decide) (by decide) (s.wipe .ecfp 32)).1
    .secret (by decide)
  obtain ⟨l1, l2⟩ := W.derive_len path _ c h1
  simp only [generatePrivate, a1, if_true]
  refine ⟨trivial, ?_, a4, a5⟩
  rw [wipe_other (by decide), wipe_other (by decide), put_full, a2]
  · exact List.take_of_length_le (by omega)
  · rw [b1, wipe_other (by decide), hs .secret, a2, List.length_take, l1]; rfl

theorem generatePrivate_none (H : Serves sdk env) {path : List UInt32} {s : Work}
    (h : env.genPrivate path = none) : (s.generatePrivate sdk path).2 ≠ 0 := by
  unfold Env.genPrivate at h
  have h1 := Option.map_eq_none_iff.1 h
  exact derivePrivate_none (key := .ecfp) (chain := .chain) (s := s.wipe .ecfp 32) H (by decide) h1

/-- `crypto_generate_public_key`. -/
theorem generatePublic_some (H : Serves sdk env) (W : env.WF) {path : List UInt32} {has : Bool} {s : Work}
    (hs : Sized s) {p c : Bytes} (h : env.genPublic path = some (p, c)) :
    (s.generatePublic sdk path has).2 = 0 ∧ (s.generatePublic sdk path has).1.arr .rawPub = p ∧
    (has = true → (s.generatePublic sdk path has).1.arr .chainOut = c) := by
  unfold Env.genPublic at h
  split at h
  · cases h
  rename_i k c' hd
  split at h
  · cases h
  rename_i p' hp
  simp only [Option.some.injEq, Prod.mk.injEq] at h
  obtain ⟨rfl, rfl⟩ := h
  have lp := W.pub_len _ _ hp
  generalize hch : (if has = true then WArr.chainOut else .tempChain) = ch
  have n1 : ch ≠ .raw := by rw [← hch]; cases has <;> decide
  have n2 : WArr.priv ≠ ch := by rw [← hch]; cases has <;> decide
  have n3 : ch ≠ .pub := by rw [← hch]; cases has <;> decide
  have n4 : WArr.rawPub ≠ ch := by rw [← hch]; cases has <;> decide
  have n5 : size ch = 32 := by rw [← hch]; cases has <;> rfl
  obtain ⟨a1, a2, a3, a4, a5⟩ := derivePrivate_some (sdk := sdk) (key := .priv) (chain := ch)
    (s := (s.wipe .priv 32).wipe .pub 65)
    H W (by decide) n2 n1 (by rw [wipe_other (by decide)]; simp [length_zeros])
    (by rw [wipe_other n3, wipe_other n2.symm, hs, n5]) hd
  have b1 := (derivePrivate_facts (sdk := sdk) path .priv ch (by decide) n1 ((s.wipe .priv 32).wipe .pub 65)).1
  have b2 := b1 .rawPub (by simp [n4])
  have b3 := b1 .pub (by simp [n3.symm])
  generalize hr : derivePrivate sdk path .priv ch ((s.wipe .priv 32).wipe .pub 65) = r at *
  have e := H.pub_some _ _ hp r.1.time
  have q : (initPublic sdk r.1).2 = 0 ∧ (initPublic sdk r.1).1.arr .rawPub = p' ∧
      (initPublic sdk r.1).1.arr ch = c' := by
    simp only [initPublic, a2, e, if_true, decide_true]
    have hpub : ((r.1.call .genPair true).put .pub 0 (fit 65 p')).arr .pub = p' := by
      rw [put_full, fit_self lp]
      rw [length_fit, arr_call, b3]; simp [length_zeros]
    refine ⟨rfl, ?_, ?_⟩
    · rw [put_full, hpub]
      · exact List.take_of_length_le (by omega)
      · rw [hpub, put_other (by decide), arr_call, b2, wipe_other (by decide), wipe_other (by decide), hs,
          List.length_take, lp]; rfl
    · rw [put_other n4.symm, put_other n3, arr_call, a3]
  obtain ⟨q1, q2, q3⟩ := q
  simp only [generatePublic, hch, hr, a1, if_true, q1]
  refine ⟨trivial, ?_, ?_⟩
  · cases has
    · simp only [Bool.false_eq_true, if_false]
      rw [wipe_other (by decide), wipe_other (by decide), q2]
    · simp only [if_true]
      rw [wipe_other (by decide), q2]
  · rintro rfl
    simp only [if_true] at hch ⊢
    rw [wipe_other (by decide), hch, q3]

theorem generatePublic_none (H : Serves sdk env) (W : env.WF) {path : List UInt32} {has : Bool} {s : Work}
    (hs : Sized s) (h : env.genPublic path = none) : (s.generatePublic sdk path has).2 ≠ 0 := by
  generalize hch : (if has = true then WArr.chainOut else .tempChain) = ch
  have n1 : ch ≠ .raw := by rw [← hch]; cases has <;> decide
  have n2 : WArr.priv ≠ ch := by rw [← hch]; cases has <;> decide
  have n3 : ch ≠ .pub := by rw [← hch]; cases has <;> decide
  have n5 : size ch = 32 := by rw [← hch]; cases has <;> rfl
  simp only [generatePublic, hch]
  unfold Env.genPublic at h
  split at h
  · rename_i hd
    have := derivePrivate_none (sdk := sdk) (key := .priv) (chain := ch) (s := (s.wipe .priv 32).wipe .pub 65) H n1 hd
    rw [if_neg this]
    exact this
  · rename_i k c' hd
    split at h
    · rename_i hp
      obtain ⟨a1, a2, a3, a4, a5⟩ := derivePrivate_some (sdk := sdk) (key := .priv) (chain := ch)
        (s := (s.wipe .priv 32).wipe .pub 65)
        H W (by decide) n2 n1 (by rw [wipe_other (by decide)]; simp [length_zeros])
        (by rw [wipe_other n3, wipe_other n2.symm, hs, n5]) hd
      rw [if_pos a1]
      simp only [initPublic, a2]
      exact error16 (H.pub_none _ hp _)
    · cases h

/-! ## The Schnorr signature -/

theorem hashInit_serves (H : Serves sdk env) (s : Work) :
    s.hashInit sdk = ({ s.call .hash true with hash := [] }, true) := by
  simp [hashInit, H.hash]
theorem hashUpdate_serves (H : Serves sdk env) (s : Work) (b : Bytes) :
    s.hashUpdate sdk b = ({ s.call .hash true with hash := s.hash ++ b }, true) := by
  simp [hashUpdate, H.hash]
theorem notLarge_serves (H : Serves sdk env) (s : Work) (k : Bytes) :
    s.notLarge sdk k = (s.call .cmp true, !decide (beNat k > secpN)) := by
  simp [notLarge, H.cmp]

theorem buf_G {s : Work} (l : (s.arr .buf).length = 65) :
    ((s.put .buf 0 [0x04]).put .buf 1 secpG).arr .buf = 0x04 :: secpG := by
  rw [put_same, put_same]
  have h2 : secpG.length = 64 := rfl
  match hb : s.arr .buf, l with
  | x :: t, l => 
    simp only [List.length_cons] at l
    have : List.drop 64 t = [] := List.drop_of_length_le (by omega)
    simp [h2, this]

theorem mulBase_some (H : Serves sdk env) (W : env.WF) {s : Work} (l : (s.arr .buf).length = 65) {k p : Bytes}
    (h : env.mulG k = some p) : ∃ s', s.mulBase sdk k = (s', true) ∧ (s'.arr .buf).take 33 = compress p ∧
      (s'.arr .buf).length = 65 ∧ (∀ a, a ≠ .buf → s'.arr a = s.arr a) ∧ s'.hash = s.hash ∧ s'.draws = s.draws := by
  have lp := W.mul_len _ _ h
  simp only [mulBase, buf_G l, H.mul_some _ _ h, ne_eq, not_true_eq_false, if_false, decide_true]
  have e : ((((s.put .buf 0 [0x04]).put .buf 1 secpG).call .mult true).put .buf 0
      (fit 65 p)).arr .buf = p := by
    rw [put_full, fit_self lp]
    rw [length_fit, arr_call, buf_G l]; rfl
  refine ⟨_, rfl, ?_, ?_, ?_, rfl, rfl⟩
  · rw [put_same, e]
    match hb : p, lp with
    | x :: t, lp => 
      simp only [List.length_cons] at lp
      simp [compress]
  · rw [put_same, e]
    simp [lp]
  · intro a ha
    rw [put_other ha, put_other ha, arr_call, put_other ha, put_other ha]

theorem mulBase_none (H : Serves sdk env) {s : Work} (l : (s.arr .buf).length = 65) {k : Bytes}
    (h : env.mulG k = none) : (s.mulBase sdk k).2 = false := by
  have e := H.mul_none _ h ((s.put .buf 0 [0x04]).put .buf 1 secpG).time
  simp only [mulBase, buf_G l, e, ne_eq, not_false_eq_true, if_true]

theorem next_dec {s : Work} {p : Prop} [Decidable p] {f : Work → Work × Bool} (h : p) : next (s, decide p) f = f s := by
  simp [next, h]
theorem next_dec_not {s : Work} {p : Prop} [Decidable p] {f : Work → Work × Bool} (h : ¬ p) :
    next (s, !decide p) f = f s := by simp [next, h]

theorem start_serves (H : Serves sdk env) (s : Work) (f : Work → Work × Bool) : ∃ s', s'.arr = s.arr ∧
    s'.hash = schnorrPrefix ∧ s'.draws = s.draws ∧
    (next (s.hashInit sdk) fun s => next (s.hashUpdate sdk schnorrPrefix) f) = f s' := by
  refine ⟨((s.hashInit sdk).1.hashUpdate sdk schnorrPrefix).1, ?_, ?_, ?_, ?_⟩ <;>
    simp only [hashInit_serves H, next_true, hashUpdate_serves H]
  all_goals rfl

theorem two_serves (H : Serves sdk env) (s : Work) (a b : Bytes) (f : Work → Work × Bool) : ∃ s', s'.arr = s.arr ∧
    s'.hash = s.hash ++ a ++ b ∧ s'.draws = s.draws ∧
    (next (s.hashUpdate sdk a) fun s => next (s.hashUpdate sdk b) f) = f s' := by
  refine ⟨((s.hashUpdate sdk a).1.hashUpdate sdk b).1, ?_, ?_, ?_, ?_⟩ <;>
    simp only [next_true, hashUpdate_serves H]
  all_goals rfl

theorem next_off {r : Work × Bool} {f : Work → Work × Bool} (h : r.2 = false) : (next r f).2 = false := by
  simp [next, h]

theorem drawNonce_facts {s : Work} (l : (s.arr .nonce).length = 32) :
    (s.drawNonce sdk).arr .nonce = fit 32 (sdk.rng s.draws) ∧
    (∀ a, a ≠ .nonce → (s.drawNonce sdk).arr a = s.arr a) ∧ (s.drawNonce sdk).hash = s.hash ∧
    (s.drawNonce sdk).draws = s.draws + 1 := by
  refine ⟨?_, fun a ha => put_other ha, rfl, rfl⟩
  exact put_full (b := fit 32 (sdk.rng s.draws)) (by rw [length_fit, l])

/-- The draws seen by an attempt. -/
def drawOf (sdk : Sdk) (i : Nat) : Bytes := fit 32 (sdk.rng i)

/-- The private key is in range and has a public key. -/
def Good (env : Env) (k : Bytes) : Prop := scalarOk k = true ∧ env.mulG k ≠ none

theorem tryInit_bad (H : Serves sdk env) {s : Work} (lb : (s.arr .buf).length = 65) (h : ¬ Good env (s.arr .secret)) :
    (s.tryInit sdk).2 = false := by
  unfold tryInit
  obtain ⟨s1, f1, _, _, e⟩ := start_serves H s _
  rw [e]
  clear e
  rw [← f1] at h lb
  by_cases h1 : beNat (s1.arr .secret) = 0
  · exact next_off (by simp [h1])
  rw [next_dec h1, notLarge_serves H]
  by_cases h2 : beNat (s1.arr .secret) > secpN
  · exact next_off (by simp [h2])
  rw [next_dec_not h2]
  refine next_off (mulBase_none (env := env) (s := s1.call .cmp true) H lb ?_)
  show env.mulG (s1.arr .secret) = none
  by_contra h3
  exact h ⟨by simp [scalarOk, h1, h2], h3⟩

theorem tryInit_good (H : Serves sdk env) (W : env.WF) {s : Work} (lb : (s.arr .buf).length = 65)
    (ln : (s.arr .nonce).length = 32) (h : Good env (s.arr .secret)) :
    (s.tryInit sdk).1.draws = s.draws + 1 ∧ ((s.tryInit sdk).1.arr .nonce).length = 32 ∧
    match schnorrTry env (s.arr .secret) (drawOf sdk s.draws) with
    | none => (s.tryInit sdk).2 = false
    | some (t, key) => (s.tryInit sdk).2 = true ∧ (s.tryInit sdk).1.hash = t ∧ (s.tryInit sdk).1.arr .nonce = key := by
  obtain ⟨h1, h2⟩ := h
  obtain ⟨p, hp⟩ := Option.ne_none_iff_exists'.1 h2
  have h1' := h1
  simp only [scalarOk, Bool.and_eq_true, decide_eq_true_eq, Bool.not_eq_eq_eq_not, Bool.not_true,
    decide_eq_false_iff_not, ne_eq] at h1'
  simp only [schnorrTry, h1, not_true_eq_false, if_false, hp]
  unfold tryInit
  obtain ⟨s0, f1', f2', f3', e⟩ := start_serves H s _
  rw [e]
  clear e
  rw [next_dec (show beNat (s0.arr .secret) ≠ 0 by rw [f1']; exact h1'.1), notLarge_serves H,
    next_dec_not (show ¬ beNat (s0.arr .secret) > secpN by rw [f1']; exact h1'.2)]
  have f1 : (s0.call .cmp true).arr = s.arr := f1'
  have f2 : (s0.call .cmp true).hash = schnorrPrefix := f2'
  have f3 : (s0.call .cmp true).draws = s.draws := f3'
  generalize s0.call .cmp true = s1 at *
  rw [f1]
  obtain ⟨s2, e2, g1, g2, g3, g4, g5⟩ := mulBase_some (sdk := sdk) H W (s := s1) (by rw [f1]; exact lb) hp
  rw [e2, next_true]
  obtain ⟨s3, i1, i2, i3, e3⟩ := two_serves (sdk := sdk) H s2 ((s2.arr .buf).take 33) schnorrSuffix _
  rw [e3, next_true]
  clear e3
  rw [g1, g4, f2] at i2
  rw [g5, f3] at i3
  obtain ⟨j1, j2, j3, j4⟩ := drawNonce_facts (sdk := sdk) (s := s3) (by rw [i1, g3 _ (by decide), f1, ln])
  generalize s3.drawNonce sdk = s4 at *
  rw [i3] at j1 j4
  have hd : drawOf sdk s.draws = s4.arr .nonce := j1.symm
  have hl : (s4.arr .nonce).length = 32 := by rw [j1, length_fit]
  rw [hd]
  by_cases k1 : beNat (s4.arr .nonce) = 0
  · rw [show decide (beNat (s4.arr .nonce) ≠ 0) = false by simp [k1], next_false]
    simp [scalarOk, k1, j4, hl]
  rw [next_dec k1, notLarge_serves H]
  by_cases k2 : beNat (s4.arr .nonce) > secpN
  · rw [show (!decide (beNat (s4.arr .nonce) > secpN)) = false by simp [k2], next_false]
    simp [scalarOk, k2, j4, hl]
  rw [next_dec_not k2]
  have hok : scalarOk (s4.arr .nonce) = true := by simp [scalarOk, k1, k2]
  simp only [hok, not_true_eq_false, if_false, arr_call]
  have lb4 : ((s4.call .cmp true).arr .buf).length = 65 := by
    rw [arr_call, j2 _ (by decide), i1, g2]
  cases hm : env.mulG (s4.arr .nonce) with
  | none =>
    have hf := mulBase_none (sdk := sdk) H lb4 hm
    have ho := only_mulBase (sdk := sdk) (S := [.buf]) (by simp) (s4.call .cmp true) (s4.arr .nonce) .nonce (by decide)
    have hdr : ((s4.call .cmp true).mulBase sdk (s4.arr .nonce)).1.draws = s4.draws := by
      simp only [mulBase]; split <;> rfl
    refine ⟨?_, ?_, next_off hf⟩
    · simp only [next, hf, Bool.false_eq_true, if_false, hdr, j4]
    · simp only [next, hf, Bool.false_eq_true, if_false, ho, arr_call, hl]
  | some w =>
    obtain ⟨s5, e5, m1, m2, m3, m4, m5⟩ := mulBase_some (sdk := sdk) H W lb4 hm
    rw [e5, next_true, hashUpdate_serves H]
    simp only [arr_call, hash_call, draws_call, m3 _ (show WArr.nonce ≠ .buf by decide), m4, m5, m1, j3, j4, i2, hl]
    simp

theorem signInitLoop_bad (H : Serves sdk env) (fuel : Nat) : ∀ s : Work, (s.arr .buf).length = 65 →
    ¬ Good env (s.arr .secret) → (s.signInitLoop sdk fuel).2 = false := by
  induction fuel with
  | zero => exact fun _ _ _ => rfl
  | succ n ih =>
    intro s lb h
    simp only [signInitLoop, tryInit_bad H lb h, Bool.false_eq_true, if_false]
    refine ih _ (by simp [length_zeros]) ?_
    rw [wipe_other (by decide), only_tryInit (sdk := sdk) s .secret (by decide)]
    exact h

theorem schnorrInitLoop_bad {k : Bytes} (h : ¬ Good env k) (draws : Nat → Bytes) (fuel : Nat) :
    ∀ i, schnorrInitLoop env k draws fuel i = none := by
  induction fuel with
  | zero => exact fun _ => rfl
  | succ n ih =>
    intro i
    have : schnorrTry env k (draws i) = none := by
      unfold schnorrTry
      split
      · rfl
      · rename_i h1
        cases hm : env.mulG k with
        | none => rfl
        | some p => exact absurd ⟨by simpa using h1, by simp [hm]⟩ h
    simp only [schnorrInitLoop, this, ih]

theorem signInitLoop_good (H : Serves sdk env) (W : env.WF) (fuel : Nat) : ∀ s : Work, (s.arr .buf).length = 65 →
    (s.arr .nonce).length = 32 → Good env (s.arr .secret) →
    match schnorrInitLoop env (s.arr .secret) (drawOf sdk) fuel s.draws with
    | none => (s.signInitLoop sdk fuel).2 = false
    | some (t, key) => (s.signInitLoop sdk fuel).2 = true ∧ (s.signInitLoop sdk fuel).1.hash = t ∧
        (s.signInitLoop sdk fuel).1.arr .nonce = key := by
  induction fuel with
  | zero => exact fun _ _ _ _ => rfl
  | succ n ih =>
    intro s lb ln h
    obtain ⟨a1, a2, a3⟩ := tryInit_good (sdk := sdk) H W lb ln h
    simp only [signInitLoop, schnorrInitLoop]
    cases ht : schnorrTry env (s.arr .secret) (drawOf sdk s.draws) with
    | some r =>
      obtain ⟨t, key⟩ := r
      rw [ht] at a3
      obtain ⟨a3, a4, a5⟩ := a3
      simp only [a3, if_true]
      exact ⟨trivial, a4, (wipe_other (by decide)).trans a5⟩
    | none =>
      rw [ht] at a3
      simp only at a3
      have hsec : ((s.tryInit sdk).1.wipe .buf 65).arr .secret = s.arr .secret :=
        (wipe_other (by decide)).trans (only_tryInit (sdk := sdk) s .secret (by decide))
      have := ih ((s.tryInit sdk).1.wipe .buf 65) (by simp [length_zeros])
        (by rw [wipe_other (by decide)]; exact a2) (by rw [hsec]; exact h)
      rw [hsec, draws_wipe, a1] at this
      simp only [a3, Bool.false_eq_true, if_false]
      exact this

theorem schnorrInitLoop_shift (k : Bytes) (draws : Nat → Bytes) (j fuel : Nat) : ∀ i,
    schnorrInitLoop env k (fun i => draws (j + i)) fuel i = schnorrInitLoop env k draws fuel (j + i) := by
  induction fuel with
  | zero => exact fun _ => rfl
  | succ n ih =>
    intro i
    simp only [schnorrInitLoop, ih, Nat.add_assoc]

theorem signInit_spec (H : Serves sdk env) (W : env.WF) (s : Work) (lb : (s.arr .buf).length = 65)
    (ln : (s.arr .nonce).length = 32) :
    match schnorrInit env (s.arr .secret) (fun i => drawOf sdk (s.draws + i)) with
    | none => (s.signInit sdk).2 = false
    | some (t, key) => (s.signInit sdk).2 = true ∧ (s.signInit sdk).1.hash = t ∧ (s.signInit sdk).1.arr .nonce = key := by
  unfold schnorrInit signInit
  rw [schnorrInitLoop_shift, Nat.add_zero]
  by_cases h : Good env (s.arr .secret)
  · exact signInitLoop_good H W 100 s lb ln h
  · rw [schnorrInitLoop_bad h]
    exact signInitLoop_bad H 100 s lb h

theorem beNat_zeros_append (n : Nat) (b : Bytes) : beNat (zeros n ++ b) = beNat b := by
  have h : ∀ n, (zeros n).foldl (fun (a : Nat) (x : UInt8) => a * 256 + x.toNat) 0 = 0 := by
    intro n
    induction n with
    | zero => rfl
    | succ n ih => simpa [zeros, List.replicate_succ] using ih
  simp [beNat, List.foldl_append, h]

theorem signFinish_spec (H : Serves sdk env) (W : env.WF) (s : Work) (hb : (s.arr .buf).length = 65)
    (hg : (s.arr .sig).length = 56) :
    match schnorrFinish env s.hash (s.arr .secret) (s.arr .nonce) with
    | none => (s.signFinish sdk).2 = false
    | some g => (s.signFinish sdk).2 = true ∧ (s.signFinish sdk).1.arr .sig = g := by
  have lbl := W.blake_len s.hash
  unfold signFinish
  have e1 : s.hashFinal sdk = ((s.call .hash true).put .sig 0 (env.blake s.hash), true) := by
    simp [hashFinal, H.hash, H.digest, fit_self lbl]
  rw [e1, next_true]
  generalize hs1 : (s.call .hash true).put .sig 0 (env.blake s.hash) = s1
  have a1 : (s1.arr .sig).take 32 = env.blake s.hash ∧ (s1.arr .sig).length = 56 := by
    rw [← hs1, put_same]
    simp only [arr_call, List.take_zero, List.nil_append, Nat.zero_add, lbl, List.length_append, List.length_drop, hg]
    refine ⟨?_, trivial⟩
    rw [List.take_append_of_le_length (by omega), List.take_of_length_le (by omega)]
  have a2 : ∀ a, a ≠ .sig → s1.arr a = s.arr a := fun a ha => by rw [← hs1, put_other ha, arr_call]
  clear hs1
  obtain ⟨a1, a3⟩ := a1
  have a4 : (s1.arr .sig).take 24 = (env.blake s.hash).take 24 := by
    rw [← a1, List.take_take]; rfl
  have lc : ((env.blake s.hash).take 24).length = 24 := by rw [List.length_take, lbl]; rfl
  have b1 : (s1.challenge.arr .buf).take 32 = zeros 8 ++ (env.blake s.hash).take 24 ∧
      (s1.challenge.arr .buf).length = 65 := by
    have hb1 : (s1.arr .buf).length = 65 := by rw [a2 _ (by decide), hb]
    unfold challenge
    rw [put_same, a4, put_same]
    simp only [List.take_zero, List.nil_append, Nat.zero_add, lc, length_zeros]
    refine ⟨?_, ?_⟩
    · rw [List.take_append_of_le_length (by simp [length_zeros]; omega), 
        List.take_of_length_le (by simp [length_zeros]; omega),
        List.take_append_of_le_length (by simp [length_zeros]), List.take_of_length_le (by simp [length_zeros])]
    · simp only [List.length_append, List.length_take, List.length_drop, length_zeros, hb1, lbl]
      rfl
  obtain ⟨b1, b2⟩ := b1
  have b3 : ∀ a, a ≠ .buf → s1.challenge.arr a = s1.arr a := fun a ha => by
    unfold challenge; rw [put_other ha, put_other ha]
  generalize s1.challenge = s2 at *
  rw [b1, beNat_zeros_append]
  unfold schnorrFinish
  by_cases hz : beNat ((env.blake s.hash).take 24) = 0
  · rw [show decide (beNat ((env.blake s.hash).take 24) ≠ 0) = false by simp [hz], next_false]
    simp [hz]
  rw [show decide (beNat ((env.blake s.hash).take 24) ≠ 0) = true by simp [hz], next_true]
  simp only [hz, if_false]
  generalize hprod : beNat ((env.blake s.hash).take 24) * beNat (s.arr .secret) % secpN = prod
  have hprodlt : prod < 256 ^ 32 := by
    rw [← hprod]
    exact Nat.lt_trans (Nat.mod_lt _ (by decide)) (by decide)
  have e3 : s2.mulSecret sdk = ((s2.call .multm true).put .buf 0 (beBytes 32 prod), true) := by
    simp only [mulSecret, H.multm, b1]
    rw [fit_self (beBytes_length _ _), b3 _ (show WArr.secret ≠ .buf by decide), a2 _ (by decide), ← secpN_eq,
      ← beNat_eq, ← beNat_eq, beNat_zeros_append, hprod]
    rfl
  rw [e3, next_true]
  generalize hs3 : (s2.call .multm true).put .buf 0 (beBytes 32 prod) = s3
  have c1 : (s3.arr .buf).take 32 = beBytes 32 prod := by
    rw [← hs3, put_same]
    simp only [List.take_zero, List.nil_append]
    rw [List.take_append_of_le_length (by rw [beBytes_length]), List.take_of_length_le (by rw [beBytes_length])]
  have c2 : ∀ a, a ≠ .buf → s3.arr a = s1.arr a := fun a ha => by
    rw [← hs3, put_other ha, arr_call, b3 _ ha]
  clear hs3
  have e4 : s3.addNonce sdk = ((s3.call .addm true).put .sig 24
      (beBytes 32 ((beNat (s.arr .nonce) + prod) % secpN)), true) := by
    simp only [addNonce, H.addm, c1]
    rw [fit_self (beBytes_length _ _), c2 _ (show WArr.nonce ≠ .buf by decide), a2 _ (by decide), ← secpN_eq,
      be_beBytes, Nat.mod_eq_of_lt hprodlt, beNat_eq]
    rfl
  rw [e4, next_true]
  refine ⟨rfl, ?_⟩
  rw [wipe_other (by decide), put_same, arr_call, c2 _ (by decide), a4, beBytes_length,
    List.drop_of_length_le (by omega), List.append_nil]

end Work
end Ergo
