import Verif.Proof.Crypto
/-!
# C65, C66: temporary copies of secrets, and failing calls
-/
namespace Ergo
open Spec Work

/-! ## A toy SDK -/

/-- Keys are `path.length + 1`, points are made from the scalar; `fail t` is the code of call `t`. -/
def toySdk (fail : Nat → UInt32) : Sdk where
  derive t p := (fail t, List.replicate 31 0 ++ [UInt8.ofNat (p.length + 1)] ++ List.replicate 32 8, List.replicate 32 1)
  initKey t k := (fail t, k)
  genPair t k := (fail t, 4 :: k.take 32 ++ List.replicate (64 - (k.take 32).length) 2)
  hashOk t := fail t = 0
  digest b := List.replicate 31 7 ++ [UInt8.ofNat b.length]
  cmp := fail
  mult t _ k := (fail t, 4 :: k.take 32 ++ List.replicate (64 - (k.take 32).length) 2)
  rng _ := List.replicate 31 0 ++ [3]
  multm t a b := (fail t, beBytes 32 (be a * be b % groupOrder))
  addm t a b := (fail t, beBytes 32 ((be a + be b) % groupOrder))

/-- Empty memory. -/
def cleanMem : Work := ⟨fun a => List.replicate (size a) 0, [], 0, []⟩

/-- The path m/44'/429'/0'/0/0. -/
def cleanPath : List UInt32 := [0x8000002C, 0x800001AD, 0x80000000, 0, 0]

theorem cleanMem_clean : Clean cleanMem := by unfold Clean; decide +kernel

/-! ## C65 -/

/-- C65 is false in general: (1) if the derivation of a key fails, what it left in the 64 bytes of the
raw key stays there; (2) if the last addition of a signature fails, the product of the private key and
the (public) challenge stays in the buffer. -/
theorem C65_negation :
    (∃ sdk, Clean cleanMem ∧ ((cleanMem.generatePublic sdk cleanPath true).1.arr .raw =
      List.replicate 31 0 ++ [6] ++ List.replicate 32 8)) ∧
    ∃ sdk, ((cleanMem.opFinish sdk cleanPath).2 = .error 0xE017 ∧
      ((cleanMem.opFinish sdk cleanPath).1.arr .buf).take 32 =
        beBytes 32 (be (List.replicate 24 7) * 6 % groupOrder)) :=
  ⟨⟨toySdk (fun t => if t = 0 then 1 else 0), cleanMem_clean, by decide +kernel⟩,
    toySdk (fun t => if t = 4 then 1 else 0), by decide +kernel⟩

theorem clean_of {s s' : Work} (h : Clean s)
    (h1 : ∀ x ∈ temporaries, s'.arr x.1 = zeros x.2 ∨ s'.arr x.1 = s.arr x.1) : Clean s' :=
  fun x hx => (h1 x hx).elim id (fun e => e.trans (h x hx))

/-- C65, public keys: after computing a public key (and chain code) nothing is left of the private key,
unless the derivation failed. -/
theorem C65_public_partial (sdk : Sdk) (path : List UInt32) (has : Bool) (s : Work) (hs : Clean s)
    (l : List (SdkCall × Bool)) (hl : Made s (s.generatePublic sdk path has).1 l) (hn : NoLeakingFailure l) :
    Clean (s.generatePublic sdk path has).1 := by
  obtain ⟨h1, h2, h3, l', h4, h5, _⟩ := generatePublic_facts (sdk := sdk) path has s
  obtain rfl : l = l' := List.append_cancel_right (hl.symm.trans h4)
  have hraw := h5 hn.1
  refine clean_of hs ?_
  intro x hx
  simp only [temporaries, List.mem_cons, List.not_mem_nil, or_false] at hx
  rcases hx with rfl | rfl | rfl | rfl | rfl | rfl | rfl
  · exact .inl hraw
  · exact .inr (h1 _ (by cases has <;> decide))
  · exact .inr (h1 _ (by cases has <;> decide))
  · exact .inl h2
  · cases has with
    | true => exact .inr (h1 _ (by decide))
    | false => exact .inl (h3 rfl)
  · exact .inr (h1 _ (by cases has <;> decide))
  · exact .inr (h1 _ (by cases has <;> decide))

/-- C65, start of a signing session: nothing is left of the private key, unless the derivation failed;
in any case only the 64 bytes of the derivation can be left.  If the start fails, no ephemeral key is
left. -/
theorem C65_init_partial (sdk : Sdk) (path : List UInt32) (network : UInt8) (s : Work) (hs : Clean s)
    (l : List (SdkCall × Bool)) (hl : Made s (s.opInit sdk path network).1 l) :
    (NoLeakingFailure l → Clean (s.opInit sdk path network).1) ∧
    (∀ x ∈ temporaries, x.1 ≠ .raw → (s.opInit sdk path network).1.arr x.1 = List.replicate x.2 0) ∧
    (s.arr .nonce = List.replicate 32 0 → (s.opInit sdk path network).2 ≠ 0x9000 →
      (s.opInit sdk path network).1.arr .nonce = List.replicate 32 0) := by
  suffices h : (∀ x ∈ temporaries, x.1 ≠ .raw → (s.opInit sdk path network).1.arr x.1 = zeros x.2) ∧
      ((SdkCall.derive, false) ∉ l → (s.opInit sdk path network).1.arr .raw = zeros 64) ∧
      (s.arr .nonce = zeros 32 → (s.opInit sdk path network).2 ≠ 0x9000 →
        (s.opInit sdk path network).1.arr .nonce = zeros 32) by
    refine ⟨fun hn x hx => ?_, h.1, h.2.2⟩
    by_cases hr : x.1 = .raw
    · obtain ⟨a, n⟩ := x
      simp only at hr
      subst hr
      simp only [temporaries, List.mem_cons, Prod.mk.injEq, reduceCtorEq, false_and, List.not_mem_nil, or_false,
        true_and] at hx
      subst hx
      exact h.2.1 hn.1
    · exact h.1 x hx hr
  unfold Made at hl
  unfold opInit at hl ⊢
  by_cases hp : ¬ pathValidate path .addressGe5
  · rw [if_pos hp] at hl ⊢
    exact ⟨fun x hx _ => hs x hx, fun _ => hs (.raw, 64) (by decide), fun h _ => h⟩
  rw [if_neg hp] at hl ⊢
  by_cases hw : ¬ networkSupported network
  · rw [if_pos hw] at hl ⊢
    exact ⟨fun x hx _ => hs x hx, fun _ => hs (.raw, 64) (by decide), fun h _ => h⟩
  rw [if_neg hw] at hl ⊢
  obtain ⟨g1, g2, g3, g4, g5⟩ := generatePrivate_facts (sdk := sdk) path s
  simp only at hl ⊢
  generalize s.generatePrivate sdk path = r at *
  have hbuf : r.1.arr .buf = zeros 65 := (g1 _ (by decide)).trans (hs (.buf, 65) (by decide))
  by_cases h0 : r.2 ≠ 0
  · rw [if_pos h0] at hl ⊢
    refine ⟨?_, ?_, ?_⟩
    · intro x hx hr
      simp only [temporaries, List.mem_cons, List.not_mem_nil, or_false] at hx
      rcases hx with rfl | rfl | rfl | rfl | rfl | rfl | rfl
      · exact absurd rfl hr
      · exact (wipe_other (by decide)).trans g2
      · exact (wipe_other (by decide)).trans g3
      · exact (wipe_other (by decide)).trans ((g1 _ (by decide)).trans (hs (.priv, 32) (by decide)))
      · exact (wipe_other (by decide)).trans ((g1 _ (by decide)).trans (hs (.tempChain, 32) (by decide)))
      · exact wipe_same _ _ _
      · exact (wipe_other (by decide)).trans hbuf
    · intro hd
      rcases g5 with ⟨g5, _⟩ | ⟨g5, _⟩
      · have := append_eq_one (g5.symm.trans hl)
        rw [this] at hd; simp at hd
      · exact (wipe_other (by decide)).trans g5
    · intro hz _
      exact (wipe_other (by decide)).trans ((g1 _ (by decide)).trans hz)
  rw [if_neg h0] at hl ⊢
  obtain ⟨i1, i2⟩ := only_signInitLoop (sdk := sdk) 100 r.1
  obtain ⟨j1, _⟩ := signInitLoop_ok (sdk := sdk) 100 r.1
  have e : r.1.signInitLoop sdk 100 = r.1.signInit sdk := rfl
  rw [e] at i1 i2 j1
  generalize r.1.signInit sdk = q at *
  have fin : ∀ m : Work, (∀ a, a ≠ .nonce → m.arr a = (q.1.wipe .secret 32).arr a) → m.calls = q.1.calls →
      m.calls = l ++ s.calls →
      (∀ x ∈ temporaries, x.1 ≠ .raw → m.arr x.1 = zeros x.2) ∧
      ((SdkCall.derive, false) ∉ l → m.arr .raw = zeros 64) := by
    intro m hm hmc hl
    refine ⟨?_, ?_⟩
    · intro x hx hr
      simp only [temporaries, List.mem_cons, List.not_mem_nil, or_false] at hx
      rcases hx with rfl | rfl | rfl | rfl | rfl | rfl | rfl
      · exact absurd rfl hr
      · exact (hm _ (by decide)).trans ((wipe_other (by decide)).trans ((i1 _ (by decide)).trans g2))
      · exact (hm _ (by decide)).trans ((wipe_other (by decide)).trans ((i1 _ (by decide)).trans g3))
      · exact (hm _ (by decide)).trans ((wipe_other (by decide)).trans ((i1 _ (by decide)).trans
          ((g1 _ (by decide)).trans (hs (.priv, 32) (by decide)))))
      · exact (hm _ (by decide)).trans ((wipe_other (by decide)).trans ((i1 _ (by decide)).trans
          ((g1 _ (by decide)).trans (hs (.tempChain, 32) (by decide)))))
      · exact (hm _ (by decide)).trans (wipe_same _ _ _)
      · exact (hm _ (by decide)).trans ((wipe_other (by decide)).trans (i2 hbuf))
    · intro hd
      rcases g5 with ⟨g5, _⟩ | ⟨g5, _⟩
      · exfalso
        obtain ⟨l', j1⟩ := j1
        have e1 : l = l' ++ [(.derive, false)] := by
          refine List.append_cancel_right (bs := s.calls) ?_
          rw [← hl, hmc, j1, g5]; simp
        rw [e1] at hd; simp at hd
      · exact (hm _ (by decide)).trans ((wipe_other (by decide)).trans ((i1 _ (by decide)).trans g5))
  by_cases hq : ¬ q.2 = true
  · rw [if_pos hq] at hl ⊢
    obtain ⟨f1, f2⟩ := fin _ (fun a ha => wipe_other ha) rfl hl
    exact ⟨f1, f2, fun _ _ => wipe_same _ _ _⟩
  · rw [if_neg hq] at hl ⊢
    obtain ⟨f1, f2⟩ := fin _ (fun a ha => rfl) rfl hl
    exact ⟨f1, f2, fun _ h => absurd rfl h⟩

/-- C65, the signature: nothing is left of the private key, unless the derivation or one of the two
computations with the private key failed; in any case only the 64 bytes of the derivation and the buffer
of the computation can be left.  The ephemeral key is always erased. -/
theorem C65_finish_partial (sdk : Sdk) (path : List UInt32) (s : Work) (hs : Clean s)
    (l : List (SdkCall × Bool)) (hl : Made s (s.opFinish sdk path).1 l) :
    (NoLeakingFailure l → Clean (s.opFinish sdk path).1) ∧
    (∀ x ∈ temporaries, x.1 ≠ .raw → x.1 ≠ .buf → (s.opFinish sdk path).1.arr x.1 = List.replicate x.2 0) ∧
    (s.opFinish sdk path).1.arr .nonce = List.replicate 32 0 := by
  suffices h : (∀ x ∈ temporaries, x.1 ≠ .raw → x.1 ≠ .buf → (s.opFinish sdk path).1.arr x.1 = zeros x.2) ∧
      (NoLeakingFailure l → (s.opFinish sdk path).1.arr .raw = zeros 64 ∧
        (s.opFinish sdk path).1.arr .buf = zeros 65) ∧
      (s.opFinish sdk path).1.arr .nonce = zeros 32 by
    refine ⟨fun hn x hx => ?_, h.1, h.2.2⟩
    obtain ⟨e1, e2⟩ := h.2.1 hn
    by_cases hr : x.1 = .raw ∨ x.1 = .buf
    · simp only [temporaries, List.mem_cons, List.not_mem_nil, or_false] at hx
      rcases hx with rfl | rfl | rfl | rfl | rfl | rfl | rfl
      · exact e1
      · simp at hr
      · simp at hr
      · simp at hr
      · simp at hr
      · simp at hr
      · exact e2
    · exact h.1 x hx (fun e => hr (.inl e)) (fun e => hr (.inr e))
  unfold Made at hl
  unfold opFinish at hl ⊢
  obtain ⟨g1, g2, g3, g4, g5⟩ := generatePrivate_facts (sdk := sdk) path s
  simp only at hl ⊢
  generalize s.generatePrivate sdk path = r at *
  have hbuf : r.1.arr .buf = zeros 65 := (g1 _ (by decide)).trans (hs (.buf, 65) (by decide))
  by_cases h0 : r.2 ≠ 0
  · rw [if_pos h0] at hl ⊢
    refine ⟨?_, ?_, wipe_same _ _ _⟩
    · intro x hx hr hb
      simp only [temporaries, List.mem_cons, List.not_mem_nil, or_false] at hx
      rcases hx with rfl | rfl | rfl | rfl | rfl | rfl | rfl
      · exact absurd rfl hr
      · exact (wipe_other (by decide)).trans g2
      · exact (wipe_other (by decide)).trans g3
      · exact (wipe_other (by decide)).trans ((g1 _ (by decide)).trans (hs (.priv, 32) (by decide)))
      · exact (wipe_other (by decide)).trans ((g1 _ (by decide)).trans (hs (.tempChain, 32) (by decide)))
      · exact (wipe_other (by decide)).trans ((g4 h0).trans (hs (.secret, 32) (by decide)))
      · exact absurd rfl hb
    · intro hd
      refine ⟨?_, (wipe_other (by decide)).trans hbuf⟩
      rcases g5 with ⟨g5, _⟩ | ⟨g5, _⟩
      · have := append_eq_one (g5.symm.trans hl)
        have hd := hd.1
        rw [this] at hd; simp at hd
      · exact (wipe_other (by decide)).trans g5
  rw [if_neg h0] at hl ⊢
  have i1 := only_signFinish (sdk := sdk) r.1
  obtain ⟨l', j1, j2, _⟩ := signFinish_facts (sdk := sdk) r.1
  generalize r.1.signFinish sdk = q at *
  refine ⟨?_, ?_, wipe_same _ _ _⟩
  · intro x hx hr hb
    simp only [temporaries, List.mem_cons, List.not_mem_nil, or_false] at hx
    have w : ∀ a, a ≠ .nonce → a ≠ .secret → ((q.1.wipe .secret 32).wipe .nonce 32).arr a = q.1.arr a :=
      fun a h1 h2 => (wipe_other h1).trans (wipe_other h2)
    rcases hx with rfl | rfl | rfl | rfl | rfl | rfl | rfl
    · exact absurd rfl hr
    · exact (w _ (by decide) (by decide)).trans ((i1 _ (by decide)).trans g2)
    · exact (w _ (by decide) (by decide)).trans ((i1 _ (by decide)).trans g3)
    · exact (w _ (by decide) (by decide)).trans ((i1 _ (by decide)).trans
        ((g1 _ (by decide)).trans (hs (.priv, 32) (by decide))))
    · exact (w _ (by decide) (by decide)).trans ((i1 _ (by decide)).trans
        ((g1 _ (by decide)).trans (hs (.tempChain, 32) (by decide))))
    · exact (wipe_other (by decide)).trans (wipe_same _ _ _)
    · exact absurd rfl hb
  · intro hd
    have hl : q.1.calls = l ++ s.calls := hl
    have w : ∀ a, a ≠ .nonce → a ≠ .secret → ((q.1.wipe .secret 32).wipe .nonce 32).arr a = q.1.arr a :=
      fun a h1 h2 => (wipe_other h1).trans (wipe_other h2)
    have hsub : ∀ c, c ∈ l' → c ∈ l := by
      intro c hc
      obtain ⟨z, hz⟩ : ∃ z, r.1.calls = z ++ s.calls := by
        rcases g5 with ⟨g5, _⟩ | ⟨_, b, t, k, g5, _⟩
        · exact ⟨[_], g5⟩
        · exact ⟨[_, _], g5⟩
      have e1 : l = l' ++ z := by
        refine List.append_cancel_right (bs := s.calls) ?_
        rw [← hl, j1, hz]; simp
      rw [e1]; simp [hc]
    refine ⟨?_, ?_⟩
    · rcases g5 with ⟨g5, _⟩ | ⟨g5, _⟩
      · exfalso
        have e1 : l = l' ++ [(.derive, false)] := by
          refine List.append_cancel_right (bs := s.calls) ?_
          rw [← hl, j1, g5]; simp
        have hd := hd.1
        rw [e1] at hd; simp at hd
      · exact (w _ (by decide) (by decide)).trans ((i1 _ (by decide)).trans g5)
    · exact (w _ (by decide) (by decide)).trans
        (j2 (fun h => hd.2.1 (hsub _ h)) (fun h => hd.2.2 (hsub _ h)) hbuf)

/-- A complete signature with the toy SDK: the calls, and clean memory although the key was there. -/
example : let s := cleanMem.opInit (toySdk fun _ => 0) cleanPath 0
    s.2 = 0x9000 ∧ s.1.arr .nonce = List.replicate 31 0 ++ [3] ∧
    (s.1.opFinish (toySdk fun _ => 0) cleanPath).2 =
      .ok (List.replicate 24 7 ++ beBytes 32 ((3 + be (List.replicate 24 7) * 6) % groupOrder)) ∧
    (s.1.opFinish (toySdk fun _ => 0) cleanPath).1.calls.length = 16 := by
  decide +kernel

/-- The first scalar multiplication fails once: a second attempt. -/
example : let s := cleanMem.opInit (toySdk fun t => if t = 5 then 1 else 0) cleanPath 0
    s.2 = 0x9000 ∧ s.1.calls.length = 15 ∧ s.1.draws = 1 := by
  decide +kernel

/-! ## C66 -/

/-- C66 is false for arbitrary error codes: `crypto_derive_private_key` cuts the code to 16 bits, so that
an error with code 0x10000 counts as success; the signature is then made with the private key 0. -/
theorem C66_negation : ∃ sdk, (sdk.derive 0 cleanPath).1 = 0x10000 ∧
    (cleanMem.opFinish sdk cleanPath).2 =
      .ok (List.replicate 24 7 ++ List.replicate 32 0) :=
  ⟨{ toySdk (fun _ => 0) with derive := fun _ _ => (0x10000, [], []) }, rfl, by decide +kernel⟩

theorem cut_zero (c : UInt32) : c.toUInt16 = 0 ↔ c.toNat % 65536 = 0 := by
  rw [← UInt16.toNat_inj, UInt32.toNat_toUInt16]; rfl

/-- C66, public keys: a public key is returned only if every call succeeded. -/
theorem C66_public_partial (sdk : Sdk) (hc : CodesSurvive sdk) (path : List UInt32) (has : Bool) (s : Work)
    (h : (s.generatePublic sdk path has).2 = 0) :
    Made s (s.generatePublic sdk path has).1 [(.genPair, true), (.initKey, true), (.derive, true)] := by
  obtain ⟨_, _, _, l, h4, _, h6⟩ := generatePublic_facts (sdk := sdk) path has s
  rw [h6 hc h] at h4
  exact h4

theorem generatePrivate_ok {sdk : Sdk} (hc : CodesSurvive sdk) {path : List UInt32} {s : Work}
    (h : (s.generatePrivate sdk path).2 = 0) :
    (s.generatePrivate sdk path).1.calls = (.initKey, true) :: (.derive, true) :: s.calls := by
  obtain ⟨_, _, _, _, g5⟩ := generatePrivate_facts (sdk := sdk) path s
  rcases g5 with ⟨_, g5, g6⟩ | ⟨_, b, t, k, g5, g6, g7⟩
  · rw [g6, cut_zero] at h
    exact absurd h (hc.1 _ _ g5)
  · rw [g6, cut_zero] at h
    have e : (sdk.initKey t k).1 = 0 := by
      by_contra hne; exact hc.2.1 _ _ hne h
    rw [g5, g7]; simp [e]

/-- C66, start: a session starts only if the derivation succeeded and every call of the last attempt. -/
theorem C66_init_partial (sdk : Sdk) (hc : CodesSurvive sdk) (path : List UInt32) (network : UInt8) (s : Work)
    (h : (s.opInit sdk path network).2 = 0x9000) :
    ∃ before, Made s (s.opInit sdk path network).1
      ([(.hash, true), (.mult, true), (.cmp, true), (.hash, true), (.hash, true), (.mult, true), (.cmp, true),
        (.hash, true), (.hash, true)] ++ before ++ [(.initKey, true), (.derive, true)]) := by
  unfold opInit at h ⊢
  by_cases hp : ¬ pathValidate path .addressGe5
  · rw [if_pos hp] at h; exact absurd h (show ¬ Sw.bip32BadPath = (0x9000 : UInt16) by decide)
  rw [if_neg hp] at h ⊢
  by_cases hw : ¬ networkSupported network
  · rw [if_pos hw] at h; exact absurd h (show ¬ Sw.badNetType = (0x9000 : UInt16) by decide)
  rw [if_neg hw] at h ⊢
  simp only at h ⊢
  by_cases h0 : (s.generatePrivate sdk path).2 ≠ 0
  · rw [if_pos h0] at h; exact absurd h (show ¬ Sw.internalCryptoError = 0x9000 by decide)
  rw [if_neg h0] at h ⊢
  have hg := generatePrivate_ok hc (Decidable.not_not.1 h0)
  obtain ⟨_, j2⟩ := signInitLoop_ok (sdk := sdk) 100 (s.generatePrivate sdk path).1
  by_cases hq : ¬ ((s.generatePrivate sdk path).1.signInit sdk).2 = true
  · rw [if_pos hq] at h; exact absurd h (show ¬ Sw.internalCryptoError = 0x9000 by decide)
  rw [if_neg hq]
  obtain ⟨l, e⟩ := j2 (Decidable.not_not.1 hq)
  refine ⟨l, ?_⟩
  show (signInitLoop sdk 100 _).1.calls = _
  rw [e, hg]
  simp [attemptCalls]

/-- C66, signature: a signature is sent only if every call succeeded. -/
theorem C66_finish_partial (sdk : Sdk) (hc : CodesSurvive sdk) (path : List UInt32) (s : Work) (sig : Bytes)
    (h : (s.opFinish sdk path).2 = .ok sig) :
    Made s (s.opFinish sdk path).1
      [(.addm, true), (.multm, true), (.hash, true), (.initKey, true), (.derive, true)] := by
  unfold opFinish at h ⊢
  simp only at h ⊢
  by_cases h0 : (s.generatePrivate sdk path).2 ≠ 0
  · rw [if_pos h0] at h; cases h
  rw [if_neg h0] at h ⊢
  have hg := generatePrivate_ok hc (Decidable.not_not.1 h0)
  obtain ⟨l', j1, _, j3⟩ := signFinish_facts (sdk := sdk) (s.generatePrivate sdk path).1
  by_cases hq : ((s.generatePrivate sdk path).1.signFinish sdk).2 = true
  · show ((s.generatePrivate sdk path).1.signFinish sdk).1.calls = _
    rw [j1, j3 hq, hg]
    rfl
  · simp only [hq, if_false, Bool.false_eq_true] at h
    cases h

/-- The toy SDK with any code at any call that has a low half: the hypothesis can be met. -/
example : CodesSurvive (toySdk fun t => if t = 5 then 0xFFFFFF21 else 0) := by
  refine ⟨fun t _ h => ?_, fun t _ h => ?_, fun t _ h => ?_⟩ <;>
  · simp only [toySdk] at h ⊢
    split at h
    · rename_i e; simp [e]
    · exact absurd rfl h

end Ergo
