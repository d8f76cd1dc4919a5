import Verif.Proof.BoxSim
import Verif.Model.Full
/-!
# Serializer calls on consecutive pieces and on their concatenation
-/
namespace Ergo

variable {σ : Type}

theorem bufBytes_more {n : Nat} {a v rest : Bytes} (b : Bytes) (h : bufBytes n a = some (v, rest)) :
    bufBytes n (a ++ b) = some (v, rest ++ b) := by
  unfold bufBytes at h ⊢
  split at h
  · simp at h
  · simp only [Option.some.injEq, Prod.mk.injEq] at h
    obtain ⟨rfl, rfl⟩ := h
    rename_i hl
    rw [if_neg (by simp; omega), List.take_append_of_le_length (by omega),
      List.drop_append_of_le_length (by omega)]

theorem bufU64_more {a rest : Bytes} {v : UInt64} (b : Bytes) (h : bufU64 a = some (v, rest)) :
    bufU64 (a ++ b) = some (v, rest ++ b) := by
  unfold bufU64 at h
  split at h
  · simp only [Option.some.injEq, Prod.mk.injEq] at h
    obtain ⟨rfl, rfl⟩ := h
    rfl
  · simp at h

theorem bufU32_more {a rest : Bytes} {v : UInt32} (b : Bytes) (h : bufU32 a = some (v, rest)) :
    bufU32 (a ++ b) = some (v, rest ++ b) := by
  unfold bufU32 at h
  split at h
  · simp only [Option.some.injEq, Prod.mk.injEq] at h
    obtain ⟨rfl, rfl⟩ := h
    rfl
  · simp at h

theorem boxTokenId_more {table : Option TableArg} {a id rest hashed : Bytes} (b : Bytes)
    (h : boxTokenId table a = .ok (id, rest, hashed)) :
    boxTokenId table (a ++ b) = .ok (id, rest ++ b, hashed) := by
  cases table with
  | none =>
    simp only [boxTokenId] at h ⊢
    split at h
    · simp at h
    · rename_i hb
      rw [bufBytes_more b hb]
      simp only [Except.ok.injEq, Prod.mk.injEq] at h ⊢
      obtain ⟨rfl, rfl, rfl⟩ := h
      exact ⟨rfl, rfl, rfl⟩
  | some p =>
    obtain ⟨dn, t⟩ := p
    simp only [boxTokenId] at h ⊢
    split at h
    · simp at h
    · rename_i hb
      rw [bufU32_more b hb]
      split at h
      · simp at h
      · rename_i hl
        simp only [Except.ok.injEq, Prod.mk.injEq] at h
        obtain ⟨rfl, rfl, rfl⟩ := h
        simp only [if_neg hl]

/-! ## Loops -/

/-- A passing loop does not depend on the fuel. -/
theorem tokensLoop_fuel (cbs : BoxCbs σ) (table : Option TableArg) :
    ∀ (n : Nat) (a : Bytes) (x x' : BoxSt σ) (r : Res BoxErr),
      BoxSt.tokensLoop cbs table n a x = (x', r) → r.passes → ∀ m b, b.length ≤ m →
      ∃ j, b.length ≤ j ∧
        BoxSt.tokensLoop cbs table (n + m) (a ++ b) x = BoxSt.tokensLoop cbs table j b x' := by
  intro n
  induction n with
  | zero =>
    intro a x x' r h hp m b hm
    cases a with
    | nil =>
      simp only [BoxSt.tokensLoop, Prod.mk.injEq] at h
      obtain ⟨rfl, rfl⟩ := h
      exact ⟨0 + m, by omega, rfl⟩
    | cons c cs =>
      simp only [BoxSt.tokensLoop, Prod.mk.injEq] at h
      obtain ⟨rfl, rfl⟩ := h
      simp [Res.passes] at hp
  | succ n ih =>
    intro a x x' r h hp m b hm
    cases a with
    | nil =>
      simp only [BoxSt.tokensLoop, Prod.mk.injEq] at h
      obtain ⟨rfl, rfl⟩ := h
      exact ⟨n + 1 + m, by omega, rfl⟩
    | cons c cs =>
      rw [show n + 1 + m = (n + m) + 1 by omega, List.cons_append]
      simp only [BoxSt.tokensLoop] at h ⊢
      split at h
      · exact (fail_not_passes h hp).elim
      rename_i hc
      rw [if_neg hc]
      split at h
      · exact (fail_not_passes h hp).elim
      · simp only [Prod.mk.injEq] at h
        obtain ⟨rfl, rfl⟩ := h
        simp [Res.passes] at hp
      rename_i id rest hashed hid
      have hid' := boxTokenId_more b hid
      rw [List.cons_append] at hid'
      rw [hid']
      simp only
      split at h
      · exact (fail_not_passes h hp).elim
      rename_i v rest' hv
      rw [bufU64_more b hv]
      simp only
      obtain ⟨h1, h2⟩ := check_passes h hp
      obtain ⟨j, hj, e⟩ := ih _ _ _ _ h2 hp m b hm
      refine ⟨j, hj, ?_⟩
      rw [← e]
      generalize (cbs.onToken x.c.type id v x.s).2 = q at h1
      cases q <;> simp_all [Res.passes, BoxSt.check]

theorem tokensLoop_enough (cbs : BoxCbs σ) (table : Option TableArg) :
    ∀ (n m : Nat) (a : Bytes) (x : BoxSt σ), a.length ≤ n → a.length ≤ m →
      BoxSt.tokensLoop cbs table n a x = BoxSt.tokensLoop cbs table m a x := by
  intro n
  induction n with
  | zero =>
    intro m a x h1 h2
    cases a with
    | nil => simp only [BoxSt.tokensLoop]
    | cons c cs => simp at h1
  | succ n ih =>
    intro m a x h1 h2
    cases a with
    | nil => simp only [BoxSt.tokensLoop]
    | cons c cs =>
      cases m with
      | zero => simp at h2
      | succ m =>
        simp only [BoxSt.tokensLoop]
        split
        · rfl
        split
        · rfl
        · rfl
        rename_i id rest hashed hid
        split
        · rfl
        rename_i v rest' hv
        obtain ⟨a', ha, hal, _⟩ := boxTokenId_ok hid hv
        have hl : rest'.length + itemWidth table = (c :: cs).length := by
          rw [ha, List.length_append, hal]; omega
        have := itemWidth_pos table
        rw [ih m rest' _ (by omega) (by omega)]

/-- The token loop on two pieces. -/
theorem tokensLoop_join {cbs : BoxCbs σ} {table : Option TableArg} {a b : Bytes} {x x1 : BoxSt σ}
    {r : Res BoxErr} (h : BoxSt.tokensLoop cbs table a.length a x = (x1, r)) (hp : r.passes) :
    BoxSt.tokensLoop cbs table (a ++ b).length (a ++ b) x =
      BoxSt.tokensLoop cbs table b.length b x1 := by
  obtain ⟨j, hj, e⟩ := tokensLoop_fuel cbs table _ _ _ _ _ h hp b.length b (Nat.le_refl _)
  rw [List.length_append, e]
  exact tokensLoop_enough cbs table _ _ _ _ hj (Nat.le_refl _)

/-! ## The box serializer -/

theorem treeAdded_leaves {cbs : BoxCbs σ} {x x' : BoxSt σ} {r : Res BoxErr}
    (h : x.treeAdded cbs = (x', r)) (hp : r.passes) : r = .ok ∧ x'.c.state ≠ .initialized := by
  unfold BoxSt.treeAdded at h
  obtain ⟨_, h2⟩ := check_passes h hp
  simp only at h2
  split at h2
  · split at h2
    · obtain ⟨e0, e, _⟩ := finish_passes h2 hp
      rw [e]; exact ⟨e0, by simp⟩
    · simp only [Prod.mk.injEq] at h2
      obtain ⟨rfl, rfl⟩ := h2; simp
  · simp only [Prod.mk.injEq] at h2
    obtain ⟨rfl, rfl⟩ := h2; simp

theorem u32_sub_two (s : UInt32) {m n : Nat} (h : m + n ≤ s.toNat) :
    s - UInt32.ofNat m - UInt32.ofNat n = s - UInt32.ofNat (m + n) := by
  rw [← UInt32.toNat_inj, u32_sub_ofNat _ (by rw [u32_sub_ofNat _ (by omega)]; omega),
    u32_sub_ofNat _ (by omega), u32_sub_ofNat _ h]
  omega

theorem addTree_join {cbs : BoxCbs σ} {x x1 x2 : BoxSt σ} {r1 r2 : Res BoxErr} {a b : Bytes}
    (h1 : x.addTree cbs a = (x1, r1)) (p1 : r1.passes) (h2 : x1.addTree cbs b = (x2, r2))
    (p2 : r2.passes) :
    r1 = .more ∧ maxChunk ≤ a.length ∧ x1.s = x.s ∧ x.addTree cbs (a ++ b) = (x2, r2) := by
  unfold BoxSt.addTree at h1
  split at h1
  · exact (fail_not_passes h1 p1).elim
  rename_i hs
  split at h1
  · exact (fail_not_passes h1 p1).elim
  rename_i hl
  split at h1
  · exact (fail_not_passes h1 p1).elim
  rename_i hm
  simp only at h1
  split at h1
  · have := (treeAdded_leaves h1 p1).2
    unfold BoxSt.addTree at h2
    rw [if_pos this] at h2
    exact (fail_not_passes h2 p2).elim
  rename_i hz
  simp only [Prod.mk.injEq] at h1
  obtain ⟨rfl, rfl⟩ := h1
  have hsz := u32_sub_ofNat x.c.treeSize (k := a.length) (by omega)
  rw [u32_eq_zero, hsz] at hz
  unfold BoxSt.addTree at h2
  rw [if_neg hs] at h2
  split at h2
  · exact (fail_not_passes h2 p2).elim
  rename_i hl2
  split at h2
  · exact (fail_not_passes h2 p2).elim
  rename_i hm2
  simp only [hsz] at hl2 hm2
  refine ⟨rfl, by omega, rfl, ?_⟩
  unfold BoxSt.addTree
  rw [if_neg hs, if_neg (by simp; omega), if_neg (by simp; omega)]
  simp only [List.length_append, ← u32_sub_two x.c.treeSize (m := a.length) (n := b.length) (by omega),
    ← List.append_assoc]
  exact h2

theorem addTokens_join {cbs : BoxCbs σ} {table : Option TableArg} {x x1 x2 : BoxSt σ}
    {r1 r2 : Res BoxErr} {a b : Bytes}
    (h1 : x.addTokens cbs table a = (x1, r1)) (p1 : r1.passes)
    (h2 : x1.addTokens cbs table b = (x2, r2)) (p2 : r2.passes) :
    r1 = .more ∧ x.addTokens cbs table (a ++ b) = (x2, r2) := by
  unfold BoxSt.addTokens at h1
  split at h1
  · exact (fail_not_passes h1 p1).elim
  rename_i hs
  have bad : x1.c.state ≠ .treeAdded → False := by
    intro hne
    unfold BoxSt.addTokens at h2
    rw [if_pos hne] at h2
    exact fail_not_passes h2 p2
  split at h1
  swap
  · rename_i hne
    obtain ⟨e, _⟩ := tokensLoop_passes cbs table _ _ _ _ _ h1 p1
    subst e
    exact absurd h1 (hne _)
  rename_i y hl
  split at h1
  · split at h1
    · obtain ⟨_, e, _⟩ := finish_passes h1 p1
      exact (bad (by rw [e]; simp)).elim
    · simp only [Prod.mk.injEq] at h1
      obtain ⟨rfl, rfl⟩ := h1
      exact (bad (by simp)).elim
  simp only [Prod.mk.injEq] at h1
  obtain ⟨rfl, rfl⟩ := h1
  refine ⟨rfl, ?_⟩
  unfold BoxSt.addTokens at h2 ⊢
  rw [if_neg hs, tokensLoop_join hl rfl]
  rw [if_neg (fun hne => bad hne)] at h2
  exact h2

theorem addRegisters_join {cbs : BoxCbs σ} {x x1 x2 : BoxSt σ} {r1 r2 : Res BoxErr} {a b : Bytes}
    (h1 : x.addRegisters cbs a = (x1, r1)) (p1 : r1.passes)
    (h2 : x1.addRegisters cbs b = (x2, r2)) (p2 : r2.passes) :
    r1 = .more ∧ x.addRegisters cbs (a ++ b) = (x2, r2) := by
  unfold BoxSt.addRegisters at h1
  split at h1
  · exact (fail_not_passes h1 p1).elim
  rename_i hs
  split at h1
  · exact (fail_not_passes h1 p1).elim
  rename_i hl
  simp only at h1
  split at h1
  · obtain ⟨_, e, _⟩ := finish_passes h1 p1
    unfold BoxSt.addRegisters at h2
    rw [if_pos (by rw [e]; simp)] at h2
    exact (fail_not_passes h2 p2).elim
  rename_i hz
  simp only [Prod.mk.injEq] at h1
  obtain ⟨rfl, rfl⟩ := h1
  have hsz := u32_sub_ofNat x.c.regsSize (k := a.length) (by omega)
  refine ⟨rfl, ?_⟩
  unfold BoxSt.addRegisters at h2
  rw [if_neg hs] at h2
  split at h2
  · exact (fail_not_passes h2 p2).elim
  rename_i hl2
  simp only [hsz] at hl2
  unfold BoxSt.addRegisters
  rw [if_neg hs, if_neg (by simp; omega)]
  simp only [List.length_append, ← u32_sub_two x.c.regsSize (m := a.length) (n := b.length) (by omega),
    ← List.append_assoc]
  exact h2

/-! ## The other serializers -/

theorem full_fail_not_passes {x x' : FullSt} {e : FullErr} {r : Res FullErr}
    (h : x.fail e = (x', r)) (hp : r.passes) : False := by
  simp only [FullSt.fail, Prod.mk.injEq] at h
  obtain ⟨rfl, rfl⟩ := h
  simp [Res.passes] at hp

theorem tableAddLoop_fuel (dn : UInt8) : ∀ (n : Nat) (a : Bytes) (t t' : List Bytes)
    (r : Res TableErr), tableAddLoop dn n a t = (t', r) → r.passes → ∀ m b, b.length ≤ m →
    r = .ok ∧ ∃ j, b.length ≤ j ∧ tableAddLoop dn (n + m) (a ++ b) t = tableAddLoop dn j b t' := by
  intro n
  induction n with
  | zero =>
    intro a t t' r h hp m b hm
    cases a with
    | nil =>
      simp only [tableAddLoop, Prod.mk.injEq] at h
      obtain ⟨rfl, rfl⟩ := h
      exact ⟨rfl, 0 + m, by omega, rfl⟩
    | cons c cs =>
      simp only [tableAddLoop, Prod.mk.injEq] at h
      obtain ⟨rfl, rfl⟩ := h
      simp [Res.passes] at hp
  | succ n ih =>
    intro a t t' r h hp m b hm
    cases a with
    | nil =>
      simp only [tableAddLoop, Prod.mk.injEq] at h
      obtain ⟨rfl, rfl⟩ := h
      exact ⟨rfl, n + 1 + m, by omega, rfl⟩
    | cons c cs =>
      rw [show n + 1 + m = (n + m) + 1 by omega, List.cons_append]
      simp only [tableAddLoop] at h ⊢
      split at h
      · simp only [Prod.mk.injEq] at h
        obtain ⟨rfl, rfl⟩ := h
        simp [Res.passes] at hp
      rename_i hc
      rw [if_neg hc]
      split at h
      · simp only [Prod.mk.injEq] at h
        obtain ⟨rfl, rfl⟩ := h
        simp [Res.passes] at hp
      rename_i id rest hid
      have hid' := bufBytes_more b hid
      rw [List.cons_append] at hid'
      rw [hid']
      exact ih _ _ _ _ h hp m b hm

theorem tableAddLoop_enough (dn : UInt8) : ∀ (n m : Nat) (a : Bytes) (t : List Bytes),
    a.length ≤ n → a.length ≤ m → tableAddLoop dn n a t = tableAddLoop dn m a t := by
  intro n
  induction n with
  | zero =>
    intro m a x h1 h2
    cases a with
    | nil => simp only [tableAddLoop]
    | cons c cs => simp at h1
  | succ n ih =>
    intro m a x h1 h2
    cases a with
    | nil => simp only [tableAddLoop]
    | cons c cs =>
      cases m with
      | zero => simp at h2
      | succ m =>
        simp only [tableAddLoop]
        split
        · rfl
        split
        · rfl
        rename_i id rest hid
        obtain ⟨e, hl⟩ := bufBytes_some hid
        have hl' : rest.length + idLen = (c :: cs).length := by rw [e, List.length_append, hl]; omega
        have : idLen = 32 := rfl
        exact ih m rest _ (by omega) (by omega)

theorem fullAddTokens_join {x x1 x2 : FullSt} {r1 r2 : Res FullErr} {a b : Bytes}
    (h1 : x.addTokens a = (x1, r1)) (p1 : r1.passes) (h2 : x1.addTokens b = (x2, r2))
    (p2 : r2.passes) : x.addTokens (a ++ b) = (x2, r2) := by
  unfold FullSt.addTokens at h1
  split at h1
  · exact (full_fail_not_passes h1 p1).elim
  rename_i hs
  have bad : x1.c.state ≠ .tokensStarted → False := by
    intro hne
    unfold FullSt.addTokens at h2
    rw [if_pos hne] at h2
    exact full_fail_not_passes h2 p2
  simp only at h1
  generalize hq : tableAdd x.c.distinct a x.s.a.table = q at h1
  obtain ⟨t1, q⟩ := q
  cases q with
  | ok =>
    simp only [Prod.mk.injEq] at h1
    obtain ⟨rfl, rfl⟩ := h1
    exact (bad (by simp)).elim
  | err e => exact (full_fail_not_passes h1 p1).elim
  | ub =>
    simp only [Prod.mk.injEq] at h1
    obtain ⟨rfl, rfl⟩ := h1
    simp [Res.passes] at p1
  | more =>
    simp only [Prod.mk.injEq] at h1
    obtain ⟨rfl, rfl⟩ := h1
    have hj : tableAdd x.c.distinct (a ++ b) x.s.a.table = tableAdd x.c.distinct b t1 := by
      unfold tableAdd at hq
      split at hq
      · rename_i t' hl
        simp only [Prod.mk.injEq] at hq
        obtain ⟨rfl, _⟩ := hq
        obtain ⟨_, j, hj, e⟩ := tableAddLoop_fuel _ _ _ _ _ _ hl rfl b.length b (Nat.le_refl _)
        unfold tableAdd
        rw [List.length_append, e, tableAddLoop_enough _ j b.length b _ hj (Nat.le_refl _)]
      · rename_i hne
        obtain ⟨e, _⟩ := tableAddLoop_fuel _ _ _ _ _ _ hq rfl [].length [] (Nat.le_refl _)
        cases e
    unfold FullSt.addTokens at h2 ⊢
    rw [if_neg hs] at h2 ⊢
    rw [hj]
    exact h2

theorem fullAddExtension_join {x x1 x2 : FullSt} {r1 r2 : Res FullErr} {a b : Bytes}
    (h1 : x.addInputExtension a = (x1, r1)) (p1 : r1.passes) (h2 : x1.addInputExtension b = (x2, r2))
    (p2 : r2.passes) : x.addInputExtension (a ++ b) = (x2, r2) := by
  unfold FullSt.addInputExtension at h1
  split at h1
  · exact (full_fail_not_passes h1 p1).elim
  rename_i hs
  split at h1
  swap
  · simp only [Prod.mk.injEq] at h1
    obtain ⟨rfl, rfl⟩ := h1
    simp [Res.passes] at p1
  rename_i i hi
  simp only at h1
  generalize hq : InputSt.addExtension ⟨i, x.h, x.s.a⟩ a = q at h1
  unfold InputSt.addExtension at hq
  split at hq
  · subst hq
    exact (full_fail_not_passes h1 p1).elim
  rename_i his
  split at hq
  · subst hq
    exact (full_fail_not_passes h1 p1).elim
  rename_i hl
  simp only at hq his hl
  split at hq
  · -- the first piece ended the input
    subst hq
    simp only at h1
    have hsub : ∃ j, x1.c.sub = .input j ∧ j.state = .finished := by
      unfold FullSt.inputFinished at h1
      simp only at h1
      split at h1
      · split at h1
        · simp only [FullSt.dataInputsFinished, Prod.mk.injEq] at h1
          obtain ⟨rfl, rfl⟩ := h1
          exact ⟨_, rfl, rfl⟩
        · simp only [Prod.mk.injEq] at h1
          obtain ⟨rfl, rfl⟩ := h1
          exact ⟨_, rfl, rfl⟩
      · simp only [Prod.mk.injEq] at h1
        obtain ⟨rfl, rfl⟩ := h1
        exact ⟨_, rfl, rfl⟩
    obtain ⟨j, hj, hjs⟩ := hsub
    unfold FullSt.addInputExtension at h2
    split at h2
    · exact (full_fail_not_passes h2 p2).elim
    rw [hj] at h2
    simp only [InputSt.addExtension, hjs] at h2
    rw [if_pos (by simp)] at h2
    exact (full_fail_not_passes h2 p2).elim
  subst hq
  rename_i hz
  simp only [Prod.mk.injEq] at h1
  obtain ⟨rfl, rfl⟩ := h1
  have hsz := u32_sub_ofNat i.extSize (k := a.length) (by omega)
  unfold FullSt.addInputExtension at h2 ⊢
  rw [if_neg hs] at h2
  rw [if_neg hs, hi]
  simp only at h2 ⊢
  have he : InputSt.addExtension ⟨i, x.h, x.s.a⟩ (a ++ b) =
      InputSt.addExtension ⟨{ i with extSize := i.extSize - UInt32.ofNat a.length }, x.h ++ a, x.s.a⟩ b := by
    unfold InputSt.addExtension
    rw [if_neg his, if_neg his]
    simp only [hsz, List.length_append]
    by_cases hb : i.extSize.toNat < a.length + b.length
    · exfalso
      unfold InputSt.addExtension at h2
      rw [if_neg his, if_pos (by simp only [hsz]; omega)] at h2
      exact full_fail_not_passes h2 p2
    · rw [if_neg hb, if_neg (show ¬ i.extSize.toNat - a.length < b.length by omega),
        u32_sub_two i.extSize (m := a.length) (n := b.length) (by omega), List.append_assoc]
  rw [he]
  exact h2

theorem dataInputsLoop_fuel : ∀ (n : Nat) (a : Bytes) (t t' : FullSt)
    (r : Res FullErr), FullSt.dataInputsLoop n a t = (t', r) → r.passes → ∀ m b, b.length ≤ m →
    r = .ok ∧ t'.c.state = t.c.state ∧ ∃ j, b.length ≤ j ∧
      FullSt.dataInputsLoop (n + m) (a ++ b) t = FullSt.dataInputsLoop j b t' := by
  intro n
  induction n with
  | zero =>
    intro a t t' r h hp m b hm
    cases a with
    | nil =>
      simp only [FullSt.dataInputsLoop, Prod.mk.injEq] at h
      obtain ⟨rfl, rfl⟩ := h
      exact ⟨rfl, rfl, 0 + m, by omega, rfl⟩
    | cons c cs =>
      simp only [FullSt.dataInputsLoop, Prod.mk.injEq] at h
      obtain ⟨rfl, rfl⟩ := h
      simp [Res.passes] at hp
  | succ n ih =>
    intro a t t' r h hp m b hm
    cases a with
    | nil =>
      simp only [FullSt.dataInputsLoop, Prod.mk.injEq] at h
      obtain ⟨rfl, rfl⟩ := h
      exact ⟨rfl, rfl, n + 1 + m, by omega, rfl⟩
    | cons c cs =>
      rw [show n + 1 + m = (n + m) + 1 by omega, List.cons_append]
      simp only [FullSt.dataInputsLoop] at h ⊢
      split at h
      · exact (full_fail_not_passes h hp).elim
      rename_i hc
      rw [if_neg hc]
      split at h
      · exact (full_fail_not_passes h hp).elim
      rename_i id rest hid
      have hid' := bufBytes_more b hid
      rw [List.cons_append] at hid'
      rw [hid']
      exact ih _ _ _ _ h hp m b hm

theorem dataInputsLoop_enough : ∀ (n m : Nat) (a : Bytes) (t : FullSt),
    a.length ≤ n → a.length ≤ m → FullSt.dataInputsLoop n a t = FullSt.dataInputsLoop m a t := by
  intro n
  induction n with
  | zero =>
    intro m a x h1 h2
    cases a with
    | nil => simp only [FullSt.dataInputsLoop]
    | cons c cs => simp at h1
  | succ n ih =>
    intro m a x h1 h2
    cases a with
    | nil => simp only [FullSt.dataInputsLoop]
    | cons c cs =>
      cases m with
      | zero => simp at h2
      | succ m =>
        simp only [FullSt.dataInputsLoop]
        split
        · rfl
        split
        · rfl
        rename_i id rest hid
        obtain ⟨e, hl⟩ := bufBytes_some hid
        have hl' : rest.length + idLen = (c :: cs).length := by rw [e, List.length_append, hl]; omega
        have : idLen = 32 := rfl
        exact ih m rest _ (by omega) (by omega)

theorem fullAddDataInputs_join {x x1 x2 : FullSt} {r1 r2 : Res FullErr} {a b : Bytes}
    (h1 : x.addDataInputs a = (x1, r1)) (p1 : r1.passes) (h2 : x1.addDataInputs b = (x2, r2))
    (p2 : r2.passes) : x.addDataInputs (a ++ b) = (x2, r2) := by
  unfold FullSt.addDataInputs at h1
  split at h1
  · exact (full_fail_not_passes h1 p1).elim
  rename_i hs
  split at h1
  swap
  · rename_i hne
    obtain ⟨e, _⟩ := dataInputsLoop_fuel _ _ _ _ _ h1 p1 [].length [] (Nat.le_refl _)
    subst e
    exact absurd h1 (hne _)
  rename_i y hl
  obtain ⟨_, hys, j, hj, e⟩ := dataInputsLoop_fuel _ _ _ _ _ hl rfl b.length b (Nat.le_refl _)
  split at h1
  · simp only [FullSt.dataInputsFinished, Prod.mk.injEq] at h1
    obtain ⟨rfl, rfl⟩ := h1
    unfold FullSt.addDataInputs at h2
    rw [if_pos (by simp)] at h2
    exact (full_fail_not_passes h2 p2).elim
  simp only [Prod.mk.injEq] at h1
  obtain ⟨rfl, rfl⟩ := h1
  unfold FullSt.addDataInputs at h2 ⊢
  rw [if_neg (by rw [hys]; exact hs)] at h2
  rw [if_neg hs, List.length_append, e, dataInputsLoop_enough j b.length b _ hj (Nat.le_refl _)]
  exact h2

/-- Two calls on the current output, given how the box serializer joins them. -/
theorem boxPart_join {x x1 x2 : FullSt} {r1 r2 : Res FullErr}
    {f g k : BoxSt Acc → BoxSt Acc × Res BoxErr}
    (hj : ∀ y y1 y2 q1 q2, f y = (y1, q1) → q1.passes → g y1 = (y2, q2) → q2.passes → y.s = x.s →
      y1.s = x1.s → q1 = .more ∧ k y = (y2, q2))
    (h1 : x.boxPart f = (x1, r1)) (p1 : r1.passes) (h2 : x1.boxPart g = (x2, r2))
    (p2 : r2.passes) : r1 = .more ∧ x.boxPart k = (x2, r2) := by
  unfold FullSt.boxPart at h1
  split at h1
  · exact (full_fail_not_passes h1 p1).elim
  rename_i hs
  split at h1
  swap
  · simp only [Prod.mk.injEq] at h1
    obtain ⟨rfl, rfl⟩ := h1
    simp [Res.passes] at p1
  rename_i c hc
  simp only at h1
  generalize hq : f ⟨c, x.h, x.s⟩ = q at h1
  obtain ⟨y1, q1⟩ := q
  have hx1 : q1.passes ∧ x1.c.sub = .box y1.c ∧ x1.s = y1.s ∧ x1.h = y1.h := by
    cases q1 with
    | ok =>
      simp only at h1
      split at h1
      · unfold FullSt.outputFinished at h1
        simp only at h1
        split at h1
        · simp only [Prod.mk.injEq] at h1
          obtain ⟨rfl, rfl⟩ := h1
          exact ⟨rfl, rfl, rfl, rfl⟩
        · simp only [Prod.mk.injEq] at h1
          obtain ⟨rfl, rfl⟩ := h1
          exact ⟨rfl, rfl, rfl, rfl⟩
      · simp only [Prod.mk.injEq] at h1
        obtain ⟨rfl, rfl⟩ := h1
        exact ⟨rfl, rfl, rfl, rfl⟩
    | more =>
      simp only [Prod.mk.injEq] at h1
      obtain ⟨rfl, rfl⟩ := h1
      exact ⟨rfl, rfl, rfl, rfl⟩
    | err e => exact (full_fail_not_passes h1 p1).elim
    | ub =>
      simp only [Prod.mk.injEq] at h1
      obtain ⟨rfl, rfl⟩ := h1
      simp [Res.passes] at p1
  obtain ⟨pq1, e1, e2, e3⟩ := hx1
  have h2' := h2
  unfold FullSt.boxPart at h2
  split at h2
  · exact (full_fail_not_passes h2 p2).elim
  rename_i hs1
  rw [e1] at h2
  simp only [e2, e3] at h2
  have hyy : (⟨y1.c, y1.h, y1.s⟩ : BoxSt Acc) = y1 := rfl
  rw [hyy] at h2
  generalize hq2 : g y1 = q at h2
  obtain ⟨y2, q2⟩ := q
  have pq2 : q2.passes := by
    cases q2 with
    | ok => rfl
    | more => rfl
    | err e => exact (full_fail_not_passes h2 p2).elim
    | ub =>
      simp only [Prod.mk.injEq] at h2
      obtain ⟨rfl, rfl⟩ := h2
      simp [Res.passes] at p2
  obtain ⟨rfl, hk⟩ := hj _ _ _ _ _ hq pq1 hq2 pq2 rfl e2.symm
  simp only [Prod.mk.injEq] at h1
  obtain ⟨rfl, rfl⟩ := h1
  refine ⟨rfl, ?_⟩
  unfold FullSt.boxPart
  rw [if_neg hs, hc]
  simp only [hk]
  exact h2

end Ergo
