import Verif.Proof.Pieces
/-!
# The token loop of the box serializer
-/
namespace Ergo
open Spec

/-- A token entry as read by the serializer. -/
structure Item where
  id : Bytes
  hashed : Bytes
  amt : UInt64

/-- Bytes per entry. -/
def itemWidth : Option TableArg → Nat
  | none => 40
  | some _ => 12

/-- Reading of an entry. -/
def itemOf : Option TableArg → Bytes → Item
  | none, b => ⟨b.take 32, b.take 32, UInt64.ofNat (be (b.drop 32))⟩
  | some (_, t), b =>
    ⟨tableEntry t (be (b.take 4)), vlq (be (b.take 4)), UInt64.ofNat (be (b.drop 4))⟩

/-- The index of an entry is inside the table. -/
def ItemOk : Option TableArg → Bytes → Prop
  | none, _ => True
  | some (dn, _), b => be (b.take 4) < dn.toNat

variable {σ : Type}

/-- The token callback on a list of entries. -/
def foldToks (cbs : BoxCbs σ) (ty : BoxType) : List Item → σ → Option σ
  | [], s => some s
  | i :: is, s =>
    if (cbs.onToken ty i.id i.amt s).2.passes then
      foldToks cbs ty is (cbs.onToken ty i.id i.amt s).1
    else none

theorem itemWidth_pos (t : Option TableArg) : 0 < itemWidth t := by
  cases t <;> simp [itemWidth]

theorem gvePutU32_eq (v : UInt32) : gvePutU32 v = vlq v.toNat := by
  unfold gvePutU32
  rw [gvePutU64_eq, UInt32.toNat_toUInt64]

theorem gvePutU16_eq (v : UInt16) : gvePutU16 v = vlq v.toNat := by
  unfold gvePutU16
  rw [gvePutU64_eq, UInt16.toNat_toUInt64]

theorem boxTokenId_ok {table : Option TableArg} {input id rest hashed rest' : Bytes} {v : UInt64}
    (h : boxTokenId table input = .ok (id, rest, hashed)) (hv : bufU64 rest = some (v, rest')) :
    ∃ a, input = a ++ rest' ∧ a.length = itemWidth table ∧ itemOf table a = ⟨id, hashed, v⟩ ∧
      ItemOk table a := by
  have hr := bufU64_some hv
  cases table with
  | none =>
    simp only [boxTokenId] at h
    split at h
    · simp at h
    · rename_i id' rest'' hb
      simp only [Except.ok.injEq, Prod.mk.injEq] at h
      obtain ⟨rfl, rfl, rfl⟩ := h
      obtain ⟨e, hl⟩ := bufBytes_some hb
      refine ⟨id' ++ writeU64be v, by rw [e, hr]; simp, ?_, ?_, trivial⟩
      · simp [hl, length_writeU64, itemWidth, idLen]
      · have h32 : id'.length = 32 := hl
        simp only [itemOf]
        rw [← h32]
        simp [be_writeU64]
  | some p =>
    obtain ⟨dn, t⟩ := p
    simp only [boxTokenId] at h
    split at h
    · simp at h
    · rename_i ix rest'' hb
      split at h
      · simp at h
      · rename_i hlt
        simp only [Except.ok.injEq, Prod.mk.injEq] at h
        obtain ⟨rfl, rfl, rfl⟩ := h
        have e := bufU32_some hb
        have e4 : (writeU32be ix ++ writeU64be v).take 4 = writeU32be ix := by
          simp [writeU32be]
        have d4 : (writeU32be ix ++ writeU64be v).drop 4 = writeU64be v := by
          simp [writeU32be]
        refine ⟨writeU32be ix ++ writeU64be v, by rw [e, hr]; simp, ?_, ?_, ?_⟩
        · simp [length_writeU64, length_writeU32, itemWidth]
        · simp only [itemOf, e4, d4, be_writeU32, be_writeU64, gvePutU32_eq]
          simp
        · simp only [ItemOk, e4, be_writeU32]; omega

theorem passes_iff {ε : Type} {r : Res ε} : r.passes = true ↔ r = .ok ∨ r = .more := by
  cases r <;> simp [Res.passes]

/-- A successful token loop: whole entries, their bytes hashed, the callback run on each. -/
theorem tokensLoop_passes (cbs : BoxCbs σ) (table : Option TableArg) :
    ∀ (n : Nat) (input : Bytes) (x x' : BoxSt σ) (r : Res BoxErr),
      BoxSt.tokensLoop cbs table n input x = (x', r) → r.passes →
      r = .ok ∧ ∃ k, input.length = k * itemWidth table ∧
        k ≤ x.c.tokensCount.toNat ∧
        x'.c = { x.c with tokensCount := x.c.tokensCount - UInt8.ofNat k } ∧
        x'.h = x.h ++ ((pieces (itemWidth table) input).map (itemOf table)).flatMap
          (fun i => i.hashed ++ vlq i.amt.toNat) ∧
        foldToks cbs x.c.type ((pieces (itemWidth table) input).map (itemOf table)) x.s = some x'.s ∧
        ∀ b ∈ pieces (itemWidth table) input, ItemOk table b := by
  intro n
  induction n with
  | zero =>
    intro input x x' r h hp
    cases input with
    | nil =>
      simp only [BoxSt.tokensLoop, Prod.mk.injEq] at h
      obtain ⟨rfl, rfl⟩ := h
      refine ⟨rfl, 0, by simp, by simp, by simp, ?_⟩
      simp [pieces_nil, foldToks]
    | cons b bs =>
      simp only [BoxSt.tokensLoop, Prod.mk.injEq] at h
      obtain ⟨rfl, rfl⟩ := h
      simp [Res.passes] at hp
  | succ n ih =>
    intro input x x' r h hp
    cases input with
    | nil =>
      simp only [BoxSt.tokensLoop, Prod.mk.injEq] at h
      obtain ⟨rfl, rfl⟩ := h
      refine ⟨rfl, 0, by simp, by simp, by simp, ?_⟩
      simp [pieces_nil, foldToks]
    | cons b bs =>
      simp only [BoxSt.tokensLoop] at h
      split at h
      · simp only [BoxSt.fail, Prod.mk.injEq] at h
        obtain ⟨rfl, rfl⟩ := h
        simp [Res.passes] at hp
      rename_i hc
      split at h
      · simp only [BoxSt.fail, Prod.mk.injEq] at h
        obtain ⟨rfl, rfl⟩ := h
        simp [Res.passes] at hp
      · simp only [Prod.mk.injEq] at h
        obtain ⟨rfl, rfl⟩ := h
        simp [Res.passes] at hp
      rename_i id rest hashed hid
      split at h
      · simp only [BoxSt.fail, Prod.mk.injEq] at h
        obtain ⟨rfl, rfl⟩ := h
        simp [Res.passes] at hp
      rename_i v rest' hv
      obtain ⟨a, ha, hal, hit, hok⟩ := boxTokenId_ok hid hv
      generalize hcb : cbs.onToken x.c.type id v x.s = q at h
      have key : ∀ (_ : q.2.passes = true),
          BoxSt.tokensLoop cbs table n rest'
            { c := { x.c with tokensCount := x.c.tokensCount - 1 },
              h := x.h ++ hashed ++ gvePutU64 v, s := q.1 } = (x', r) →
          r = .ok ∧ ∃ k, (b :: bs).length = k * itemWidth table ∧
            k ≤ x.c.tokensCount.toNat ∧
            x'.c = { x.c with tokensCount := x.c.tokensCount - UInt8.ofNat k } ∧
            x'.h = x.h ++ ((pieces (itemWidth table) (b :: bs)).map (itemOf table)).flatMap
              (fun i => i.hashed ++ vlq i.amt.toNat) ∧
            foldToks cbs x.c.type ((pieces (itemWidth table) (b :: bs)).map (itemOf table)) x.s =
              some x'.s ∧
            ∀ b' ∈ pieces (itemWidth table) (b :: bs), ItemOk table b' := by
        intro hq hl
        obtain ⟨hr, k, h1, h2, h3, h4, h5, h6⟩ := ih _ _ _ _ hl hp
        have hpos : 1 ≤ x.c.tokensCount.toNat := by
          rcases Nat.eq_zero_or_pos x.c.tokensCount.toNat with h0 | h0
          · exact absurd (UInt8.toNat_inj.1 (by simpa using h0)) hc
          · exact h0
        have hsub : (x.c.tokensCount - 1).toNat = x.c.tokensCount.toNat - 1 := by
          rw [UInt8.toNat_sub_of_le]
          · rfl
          · rw [UInt8.le_iff_toNat_le]; exact hpos
        simp only [hsub] at h2
        refine ⟨hr, k + 1, ?_, by omega, ?_, ?_, ?_, ?_⟩
        · rw [ha, List.length_append, h1, hal, Nat.succ_mul]; omega
        · have hcnt : x.c.tokensCount - 1 - UInt8.ofNat k =
              x.c.tokensCount - UInt8.ofNat (k + 1) := by
            rw [← UInt8.toNat_inj, u8_sub_ofNat (x.c.tokensCount - 1) (by omega), hsub,
              u8_sub_ofNat x.c.tokensCount (by omega)]
            omega
          rw [h3]; simp only [hcnt]
        · rw [h4, ha, pieces_append _ hal (itemWidth_pos _)]
          simp [hit, gvePutU64_eq]
        · rw [ha, pieces_append _ hal (itemWidth_pos _)]
          simp only [List.map_cons, hit, foldToks, hcb, hq, if_true]
          exact h5
        · rw [ha, pieces_append _ hal (itemWidth_pos _)]
          simp only [List.mem_cons, forall_eq_or_imp]
          exact ⟨hok, h6⟩
      obtain ⟨s', rq⟩ := q
      cases rq with
      | ok => exact key rfl (by simpa [BoxSt.check] using h)
      | more => exact key rfl (by simpa [BoxSt.check] using h)
      | err e =>
        simp only [BoxSt.check, BoxSt.fail, Prod.mk.injEq] at h
        obtain ⟨rfl, rfl⟩ := h
        simp [Res.passes] at hp
      | ub =>
        simp only [BoxSt.check, Prod.mk.injEq] at h
        obtain ⟨rfl, rfl⟩ := h
        simp [Res.passes] at hp

end Ergo
