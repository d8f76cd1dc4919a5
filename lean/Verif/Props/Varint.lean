import Verif.Proof.Varint
/-!
# C94: variable length integers of the SDK
-/
namespace Ergo
open Spec

/-- C94: writing puts the shortest representation of the number at the place given, returns its length,
and touches no other byte. -/
theorem C94_write (p : Nat) (off : UInt32) (v : UInt64) (m : Mem)
    (h : off.toNat + (varintBytes v.toNat).length ≤ 2 ^ 32) :
    let r := varintWrite p off v m
    r.1.map UInt8.toNat = some (varintBytes v.toNat).length ∧
    (List.range (varintBytes v.toNat).length).map (fun k => r.2.byte (p + off.toNat + k)) =
      varintBytes v.toNat ∧
    (∀ a, a < p + off.toNat ∨ p + off.toNat + (varintBytes v.toNat).length ≤ a →
      r.2.byte a = m.byte a) ∧
    r.2.reads = m.reads ∧
    r.2.writes = m.writes ++ span (p + off.toNat) (varintBytes v.toNat).length := by
  intro r
  have hr : r = _ := varintWrite_spec p off v m h
  obtain ⟨s1, s2, s3⟩ := stores_span (varintBytes v.toNat) m (p + off.toNat)
  rw [hr]
  refine ⟨?_, ?_, ?_, s1, s2⟩
  · rw [Option.map_some, UInt8.toNat_ofNat', varintBytes_length]
    split_ifs <;> rfl
  · apply List.ext_getElem (by simp)
    intro k h1 h2
    simp only [List.getElem_map, List.getElem_range, s3]
    rw [if_pos ⟨by omega, by omega⟩, Nat.add_sub_cancel_left, List.getD_eq_getElem?_getD,
      List.getElem?_eq_getElem h2]
    rfl
  · intro a ha
    simp only [s3]
    rw [if_neg (by omega)]

/-- C94: reading gives the number at the beginning of the unread bytes and moves behind it, or refuses
and moves nowhere; it looks at unread bytes only and writes nothing. -/
theorem C94_read {b : Buffer} (hb : b.offset.toNat ≤ b.size.toNat) (m : Mem) :
    let r := b.readVarint m
    (match varintOf (unread m b) with
     | none => r.1 = false ∧ r.2.1 = 0 ∧ r.2.2.1 = b
     | some (v, rest) => r.1 = true ∧ r.2.1.toNat = v ∧ unread r.2.2.2 r.2.2.1 = rest ∧
        r.2.2.1.offset.toNat = b.size.toNat - rest.length ∧ r.2.2.1.ptr = b.ptr ∧
        r.2.2.1.size = b.size) ∧
    r.2.2.2.byte = m.byte ∧ r.2.2.2.writes = m.writes ∧
    ∃ rd, r.2.2.2.reads = m.reads ++ rd ∧
      ∀ a ∈ rd, b.ptr + b.offset.toNat ≤ a ∧ a < b.ptr + b.size.toNat := by
  intro r
  have hs := b.size.toNat_lt
  have hl : (b.size - b.offset).toNat = b.size.toNat - b.offset.toNat := by
    rw [UInt32.toNat_sub]; have := b.offset.toNat_lt; omega
  obtain ⟨rd, h1, h2⟩ := varintRead_spec (b.ptr + b.offset.toNat) (b.size - b.offset) m
  have hd : (span (b.ptr + b.offset.toNat) (b.size.toNat - b.offset.toNat)).map m.byte = unread m b := by
    simp [span, unread, Function.comp_def]
  rw [hl] at h1 h2
  rw [hd] at h2
  have hrd : ∀ a ∈ rd, b.ptr + b.offset.toNat ≤ a ∧ a < b.ptr + b.size.toNat := by
    intro a ha
    have := h1 a ha
    omega
  have hr : r = b.readVarint m := rfl
  unfold Buffer.readVarint at hr
  rw [h2] at hr
  have hlen : (unread m b).length = b.size.toNat - b.offset.toNat := by simp [unread]
  cases hv : varintOf (unread m b) with
  | none =>
    rw [hv] at hr
    simp only [Option.map_none] at hr
    rw [hr]
    exact ⟨⟨rfl, rfl, rfl⟩, rfl, rfl, rd, rfl, hrd⟩
  | some q =>
    obtain ⟨v, rest⟩ := q
    rw [hv] at hr
    simp only [Option.map_some] at hr
    -- the bytes of the number and what follows
    obtain ⟨k, hk, hk', hvlt⟩ : ∃ k, rest = (unread m b).drop k ∧ k ≤ (unread m b).length ∧
        v < 2 ^ 64 := by
      cases hu : unread m b with
      | nil => rw [hu] at hv; cases hv
      | cons c cs =>
        rw [hu] at hv
        simp only [varintOf] at hv
        split at hv
        · cases hv
        · rename_i hc
          simp only [Option.some.injEq, Prod.mk.injEq] at hv
          refine ⟨varintMore c + 1, by rw [← hv.2]; rfl, by simp; omega, ?_⟩
          rw [← hv.1]
          split
          · have := c.toNat_lt; omega
          · have h8 : varintMore c ≤ 8 := by unfold varintMore; split_ifs <;> omega
            have := le_lt (cs.take (varintMore c))
            refine lt_of_lt_of_le this ?_
            calc 256 ^ (cs.take (varintMore c)).length ≤ 256 ^ 8 :=
                  Nat.pow_le_pow_right (by omega) (by rw [List.length_take]; omega)
              _ = 2 ^ 64 := by norm_num
    have hrest : rest.length = b.size.toNat - b.offset.toNat - k := by
      rw [hk, List.length_drop, hlen]
    rw [hlen] at hk'
    have hkk : b.size.toNat - b.offset.toNat - rest.length = k := by omega
    rw [hkk] at hr
    have hkn : (UInt32.ofNat k).toNat = k := by rw [UInt32.toNat_ofNat']; omega
    obtain ⟨e1, e2⟩ := seekCur_ok (b := b) (n := UInt32.ofNat k) (by rw [hkn]; omega)
    rw [e1] at hr
    rw [hkn] at e2
    rw [hr]
    refine ⟨⟨rfl, ?_, ?_, ?_, rfl, rfl⟩, rfl, rfl, rd, rfl, hrd⟩
    · rw [UInt64.toNat_ofNat']; omega
    · rw [hk, ← hd, ← List.map_drop, span_drop hk']
      simp only [unread, e2, span, List.map_map, Function.comp_def, Mem.touch]
      rw [← Nat.add_assoc, Nat.sub_sub]
    · simp only [e2]; omega

/-- C94: what was written is read back, whatever follows it. -/
theorem C94_round_trip {b : Buffer} (hb : b.offset.toNat ≤ b.size.toNat) (m : Mem) (v : UInt64)
    (rest : Bytes) (h : unread m b = varintBytes v.toNat ++ rest) :
    (b.readVarint m).1 = true ∧ (b.readVarint m).2.1 = v ∧
      unread (b.readVarint m).2.2.2 (b.readVarint m).2.2.1 = rest := by
  have := (C94_read hb m).1
  rw [h, varintOf_bytes v.toNat_lt] at this
  obtain ⟨h1, h2, h3, _⟩ := this
  exact ⟨h1, UInt64.toNat_inj.1 h2, h3⟩

/-- C94: no representation is the beginning of another, so that numbers can follow one another. -/
theorem C94_prefix {v w : Nat} (hv : v < 2 ^ 64) (hw : w < 2 ^ 64)
    (h : varintBytes v <+: varintBytes w) : v = w := by
  obtain ⟨t, ht⟩ := h
  have h1 := varintOf_bytes hv t
  have h2 := varintOf_bytes hw []
  rw [List.append_nil, ← ht, h1] at h2
  simp only [Option.some.injEq, Prod.mk.injEq] at h2
  exact h2.1

/-- C94: exactly these bytes are read as `v`: the number itself up to 252, or one of the three longer
forms wherever the number fits; nothing demands the shortest. -/
theorem C94_forms (bs : Bytes) (v : Nat) : varintOf bs = some (v, []) ↔
    v ≤ 252 ∧ bs = [UInt8.ofNat v] ∨ v < 2 ^ 16 ∧ bs = 253 :: intBytes .le 2 v ∨
    v < 2 ^ 32 ∧ bs = 254 :: intBytes .le 4 v ∨ v < 2 ^ 64 ∧ bs = 255 :: intBytes .le 8 v := by
  have long : ∀ (c : UInt8) (n : Nat) (cs : Bytes), varintMore c = n → 0 < n →
      (varintOf (c :: cs) = some (v, []) ↔ v < 256 ^ n ∧ cs = intBytes .le n v) := by
    intro c n cs hc hn
    simp only [varintOf, hc, if_neg (show ¬ n = 0 by omega)]
    constructor
    · intro h
      split at h
      · cases h
      · rename_i hl
        simp only [Option.some.injEq, Prod.mk.injEq, List.drop_eq_nil_iff] at h
        have hlen : cs.length = n := by omega
        rw [List.take_of_length_le (by omega)] at h
        rw [← h.1]
        refine ⟨hlen ▸ le_lt cs, ?_⟩
        rw [← hlen, leBytes_le]
    · rintro ⟨h1, rfl⟩
      rw [if_neg (by rw [intBytes_length]; omega), List.take_of_length_le (by rw [intBytes_length]),
        le_leBytes, Nat.mod_eq_of_lt h1, List.drop_of_length_le (by rw [intBytes_length])]
  constructor
  · intro h
    cases bs with
    | nil => cases h
    | cons c cs =>
      by_cases c1 : c = 253
      · subst c1
        have := (long 253 2 cs rfl (by omega)).1 h
        exact .inr (.inl ⟨by have := this.1; omega, by rw [this.2]⟩)
      by_cases c2 : c = 254
      · subst c2
        have := (long 254 4 cs rfl (by omega)).1 h
        exact .inr (.inr (.inl ⟨by have := this.1; omega, by rw [this.2]⟩))
      by_cases c3 : c = 255
      · subst c3
        have := (long 255 8 cs rfl (by omega)).1 h
        exact .inr (.inr (.inr ⟨by have := this.1; omega, by rw [this.2]⟩))
      · have hm : varintMore c = 0 := by
          unfold varintMore; rw [if_neg c1, if_neg c2, if_neg c3]
        simp only [varintOf, hm, Nat.not_lt_zero, if_false, if_true, List.drop_zero, Option.some.injEq,
          Prod.mk.injEq] at h
        obtain ⟨rfl, rfl⟩ := h
        refine .inl ⟨?_, by simp⟩
        have hlt := c.toNat_lt
        have ne : ∀ k : UInt8, c ≠ k → c.toNat ≠ k.toNat := fun k hk he => hk (UInt8.toNat_inj.1 he)
        have n1 := ne _ c1
        have n2 := ne _ c2
        have n3 := ne _ c3
        rw [show (253 : UInt8).toNat = 253 from rfl] at n1
        rw [show (254 : UInt8).toNat = 254 from rfl] at n2
        rw [show (255 : UInt8).toNat = 255 from rfl] at n3
        omega
  · rintro (⟨h1, rfl⟩ | ⟨h1, rfl⟩ | ⟨h1, rfl⟩ | ⟨h1, rfl⟩)
    · have := varintOf_bytes (v := v) (by omega) []
      simpa [varintBytes, h1] using this
    · exact (long 253 2 _ rfl (by omega)).2 ⟨by omega, rfl⟩
    · exact (long 254 4 _ rfl (by omega)).2 ⟨by omega, rfl⟩
    · exact (long 255 8 _ rfl (by omega)).2 ⟨by omega, rfl⟩

/-- C94: the written form is the shortest of those that are read. -/
theorem C94_shortest {bs : Bytes} {v : Nat} (h : varintOf bs = some (v, [])) :
    (varintBytes v).length ≤ bs.length := by
  rw [varintBytes_length]
  rcases (C94_forms bs v).1 h with ⟨h1, rfl⟩ | ⟨h1, rfl⟩ | ⟨h1, rfl⟩ | ⟨h1, rfl⟩
  · simp [h1]
  all_goals
    simp only [List.length_cons, intBytes_length]
    split_ifs <;> omega

/-- A memory of zeros. -/
def blankMem : Mem := ⟨fun _ => 0, [], []⟩

/-- 70000 is written as 254 and four bytes, at offset 3 of an array at address 100. -/
example : (varintWrite 100 3 70000 blankMem).1 = some 5 ∧
    (List.range 7).map (fun k => (varintWrite 100 3 70000 blankMem).2.byte (102 + k)) =
      [0, 254, 0x70, 0x11, 0x01, 0x00, 0] ∧
    (varintWrite 100 3 70000 blankMem).2.writes = [103, 104, 105, 106, 107] := by decide +kernel

/-- And read back from there; with one byte less it is refused, and nothing outside is read. -/
example :
    let m := (varintWrite 100 3 70000 blankMem).2
    (Buffer.readVarint ⟨100, 8, 3⟩ m).1 = true ∧ (Buffer.readVarint ⟨100, 8, 3⟩ m).2.1 = 70000 ∧
    (Buffer.readVarint ⟨100, 8, 3⟩ m).2.2.1 = ⟨100, 8, 8⟩ ∧
    (Buffer.readVarint ⟨100, 7, 3⟩ m).1 = false ∧
    (Buffer.readVarint ⟨100, 7, 3⟩ m).2.2.2.reads = [103] := by decide +kernel

/-- The number 1 in its four forms. -/
example : [[1], [253, 1, 0], [254, 1, 0, 0, 0], [255, 1, 0, 0, 0, 0, 0, 0, 0]].map varintOf =
    List.replicate 4 (some (1, [])) := by decide +kernel

end Ergo
