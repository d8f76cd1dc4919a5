import Verif.Spec.Buffer
import Verif.Proof.Bytes
import Mathlib.Tactic.Ring
/-!
# Buffers: addresses and tapes
-/
namespace Ergo
open Spec

theorem span_length (a n : Nat) : (span a n).length = n := by simp [span]

theorem mem_span {a n x : Nat} : x ∈ span a n ↔ a ≤ x ∧ x < a + n := by
  simp only [span, List.mem_map, List.mem_range]
  constructor
  · rintro ⟨k, hk, rfl⟩; omega
  · intro h; exact ⟨x - a, by omega, by omega⟩

theorem span_succ (a n : Nat) : span a (n + 1) = a :: span (a + 1) n := by
  simp only [span, List.range_succ_eq_map, List.map_cons, List.map_map, Nat.add_zero]
  congr 1
  apply List.map_congr_left
  intro k _
  simp only [Function.comp]
  omega

theorem indexed_eq {p n : Nat} {i : UInt32} (h : i.toNat + n ≤ 2 ^ 32) :
    indexed p i n = span (p + i.toNat) n := by
  unfold indexed span
  apply List.map_congr_left
  intro k hk
  rw [List.mem_range] at hk
  rw [UInt32.toNat_add, UInt32.toNat_ofNat']
  omega

/-- Stores change the addressed bytes only. -/
theorem stores_span : ∀ (bs : Bytes) (m : Mem) (a : Nat),
    (m.stores (span a bs.length) bs).reads = m.reads ∧
    (m.stores (span a bs.length) bs).writes = m.writes ++ span a bs.length ∧
    ∀ x, (m.stores (span a bs.length) bs).byte x =
      if a ≤ x ∧ x < a + bs.length then bs.getD (x - a) 0 else m.byte x
  | [], m, a => by
    refine ⟨rfl, by simp [Mem.stores, span], fun x => ?_⟩
    rw [if_neg (by simp)]; rfl
  | v :: vs, m, a => by
    obtain ⟨h1, h2, h3⟩ := stores_span vs (m.store a v) (a + 1)
    rw [List.length_cons, span_succ]
    show ((m.store a v).stores _ vs).reads = _ ∧ ((m.store a v).stores _ vs).writes = _ ∧
      ∀ x, ((m.store a v).stores _ vs).byte x = _
    refine ⟨h1, by rw [h2]; simp [Mem.store], fun x => ?_⟩
    rw [h3]
    by_cases hx : x = a
    · subst hx
      rw [if_neg (by omega), if_pos (by omega)]
      simp [Mem.store]
    · by_cases hy : a + 1 ≤ x ∧ x < a + 1 + vs.length
      · rw [if_pos hy, if_pos (by omega)]
        obtain ⟨k, rfl⟩ : ∃ k, x = a + 1 + k := ⟨x - (a + 1), by omega⟩
        rw [show a + 1 + k - a = k + 1 by omega, show a + 1 + k - (a + 1) = k by omega]
        simp
      · rw [if_neg hy, if_neg (by omega)]
        simp [Mem.store, hx]

theorem tape_length (m : Mem) (b : RwBuffer) : (tape m b).cells.length = b.size.toNat := by
  simp [tape]

theorem sound_nat {b : RwBuffer} : Sound b ↔
    b.read.offset.toNat ≤ b.read.size.toNat ∧ b.read.size.toNat ≤ b.size.toNat := by
  simp only [Sound, UInt32.le_iff_toNat_le]

theorem data_length {m : Mem} {b : RwBuffer} (h : Sound b) :
    (tape m b).data.length = b.read.size.toNat - b.read.offset.toNat := by
  rw [sound_nat] at h
  simp only [Tape.data, List.length_drop, List.length_take, tape_length]
  simp only [tape]
  omega

/-- The bytes of a read. -/
theorem data_take {m : Mem} {b : RwBuffer} {n : Nat} (h : Sound b)
    (hn : n ≤ b.read.size.toNat - b.read.offset.toNat) :
    (tape m b).data.take n = (span (b.read.ptr + b.read.offset.toNat) n).map m.byte := by
  rw [sound_nat] at h
  apply List.ext_getElem?
  intro k
  simp only [Tape.data, tape, span, List.getElem?_take, List.getElem?_drop, List.getElem?_map]
  by_cases hk : k < n
  · rw [if_pos hk, if_pos (by omega), List.getElem?_range (by omega), List.getElem?_range hk]
    simp [Nat.add_assoc]
  · rw [if_neg hk, List.getElem?_eq_none (by simpa using hk)]
    rfl

theorem canRead_iff {b : Buffer} {n : UInt32} (h : b.offset.toNat ≤ b.size.toNat) :
    b.canRead n = true ↔ n.toNat ≤ b.size.toNat - b.offset.toNat := by
  have := b.size.toNat_lt
  have := b.offset.toNat_lt
  simp only [Buffer.canRead, decide_eq_true_eq, ge_iff_le, UInt32.le_iff_toNat_le, UInt32.toNat_sub]
  omega

theorem seekCur_ok {b : Buffer} {n : UInt32} (h : b.offset.toNat + n.toNat ≤ b.size.toNat) :
    b.seekCur n = (true, { b with offset := b.offset + n }) ∧
      (b.offset + n).toNat = b.offset.toNat + n.toNat := by
  have := b.size.toNat_lt
  have e : (b.offset + n).toNat = b.offset.toNat + n.toNat := by rw [UInt32.toNat_add]; omega
  refine ⟨?_, e⟩
  unfold Buffer.seekCur
  rw [if_neg]
  simp only [UInt32.lt_iff_toNat_lt, gt_iff_lt]
  omega

theorem seekCur_no {b : Buffer} {n : UInt32} (h : b.size.toNat < b.offset.toNat + n.toNat) :
    b.seekCur n = (false, b) := by
  have := b.offset.toNat_lt
  have := n.toNat_lt
  unfold Buffer.seekCur
  rw [if_pos]
  simp only [UInt32.lt_iff_toNat_lt, gt_iff_lt, UInt32.toNat_add]
  omega

theorem canWrite_iff {b : RwBuffer} {n : UInt32} (h : b.read.size.toNat ≤ b.size.toNat) :
    b.canWrite n = true ↔ b.read.size.toNat + n.toNat ≤ b.size.toNat := by
  have := b.size.toNat_lt
  have := b.read.size.toNat_lt
  simp only [RwBuffer.canWrite, decide_eq_true_eq, ge_iff_le, UInt32.le_iff_toNat_le,
    UInt32.toNat_sub]
  omega

theorem seekWriteCur_ok {b : RwBuffer} {n : UInt32} (h : b.read.size.toNat + n.toNat ≤ b.size.toNat) :
    b.seekWriteCur n = (true, { b with read.size := b.read.size + n }) ∧
      (b.read.size + n).toNat = b.read.size.toNat + n.toNat := by
  have := b.size.toNat_lt
  have e : (b.read.size + n).toNat = b.read.size.toNat + n.toNat := by rw [UInt32.toNat_add]; omega
  refine ⟨?_, e⟩
  unfold RwBuffer.seekWriteCur
  rw [if_neg]
  simp only [UInt32.lt_iff_toNat_lt, gt_iff_lt]
  omega

theorem seekWriteCur_no {b : RwBuffer} {n : UInt32} (h : b.size.toNat < b.read.size.toNat + n.toNat) :
    b.seekWriteCur n = (false, b) := by
  have := b.read.size.toNat_lt
  have := n.toNat_lt
  unfold RwBuffer.seekWriteCur
  rw [if_pos]
  simp only [UInt32.lt_iff_toNat_lt, gt_iff_lt, UInt32.toNat_add]
  omega

/-! ## Integers -/

theorem readU16le_eq (a b : UInt8) : readU16le a b = readU16be b a := by
  unfold readU16le readU16be
  rw [UInt16.or_comm]

theorem readU32le_eq (a b c d : UInt8) : readU32le a b c d = readU32be d c b a := by
  unfold readU32le readU32be
  generalize a.toUInt32 = x0, b.toUInt32 <<< 8 = x1, c.toUInt32 <<< 16 = x2, d.toUInt32 <<< 24 = x3
  ac_rfl

theorem readU64le_eq (a b c d e f g h : UInt8) :
    readU64le a b c d e f g h = readU64be h g f e d c b a := by
  unfold readU64le readU64be
  generalize a.toUInt64 = x0, b.toUInt64 <<< 8 = x1, c.toUInt64 <<< 16 = x2, d.toUInt64 <<< 24 = x3,
    e.toUInt64 <<< 32 = x4, f.toUInt64 <<< 40 = x5, g.toUInt64 <<< 48 = x6, h.toUInt64 <<< 56 = x7
  ac_rfl

theorem write16_eq (v : UInt16) (e : Endian) :
    (match e with | .be => writeU16be v | .le => writeU16le v) = intBytes e 2 v.toNat := by
  have h1 : UInt8.ofNat (v.toNat / 256 ^ 1) = (v >>> 8).toUInt8 := by
    rw [← UInt8.toNat_inj, UInt16.toNat_toUInt8, UInt16.toNat_shiftRight,
      show (8 : UInt16).toNat % 16 = 8 by decide, Nat.shiftRight_eq_div_pow, UInt8.toNat_ofNat']
    norm_num
  have h0 : UInt8.ofNat (v.toNat / 256 ^ 0) = v.toUInt8 := by
    rw [← UInt8.toNat_inj, UInt16.toNat_toUInt8, UInt8.toNat_ofNat']; simp
  cases e <;> simp only [intBytes, List.range, List.range.loop, List.map_cons, List.map_nil, h0, h1] <;>
    rfl

theorem write32_eq (v : UInt32) (e : Endian) :
    (match e with | .be => writeU32be v | .le => writeU32le v) = intBytes e 4 v.toNat := by
  have h : ∀ (k : UInt32) (n : Nat), k.toNat % 32 = 8 * n → n ≤ 3 →
      UInt8.ofNat (v.toNat / 256 ^ n) = (v >>> k).toUInt8 := by
    intro k n hk hn
    rw [← UInt8.toNat_inj, UInt32.toNat_toUInt8, UInt32.toNat_shiftRight, hk,
      Nat.shiftRight_eq_div_pow, UInt8.toNat_ofNat', pow_mul]
    norm_num
  have h0 : UInt8.ofNat (v.toNat / 256 ^ 0) = v.toUInt8 := by
    rw [← UInt8.toNat_inj, UInt32.toNat_toUInt8, UInt8.toNat_ofNat']; simp
  have h1 := h 8 1 (by decide) (by omega)
  have h2 := h 16 2 (by decide) (by omega)
  have h3 := h 24 3 (by decide) (by omega)
  cases e <;> simp only [intBytes, List.range, List.range.loop, List.map_cons, List.map_nil, h0, h1,
    h2, h3] <;> rfl

theorem write64_eq (v : UInt64) (e : Endian) :
    (match e with | .be => writeU64be v | .le => writeU64le v) = intBytes e 8 v.toNat := by
  have h : ∀ (k : UInt64) (n : Nat), k.toNat % 64 = 8 * n → n ≤ 7 →
      UInt8.ofNat (v.toNat / 256 ^ n) = (v >>> k).toUInt8 := by
    intro k n hk hn
    rw [← UInt8.toNat_inj, UInt64.toNat_toUInt8, UInt64.toNat_shiftRight, hk,
      Nat.shiftRight_eq_div_pow, UInt8.toNat_ofNat', pow_mul]
    norm_num
  have h0 : UInt8.ofNat (v.toNat / 256 ^ 0) = v.toUInt8 := by
    rw [← UInt8.toNat_inj, UInt64.toNat_toUInt8, UInt8.toNat_ofNat']; simp
  have h1 := h 8 1 (by decide) (by omega)
  have h2 := h 16 2 (by decide) (by omega)
  have h3 := h 24 3 (by decide) (by omega)
  have h4 := h 32 4 (by decide) (by omega)
  have h5 := h 40 5 (by decide) (by omega)
  have h6 := h 48 6 (by decide) (by omega)
  have h7 := h 56 7 (by decide) (by omega)
  cases e <;> simp only [intBytes, List.range, List.range.loop, List.map_cons, List.map_nil, h0, h1,
    h2, h3, h4, h5, h6, h7] <;> rfl

theorem intBytes_length (e : Endian) (n v : Nat) : (intBytes e n v).length = n := by
  cases e <;> simp [intBytes]

theorem value16 (e : Endian) (a b : UInt8) :
    (match e with | .be => readU16be a b | .le => readU16le a b) =
      UInt16.ofNat (intValue e [a, b]) := by
  cases e
  · simp only [intValue]; rw [← readU16be_toNat, UInt16.ofNat_toNat]
  · simp only [intValue, readU16le_eq]; rw [← UInt16.ofNat_toNat (x := readU16be b a), readU16be_toNat]
    rfl

theorem value32 (e : Endian) (a b c d : UInt8) :
    (match e with | .be => readU32be a b c d | .le => readU32le a b c d) =
      UInt32.ofNat (intValue e [a, b, c, d]) := by
  cases e
  · simp only [intValue]; rw [← readU32be_toNat, UInt32.ofNat_toNat]
  · simp only [intValue, readU32le_eq]
    rw [← UInt32.ofNat_toNat (x := readU32be d c b a), readU32be_toNat]
    rfl

theorem value64 (e : Endian) (a b c d a' b' c' d' : UInt8) :
    (match e with
      | .be => readU64be a b c d a' b' c' d'
      | .le => readU64le a b c d a' b' c' d') =
      UInt64.ofNat (intValue e [a, b, c, d, a', b', c', d']) := by
  cases e
  · simp only [intValue]; rw [← readU64be_toNat, UInt64.ofNat_toNat]
  · simp only [intValue, readU64le_eq]
    rw [← UInt64.ofNat_toNat (x := readU64be d' c' b' a' d c b a), readU64be_toNat]
    rfl

/-! ## One call -/

/-- A call does what the tape does, reads unread written bytes only and writes inside the array. -/
structure CallOk (b : RwBuffer) (m : Mem) (op : RwOp) : Prop where
  sound : Sound (b.call m op).2.1
  result : (b.call m op).1 = ((tape m b).step op).1
  tape : tape (b.call m op).2.2 (b.call m op).2.1 = ((tape m b).step op).2
  ptr : (b.call m op).2.1.read.ptr = b.read.ptr
  size : (b.call m op).2.1.size = b.size
  reads : ∃ rd, (b.call m op).2.2.reads = m.reads ++ rd ∧ ∀ a ∈ rd, InData b a
  writes : ∃ wr, (b.call m op).2.2.writes = m.writes ++ wr ∧ ∀ a ∈ wr, InArea b a
  outside : ∀ a, ¬ InArea b a → (b.call m op).2.2.byte a = m.byte a

/-- Nothing but positions changes. -/
theorem pos_ok {b : RwBuffer} {m : Mem} {op : RwOp} {res : Bool × RwVal} {o s : UInt32}
    (h : Sound ⟨⟨b.read.ptr, s, o⟩, b.size⟩)
    (hc : b.call m op = (res, ⟨⟨b.read.ptr, s, o⟩, b.size⟩, m))
    (hs : (tape m b).step op = (res, ⟨(tape m b).cells, s.toNat, o.toNat⟩)) : CallOk b m op := by
  constructor <;> rw [hc]
  · exact h
  · rw [hs]
  · rw [hs]; rfl
  · exact ⟨[], by simp⟩
  · exact ⟨[], by simp⟩
  · intro _ _; rfl

theorem refused_ok {b : RwBuffer} {m : Mem} {op : RwOp} {res : Bool × RwVal} (h : Sound b)
    (hc : b.call m op = (res, b, m)) (hs : (tape m b).step op = (res, tape m b)) :
    CallOk b m op :=
  pos_ok (s := b.read.size) (o := b.read.offset) h hc hs

theorem read_ok {b : RwBuffer} {m : Mem} {op : RwOp} {n : UInt32} {v z : RwVal} {f : Bytes → RwVal}
    (h : Sound b)
    (hc : b.call m op = if b.read.canRead n then
        ((true, v), { b with read := (b.read.seekCur n).2 },
          m.touch (span (b.read.ptr + b.read.offset.toNat) n.toNat))
      else ((false, z), b, m))
    (hs : (tape m b).step op = (tape m b).read n.toNat f z)
    (hf : f ((span (b.read.ptr + b.read.offset.toNat) n.toNat).map m.byte) = v) : CallOk b m op := by
  have h' := sound_nat.1 h
  unfold Tape.read at hs
  rw [data_length h] at hs
  by_cases hn : n.toNat ≤ b.read.size.toNat - b.read.offset.toNat
  · rw [if_pos ((canRead_iff h'.1).2 hn)] at hc
    rw [if_pos hn, data_take h hn, hf] at hs
    obtain ⟨e1, e2⟩ := seekCur_ok (b := b.read) (n := n) (by omega)
    rw [e1] at hc
    constructor <;> rw [hc]
    · rw [sound_nat]
      simp only [e2]
      omega
    · rw [hs]
    · rw [hs]
      simp only [tape, e2, Mem.touch]
    · exact ⟨_, rfl, fun a ha => by rw [mem_span] at ha; unfold InData; omega⟩
    · exact ⟨[], by simp [Mem.touch]⟩
    · intro _ _; rfl
  · rw [if_neg (by rw [canRead_iff h'.1]; exact hn)] at hc
    rw [if_neg hn] at hs
    exact refused_ok h hc hs

theorem write_ok {b : RwBuffer} {m : Mem} {op : RwOp} {bs : Bytes} (h : Sound b)
    (hl : bs.length < 2 ^ 32)
    (hc : b.call m op = if b.canWrite (UInt32.ofNat bs.length) then
        ((true, .unit), (b.seekWriteCur (UInt32.ofNat bs.length)).2,
          m.stores (span (b.read.ptr + b.read.size.toNat) bs.length) bs)
      else ((false, .unit), b, m))
    (hs : (tape m b).step op = (tape m b).write bs) : CallOk b m op := by
  have h' := sound_nat.1 h
  have hn : (UInt32.ofNat bs.length).toNat = bs.length := by
    rw [UInt32.toNat_ofNat']; omega
  unfold Tape.write at hs
  rw [tape_length] at hs
  by_cases hf : b.read.size.toNat + bs.length ≤ b.size.toNat
  · rw [if_pos ((canWrite_iff h'.2).2 (by rw [hn]; exact hf))] at hc
    rw [if_pos (show (tape m b).filled + bs.length ≤ b.size.toNat from hf)] at hs
    obtain ⟨e1, e2⟩ := seekWriteCur_ok (b := b) (n := UInt32.ofNat bs.length) (by rw [hn]; exact hf)
    obtain ⟨s1, s2, s3⟩ := stores_span bs m (b.read.ptr + b.read.size.toNat)
    rw [e1] at hc
    rw [hn] at e2
    constructor <;> rw [hc]
    · rw [sound_nat]
      simp only [e2]
      omega
    · rw [hs]
    · rw [hs]
      simp only [tape, e2, Tape.mk.injEq, and_true]
      apply List.ext_getElem?
      intro k
      simp only [List.getElem?_map, s3]
      by_cases hk : k < b.size.toNat
      · rw [List.getElem?_range hk]
        simp only [Option.map_some]
        by_cases h1 : k < b.read.size.toNat
        · rw [if_neg (by omega), List.append_assoc, List.getElem?_append_left (by simp; omega),
            List.getElem?_take_of_lt h1, List.getElem?_map, List.getElem?_range hk]
          rfl
        · by_cases h2 : k < b.read.size.toNat + bs.length
          · rw [if_pos (by omega), List.append_assoc, List.getElem?_append_right (by simp; omega),
              List.getElem?_append_left (by simp; omega)]
            rw [List.getD_eq_getElem?_getD]
            simp only [List.length_take, List.length_map, List.length_range]
            rw [show b.read.ptr + k - (b.read.ptr + b.read.size.toNat) =
              k - min b.read.size.toNat b.size.toNat by omega,
              List.getElem?_eq_getElem (by omega)]
            rfl
          · rw [if_neg (by omega), List.getElem?_append_right (by simp; omega), List.getElem?_drop,
              List.getElem?_map]
            simp only [List.length_append, List.length_take, List.length_map, List.length_range]
            rw [List.getElem?_range (by omega)]
            simp only [Option.map_some, Option.some.injEq]
            congr 1
            omega
      · rw [List.getElem?_eq_none (by simpa using hk), List.getElem?_eq_none (by simp; omega)]
        rfl
    · exact ⟨[], by simp [s1]⟩
    · exact ⟨_, s2, fun a ha => by rw [mem_span] at ha; unfold InArea; omega⟩
    · intro a ha
      rw [s3, if_neg]
      unfold InArea at ha
      omega
  · rw [if_neg (by rw [canWrite_iff h'.2, hn]; exact hf)] at hc
    rw [if_neg (show ¬ (tape m b).filled + bs.length ≤ b.size.toNat from hf)] at hs
    exact refused_ok h hc hs

/-! ## Paths -/

theorem span_add (a m n : Nat) : span a (m + n) = span a m ++ span (a + m) n := by
  simp only [span, List.range_add, List.map_append, List.map_map]
  congr 1
  apply List.map_congr_left
  intro k _
  simp only [Function.comp]
  omega

theorem touch_nil (m : Mem) : m.touch [] = m := by simp [Mem.touch]

theorem touch_touch (m : Mem) (a b : List Nat) : (m.touch a).touch b = m.touch (a ++ b) := by
  simp [Mem.touch]

/-- The loop reads the words if they are all there, and else touches existing bytes only. -/
theorem pathLoop_spec (p : Nat) (len : UInt32) : ∀ (n : Nat) (o : UInt32) (m : Mem),
    o.toNat + 4 * n ≤ 40 →
    (o.toNat + 4 * n ≤ len.toNat → Buffer.pathLoop p len n o m =
      (some (words ((span (p + o.toNat) (4 * n)).map m.byte)),
        m.touch (span (p + o.toNat) (4 * n)))) ∧
    (len.toNat < o.toNat + 4 * n → o.toNat ≤ len.toNat → ∃ rd, Buffer.pathLoop p len n o m =
      (none, m.touch rd) ∧ ∀ a ∈ rd, p ≤ a ∧ a < p + len.toNat)
  | 0, o, m, _ => by
    refine ⟨fun _ => ?_, fun h h' => by omega⟩
    simp [Buffer.pathLoop, span, words, touch_nil]
  | n + 1, o, m, h => by
    have e4 : (o + 4).toNat = o.toNat + 4 := by
      rw [UInt32.toNat_add, show (4 : UInt32).toNat = 4 by decide]; omega
    have hk : ∀ k : UInt32, k.toNat ≤ 3 → (o + k).toNat = o.toNat + k.toNat := by
      intro k hk
      rw [UInt32.toNat_add]; omega
    have e0 := hk 0 (by decide)
    have e1 := hk 1 (by decide)
    have e2 := hk 2 (by decide)
    have e3 := hk 3 (by decide)
    have ei : indexed p o 4 = span (p + o.toNat) 4 := indexed_eq (by omega)
    obtain ⟨i1, i2⟩ := pathLoop_spec p len n (o + 4) (m.touch (span (p + o.toNat) 4)) (by omega)
    rw [e4] at i1 i2
    unfold Buffer.pathLoop
    simp only [ei, e0, e1, e2, e3]
    constructor
    · intro hl
      rw [if_neg (by simp only [gt_iff_lt, UInt32.lt_iff_toNat_lt, e4]; omega),
        i1 (by omega), touch_touch, ← Nat.add_assoc p o.toNat 4, ← span_add,
        show 4 + 4 * n = 4 * (n + 1) by omega]
      refine Prod.ext ?_ rfl
      have e5 : span (p + o.toNat) (4 * (n + 1)) = (p + o.toNat) :: (p + o.toNat + 1) ::
          (p + o.toNat + 2) :: (p + o.toNat + 3) :: span (p + o.toNat + 4) (4 * n) := by
        rw [show 4 * (n + 1) = 4 * n + 1 + 1 + 1 + 1 by omega, span_succ, span_succ, span_succ,
          span_succ]
      rw [e5]
      simp only [List.map_cons, words, Option.map_some, Option.some.injEq, List.cons.injEq]
      refine ⟨?_, rfl⟩
      rw [← readU32be_toNat, UInt32.ofNat_toNat]
      rfl
    · intro hl ho
      by_cases hc : len.toNat < o.toNat + 4
      · rw [if_pos (by simp only [gt_iff_lt, UInt32.lt_iff_toNat_lt, e4]; omega)]
        exact ⟨[], by rw [touch_nil], by simp⟩
      · rw [if_neg (by simp only [gt_iff_lt, UInt32.lt_iff_toNat_lt, e4]; omega)]
        obtain ⟨rd, hrd, hin⟩ := i2 (by omega) (by omega)
        refine ⟨span (p + o.toNat) 4 ++ rd, by rw [hrd, touch_touch]; rfl, ?_⟩
        intro a ha
        rw [List.mem_append, mem_span] at ha
        rcases ha with ha | ha
        · omega
        · exact hin a ha

theorem readPath_ok {b : RwBuffer} {m : Mem} {n : UInt32} (h : Sound b) :
    CallOk b m (.readPath n) := by
  have h' := sound_nat.1 h
  have hs := b.read.size.toNat_lt
  have ho := b.read.offset.toNat_lt
  have hn := n.toNat_lt
  have hlen : (b.read.size - b.read.offset).toNat = b.read.size.toNat - b.read.offset.toNat := by
    rw [UInt32.toNat_sub]; omega
  by_cases hr : 1 ≤ n.toNat ∧ n.toNat ≤ 10
  · have hz : ¬ (n = 0 ∨ n > 10) := by
      rw [← UInt32.toNat_inj]
      simp only [gt_iff_lt, UInt32.lt_iff_toNat_lt, show (0 : UInt32).toNat = 0 by decide,
        show (10 : UInt32).toNat = 10 by decide]
      omega
    obtain ⟨p1, p2⟩ := pathLoop_spec (b.read.ptr + b.read.offset.toNat) (b.read.size - b.read.offset)
      n.toNat 0 m (by simp only [show (0 : UInt32).toNat = 0 by decide]; omega)
    simp only [show (0 : UInt32).toNat = 0 by decide, Nat.zero_add, Nat.add_zero, hlen] at p1 p2
    have hm : (4 * n).toNat = 4 * n.toNat := by
      rw [UInt32.toNat_mul, show (4 : UInt32).toNat = 4 by decide]; omega
    by_cases hf : 4 * n.toNat ≤ b.read.size.toNat - b.read.offset.toNat
    · refine read_ok (n := 4 * n) (z := .path []) (f := fun b => .path (words b)) h
        (v := .path (words ((span (b.read.ptr + b.read.offset.toNat) (4 * n).toNat).map m.byte))) ?_ ?_ rfl
      · rw [if_pos ((canRead_iff h'.1).2 (by rw [hm]; exact hf))]
        simp only [RwBuffer.call, Buffer.readPath, if_neg hz, p1 hf, hm]
      · simp only [Tape.step, if_pos hr, hm]
    · obtain ⟨rd, hrd, hin⟩ := p2 (by omega) (by omega)
      have hc : b.call m (.readPath n) = ((false, .path []), b, m.touch rd) := by
        simp only [RwBuffer.call, Buffer.readPath, if_neg hz, hrd]
      have hst : (tape m b).step (.readPath n) = ((false, .path []), tape m b) := by
        simp only [Tape.step, if_pos hr, Tape.read, data_length h, if_neg hf]
      constructor <;> rw [hc]
      · exact h
      · rw [hst]
      · rw [hst]; rfl
      · refine ⟨rd, rfl, fun a ha => ?_⟩
        have := hin a ha
        unfold InData
        omega
      · exact ⟨[], by simp [Mem.touch]⟩
      · intro _ _; rfl
  · have hz : n = 0 ∨ n > 10 := by
      rw [← UInt32.toNat_inj]
      simp only [gt_iff_lt, UInt32.lt_iff_toNat_lt, show (0 : UInt32).toNat = 0 by decide,
        show (10 : UInt32).toNat = 10 by decide]
      omega
    refine refused_ok (res := (false, .path [])) h ?_ ?_
    · simp only [RwBuffer.call, Buffer.readPath, if_pos hz]
    · simp only [Tape.step, if_neg hr]

/-! ## Shifting -/

theorem shift_ok {b : RwBuffer} {m : Mem} (h : Sound b) : CallOk b m .shift := by
  have h' := sound_nat.1 h
  have hs := b.read.size.toNat_lt
  have hlen : (b.read.size - b.read.offset).toNat = b.read.size.toNat - b.read.offset.toNat := by
    rw [UInt32.toNat_sub]; omega
  have hdl := data_length (m := m) h
  have hdt : (tape m b).data = (span (b.read.ptr + b.read.offset.toNat)
      (b.read.size.toNat - b.read.offset.toNat)).map m.byte := by
    rw [← data_take h (le_refl _), ← hdl, List.take_length]
  by_cases hz : b.read.offset = 0
  · have hz' : b.read.offset.toNat = 0 := by rw [hz]; rfl
    refine refused_ok (res := (true, .unit)) h ?_ ?_
    · simp only [RwBuffer.call, RwBuffer.shiftData, if_pos hz]
    · simp only [Tape.step, hdl]
      congr 1
      have e1 : (tape m b).data = (tape m b).cells.take b.read.size.toNat := by
        simp only [Tape.data, tape, hz', List.drop_zero]
      rw [e1, hz', Nat.sub_zero, List.take_append_drop]
      simp only [tape, hz']
  · obtain ⟨n, hn⟩ : ∃ n, n = b.read.size.toNat - b.read.offset.toNat := ⟨_, rfl⟩
    have hl : ((span (b.read.ptr + b.read.offset.toNat) n).map m.byte).length = n := by
      simp [span_length]
    obtain ⟨s1, s2, s3⟩ := stores_span ((span (b.read.ptr + b.read.offset.toNat) n).map m.byte)
      (m.touch (span (b.read.ptr + b.read.offset.toNat) n)) b.read.ptr
    rw [hl] at s1 s2 s3
    have hc : b.call m .shift = ((true, .unit), ⟨⟨b.read.ptr, b.read.size - b.read.offset, 0⟩, b.size⟩,
        m.move b.read.ptr (b.read.ptr + b.read.offset.toNat) n) := by
      have e1 : b.read.seekSet 0 = (true, { b.read with offset := 0 }) := by
        unfold Buffer.seekSet
        rw [if_neg]
        simp only [gt_iff_lt, UInt32.lt_iff_toNat_lt, show (0 : UInt32).toNat = 0 by decide]
        omega
      have e2 : ∀ b' : RwBuffer, b'.size = b.size → b'.seekWriteSet (b.read.size - b.read.offset) =
          (true, { b' with read.size := b.read.size - b.read.offset }) := by
        intro b' hb
        unfold RwBuffer.seekWriteSet
        rw [if_neg]
        simp only [gt_iff_lt, UInt32.lt_iff_toNat_lt, hlen, hb]
        omega
      simp only [RwBuffer.call, RwBuffer.shiftData, if_neg hz, e1]
      rw [e2 ⟨⟨b.read.ptr, b.read.size, 0⟩, b.size⟩ rfl, hlen, ← hn]
    have hst : (tape m b).step .shift = ((true, .unit),
        ⟨(span (b.read.ptr + b.read.offset.toNat) n).map m.byte ++ (tape m b).cells.drop n, n, 0⟩) := by
      subst hn
      simp only [Tape.step]
      rw [hdl, hdt]
    constructor <;> rw [hc]
    · rw [sound_nat]
      simp only [hlen, show (0 : UInt32).toNat = 0 by decide]
      omega
    · rw [hst]
    · rw [hst]
      simp only [tape, hlen, ← hn, show (0 : UInt32).toNat = 0 by decide, Tape.mk.injEq, and_true]
      apply List.ext_getElem?
      intro k
      simp only [List.getElem?_map, Mem.move, s3]
      by_cases hk : k < b.size.toNat
      · rw [List.getElem?_range hk]
        simp only [Option.map_some]
        by_cases h1 : k < n
        · rw [if_pos (by omega), List.getElem?_append_left (by rw [hl]; exact h1),
            show b.read.ptr + k - b.read.ptr = k by omega, List.getD_eq_getElem?_getD,
            List.getElem?_eq_getElem (by rw [hl]; exact h1)]
          rfl
        · rw [if_neg (by omega), List.getElem?_append_right (by rw [hl]; omega), hl, List.getElem?_drop,
            show n + (k - n) = k by omega, List.getElem?_map, List.getElem?_range hk]
          rfl
      · rw [List.getElem?_eq_none (by simpa using hk),
          List.getElem?_eq_none (by rw [List.length_append, hl]; simp; omega)]
        rfl
    · refine ⟨_, s1, fun a ha => ?_⟩
      rw [mem_span] at ha
      unfold InData
      omega
    · refine ⟨_, s2, fun a ha => ?_⟩
      rw [mem_span] at ha
      unfold InArea
      omega
    · intro a ha
      show ((m.touch _).stores _ _).byte a = _
      rw [s3, if_neg]
      · rfl
      · unfold InArea at ha
        omega

/-! ## All operations -/

theorem span_one (a : Nat) : span a 1 = [a] := by simp [span]

theorem peek_eq {b : Buffer} {m : Mem} {k : UInt32} (h : b.offset.toNat + k.toNat < 2 ^ 32) :
    b.peek m k = m.byte (b.ptr + b.offset.toNat + k.toNat) := by
  unfold Buffer.peek
  rw [UInt32.toNat_add, Nat.mod_eq_of_lt h, Nat.add_assoc]

theorem writeInt_call {b : RwBuffer} {m : Mem} {op : RwOp} {bs : Bytes}
    (hc : b.call m op = ((((b.writeInt bs m).1), .unit), (b.writeInt bs m).2.1, (b.writeInt bs m).2.2))
    (h' : b.read.size.toNat ≤ b.size.toNat) (hl : bs.length < 2 ^ 32) :
    b.call m op = if b.canWrite (UInt32.ofNat bs.length) then
        ((true, .unit), (b.seekWriteCur (UInt32.ofNat bs.length)).2,
          m.stores (span (b.read.ptr + b.read.size.toNat) bs.length) bs)
      else ((false, .unit), b, m) := by
  rw [hc]
  unfold RwBuffer.writeInt
  cases hw : b.canWrite (UInt32.ofNat bs.length) with
  | false => rfl
  | true =>
    have hn : (UInt32.ofNat bs.length).toNat = bs.length := by
      rw [UInt32.toNat_ofNat']; omega
    have := (canWrite_iff h').1 hw
    have := b.size.toNat_lt
    simp only [Bool.not_true, if_true, Bool.false_eq_true, if_false]
    rw [indexed_eq (by omega)]

theorem call_ok {b : RwBuffer} {m : Mem} {op : RwOp} (h : Sound b) (ha : (tape m b).Allowed op) :
    CallOk b m op := by
  have h' := sound_nat.1 h
  have hsz := b.size.toNat_lt
  have hnat : ∀ n : UInt32, n.toNat < 2 ^ 32 := fun n => n.toNat_lt
  have hL := tape_length m b
  cases op with
  | empty =>
    exact pos_ok (s := 0) (o := 0) (by rw [sound_nat]; simp) rfl rfl
  | shift => exact shift_ok h
  | seekReadSet n =>
    by_cases hn : n.toNat ≤ b.read.size.toNat
    · refine pos_ok (res := (true, .unit)) (s := b.read.size) (o := n) ?_ ?_ ?_
      · rw [sound_nat]; exact ⟨hn, h'.2⟩
      · have e : ¬ (n > b.read.size) := by
          simp only [gt_iff_lt, UInt32.lt_iff_toNat_lt]; omega
        simp only [RwBuffer.call, Buffer.seekSet, if_neg e]
      · simp only [Tape.step, Tape.seekRead]
        rw [if_pos (show n.toNat ≤ (tape m b).filled from hn)]
        rfl
    · refine refused_ok (res := (false, .unit)) h ?_ ?_
      · have e : n > b.read.size := by
          simp only [gt_iff_lt, UInt32.lt_iff_toNat_lt]; omega
        simp only [RwBuffer.call, Buffer.seekSet, if_pos e]
      · simp only [Tape.step, Tape.seekRead]
        rw [if_neg (show ¬ n.toNat ≤ (tape m b).filled from hn)]
  | seekReadCur n =>
    by_cases hn : b.read.offset.toNat + n.toNat ≤ b.read.size.toNat
    · obtain ⟨e1, e2⟩ := seekCur_ok hn
      refine pos_ok (res := (true, .unit)) (s := b.read.size) (o := b.read.offset + n) ?_ ?_ ?_
      · rw [sound_nat]; simp only [e2]; exact ⟨hn, h'.2⟩
      · simp only [RwBuffer.call, e1]
      · simp only [Tape.step, Tape.seekRead]
        rw [if_pos (show (tape m b).pos + n.toNat ≤ (tape m b).filled from hn), e2]
        rfl
    · refine refused_ok (res := (false, .unit)) h ?_ ?_
      · simp only [RwBuffer.call, seekCur_no (b := b.read) (n := n) (by omega)]
      · simp only [Tape.step, Tape.seekRead]
        rw [if_neg (show ¬ (tape m b).pos + n.toNat ≤ (tape m b).filled from hn)]
  | seekReadEnd n =>
    by_cases hn : n.toNat ≤ b.read.size.toNat
    · have e2 : (b.read.size - n).toNat = b.read.size.toNat - n.toNat := by
        rw [UInt32.toNat_sub]; omega
      refine pos_ok (res := (true, .unit)) (s := b.read.size) (o := b.read.size - n) ?_ ?_ ?_
      · rw [sound_nat]; simp only [e2]; omega
      · have e : ¬ (n > b.read.size) := by
          simp only [gt_iff_lt, UInt32.lt_iff_toNat_lt]; omega
        simp only [RwBuffer.call, Buffer.seekEnd, if_neg e]
      · simp only [Tape.step, Tape.seekRead]
        rw [if_pos (show n.toNat ≤ (tape m b).filled from hn),
          if_pos (show (tape m b).filled - n.toNat ≤ (tape m b).filled by omega), e2]
        rfl
    · refine refused_ok (res := (false, .unit)) h ?_ ?_
      · have e : n > b.read.size := by
          simp only [gt_iff_lt, UInt32.lt_iff_toNat_lt]; omega
        simp only [RwBuffer.call, Buffer.seekEnd, if_pos e]
      · simp only [Tape.step]
        rw [if_neg (show ¬ n.toNat ≤ (tape m b).filled from hn)]
  | seekWriteSet n =>
    have hp : b.read.offset.toNat ≤ n.toNat := ha
    by_cases hn : n.toNat ≤ b.size.toNat
    · refine pos_ok (res := (true, .unit)) (s := n) (o := b.read.offset) ?_ ?_ ?_
      · rw [sound_nat]; exact ⟨hp, hn⟩
      · have e : ¬ (n > b.size) := by
          simp only [gt_iff_lt, UInt32.lt_iff_toNat_lt]; omega
        simp only [RwBuffer.call, RwBuffer.seekWriteSet, if_neg e]
      · simp only [Tape.step, Tape.seekWrite, hL]
        rw [if_pos hn]
        rfl
    · refine refused_ok (res := (false, .unit)) h ?_ ?_
      · have e : n > b.size := by
          simp only [gt_iff_lt, UInt32.lt_iff_toNat_lt]; omega
        simp only [RwBuffer.call, RwBuffer.seekWriteSet, if_pos e]
      · simp only [Tape.step, Tape.seekWrite, hL]
        rw [if_neg hn]
  | seekWriteCur n =>
    by_cases hn : b.read.size.toNat + n.toNat ≤ b.size.toNat
    · obtain ⟨e1, e2⟩ := seekWriteCur_ok hn
      refine pos_ok (res := (true, .unit)) (s := b.read.size + n) (o := b.read.offset) ?_ ?_ ?_
      · rw [sound_nat]; simp only [e2]; omega
      · simp only [RwBuffer.call, e1]
      · simp only [Tape.step, Tape.seekWrite, hL]
        rw [if_pos (show (tape m b).filled + n.toNat ≤ b.size.toNat from hn), e2]
        rfl
    · refine refused_ok (res := (false, .unit)) h ?_ ?_
      · simp only [RwBuffer.call, seekWriteCur_no (b := b) (n := n) (by omega)]
      · simp only [Tape.step, Tape.seekWrite, hL]
        rw [if_neg (show ¬ (tape m b).filled + n.toNat ≤ b.size.toNat from hn)]
  | seekWriteEnd n =>
    have hp : b.read.offset.toNat + n.toNat ≤ b.size.toNat := by rw [← hL]; exact ha
    have e2 : (b.size - n).toNat = b.size.toNat - n.toNat := by
      rw [UInt32.toNat_sub]; omega
    refine pos_ok (res := (true, .unit)) (s := b.size - n) (o := b.read.offset) ?_ ?_ ?_
    · rw [sound_nat]; simp only [e2]; omega
    · have e : ¬ (n > b.size) := by
        simp only [gt_iff_lt, UInt32.lt_iff_toNat_lt]; omega
      simp only [RwBuffer.call, RwBuffer.seekWriteEnd, if_neg e]
    · simp only [Tape.step, Tape.seekWrite, hL]
      rw [if_pos (by omega), if_pos (by omega), e2]
      rfl
  | readU8 =>
    refine read_ok (n := 1) (z := .u8 0) (f := fun b => .u8 (UInt8.ofNat (be b)))
      (v := .u8 (b.read.peek m 0)) h ?_ rfl ?_
    · simp only [RwBuffer.call, Buffer.readU8]
      cases hc : b.read.canRead 1 with
      | false => rfl
      | true =>
        have := (canRead_iff h'.1).1 hc
        rw [show (1 : UInt32).toNat = 1 by decide] at this
        simp only [Bool.not_true, if_true, Bool.false_eq_true, if_false,
          show (1 : UInt32).toNat = 1 by decide]
        rw [indexed_eq (by omega)]
    · rw [peek_eq (by have := hnat b.read.offset; simpa using this)]
      simp [span_one, be]
  | readU16 e =>
    by_cases hc : 2 ≤ b.read.size.toNat - b.read.offset.toNat
    · have hcr : b.read.canRead 2 = true := (canRead_iff h'.1).2 hc
      have hpk : ∀ k : UInt32, k.toNat < 2 →
          b.read.peek m k = m.byte (b.read.ptr + b.read.offset.toNat + k.toNat) :=
        fun k hk => peek_eq (by omega)
      refine read_ok (n := 2) (z := .u16 0) (f := fun b => .u16 (UInt16.ofNat (intValue e b)))
        (v := .u16 (b.read.readU16 e m).2.1) h ?_ rfl ?_
      · simp only [RwBuffer.call, Buffer.readU16, hcr, Bool.not_true, if_true, Bool.false_eq_true,
          if_false, show (2 : UInt32).toNat = 2 by decide]
        rw [indexed_eq (by omega)]
      · simp only [Buffer.readU16, hcr, Bool.not_true, Bool.false_eq_true, if_false]
        refine congrArg RwVal.u16 (Eq.trans ?_ (value16 e _ _).symm)
        rw [hpk 0 (by decide),
        hpk 1 (by decide)]
        rfl
    · have hcr : b.read.canRead 2 = false := by
        rw [Bool.eq_false_iff, ne_eq, canRead_iff h'.1]; exact hc
      refine refused_ok (res := (false, .u16 0)) h ?_ ?_
      · simp only [RwBuffer.call, Buffer.readU16, hcr, Bool.not_false, if_true]
      · simp only [Tape.step, Tape.read, data_length h, if_neg hc]
  | readU32 e =>
    by_cases hc : 4 ≤ b.read.size.toNat - b.read.offset.toNat
    · have hcr : b.read.canRead 4 = true := (canRead_iff h'.1).2 hc
      have hpk : ∀ k : UInt32, k.toNat < 4 →
          b.read.peek m k = m.byte (b.read.ptr + b.read.offset.toNat + k.toNat) :=
        fun k hk => peek_eq (by omega)
      refine read_ok (n := 4) (z := .u32 0) (f := fun b => .u32 (UInt32.ofNat (intValue e b)))
        (v := .u32 (b.read.readU32 e m).2.1) h ?_ rfl ?_
      · simp only [RwBuffer.call, Buffer.readU32, hcr, Bool.not_true, if_true, Bool.false_eq_true,
          if_false, show (4 : UInt32).toNat = 4 by decide]
        rw [indexed_eq (by omega)]
      · simp only [Buffer.readU32, hcr, Bool.not_true, Bool.false_eq_true, if_false]
        refine congrArg RwVal.u32 (Eq.trans ?_ (value32 e _ _ _ _).symm)
        rw [hpk 0 (by decide),
        hpk 1 (by decide),
        hpk 2 (by decide),
        hpk 3 (by decide)]
        rfl
    · have hcr : b.read.canRead 4 = false := by
        rw [Bool.eq_false_iff, ne_eq, canRead_iff h'.1]; exact hc
      refine refused_ok (res := (false, .u32 0)) h ?_ ?_
      · simp only [RwBuffer.call, Buffer.readU32, hcr, Bool.not_false, if_true]
      · simp only [Tape.step, Tape.read, data_length h, if_neg hc]
  | readU64 e =>
    by_cases hc : 8 ≤ b.read.size.toNat - b.read.offset.toNat
    · have hcr : b.read.canRead 8 = true := (canRead_iff h'.1).2 hc
      have hpk : ∀ k : UInt32, k.toNat < 8 →
          b.read.peek m k = m.byte (b.read.ptr + b.read.offset.toNat + k.toNat) :=
        fun k hk => peek_eq (by omega)
      refine read_ok (n := 8) (z := .u64 0) (f := fun b => .u64 (UInt64.ofNat (intValue e b)))
        (v := .u64 (b.read.readU64 e m).2.1) h ?_ rfl ?_
      · simp only [RwBuffer.call, Buffer.readU64, hcr, Bool.not_true, if_true, Bool.false_eq_true,
          if_false, show (8 : UInt32).toNat = 8 by decide]
        rw [indexed_eq (by omega)]
      · simp only [Buffer.readU64, hcr, Bool.not_true, Bool.false_eq_true, if_false]
        refine congrArg RwVal.u64 (Eq.trans ?_ (value64 e _ _ _ _ _ _ _ _).symm)
        rw [hpk 0 (by decide),
        hpk 1 (by decide),
        hpk 2 (by decide),
        hpk 3 (by decide),
        hpk 4 (by decide),
        hpk 5 (by decide),
        hpk 6 (by decide),
        hpk 7 (by decide)]
        rfl
    · have hcr : b.read.canRead 8 = false := by
        rw [Bool.eq_false_iff, ne_eq, canRead_iff h'.1]; exact hc
      refine refused_ok (res := (false, .u64 0)) h ?_ ?_
      · simp only [RwBuffer.call, Buffer.readU64, hcr, Bool.not_false, if_true]
      · simp only [Tape.step, Tape.read, data_length h, if_neg hc]
  | readBytes n =>
    refine read_ok (n := n) (z := .bytes []) (f := .bytes)
      (v := .bytes ((span (b.read.ptr + b.read.offset.toNat) n.toNat).map m.byte)) h ?_ rfl rfl
    simp only [RwBuffer.call, Buffer.readBytes, Buffer.copyBytes]
    cases hc : b.read.canRead n with
    | false => rfl
    | true =>
      have := (canRead_iff h'.1).1 hc
      simp only [Bool.not_true, if_true, Bool.false_eq_true, if_false,
        (seekCur_ok (b := b.read) (n := n) (by omega)).1]
  | copyBytes n =>
    by_cases hc : n.toNat ≤ b.read.size.toNat - b.read.offset.toNat
    · have hcr : b.read.canRead n = true := (canRead_iff h'.1).2 hc
      have hcall : b.call m (.copyBytes n) = ((true, .bytes ((span (b.read.ptr + b.read.offset.toNat)
          n.toNat).map m.byte)), b, m.touch (span (b.read.ptr + b.read.offset.toNat) n.toNat)) := by
        simp only [RwBuffer.call, Buffer.copyBytes, hcr, Bool.not_true, Bool.false_eq_true, if_false]
      have hst : (tape m b).step (.copyBytes n) = ((true, .bytes ((span (b.read.ptr +
          b.read.offset.toNat) n.toNat).map m.byte)), tape m b) := by
        simp only [Tape.step, Tape.read, data_length h, if_pos hc, data_take h hc]
      constructor <;> rw [hcall]
      · exact h
      · rw [hst]
      · rw [hst]; rfl
      · exact ⟨_, rfl, fun a ha => by rw [mem_span] at ha; unfold InData; omega⟩
      · exact ⟨[], by simp [Mem.touch]⟩
      · intro _ _; rfl
    · have hcr : b.read.canRead n = false := by
        rw [Bool.eq_false_iff, ne_eq, canRead_iff h'.1]; exact hc
      refine refused_ok (res := (false, .bytes [])) h ?_ ?_
      · simp only [RwBuffer.call, Buffer.copyBytes, hcr, Bool.not_false, if_true]
      · simp only [Tape.step, Tape.read, data_length h, if_neg hc]
  | readPath n => exact readPath_ok h
  | writeU8 v =>
    have e : intBytes .be 1 v.toNat = [v] := by simp [intBytes]
    refine write_ok (bs := [v]) h (by simp) ?_ (by simp only [Tape.step, e])
    exact writeInt_call (by rfl) h'.2 (by simp)
  | writeU16 v e =>
    refine write_ok (bs := intBytes e 2 v.toNat) h (by rw [intBytes_length]; decide) ?_ rfl
    refine writeInt_call ?_ h'.2 (by rw [intBytes_length]; decide)
    rw [← write16_eq]
    rfl
  | writeU32 v e =>
    refine write_ok (bs := intBytes e 4 v.toNat) h (by rw [intBytes_length]; decide) ?_ rfl
    refine writeInt_call ?_ h'.2 (by rw [intBytes_length]; decide)
    rw [← write32_eq]
    rfl
  | writeU64 v e =>
    refine write_ok (bs := intBytes e 8 v.toNat) h (by rw [intBytes_length]; decide) ?_ rfl
    refine writeInt_call ?_ h'.2 (by rw [intBytes_length]; decide)
    rw [← write64_eq]
    rfl
  | writeBytes bs =>
    have hl : bs.length < 2 ^ 32 := ha
    have hn : (UInt32.ofNat bs.length).toNat = bs.length := by
      rw [UInt32.toNat_ofNat']; omega
    refine write_ok (bs := bs) h hl ?_ rfl
    simp only [RwBuffer.call, RwBuffer.writeBytes, hn]
    cases b.canWrite (UInt32.ofNat bs.length) <;> rfl

end Ergo
