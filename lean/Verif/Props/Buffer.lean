import Verif.Proof.RwBuffer
/-!
# C39: reading and writing stay inside the buffer
-/
namespace Ergo
open Spec

/-! ## Sequences of operations -/

theorem calls_ok : ∀ (ops : List RwOp) {b : RwBuffer} {m : Mem}, Sound b →
    (tape m b).AllAllowed ops →
    Sound (b.calls m ops).2.1 ∧ (b.calls m ops).1 = ((tape m b).steps ops).1 ∧
    tape (b.calls m ops).2.2 (b.calls m ops).2.1 = ((tape m b).steps ops).2 ∧
    (b.calls m ops).2.1.read.ptr = b.read.ptr ∧ (b.calls m ops).2.1.size = b.size ∧
    (∃ rd, (b.calls m ops).2.2.reads = m.reads ++ rd ∧ ∀ a ∈ rd, InArea b a) ∧
    (∃ wr, (b.calls m ops).2.2.writes = m.writes ++ wr ∧ ∀ a ∈ wr, InArea b a) ∧
    (∀ a, ¬ InArea b a → (b.calls m ops).2.2.byte a = m.byte a)
  | [], b, m, h, _ => by
    refine ⟨h, rfl, rfl, rfl, rfl, ⟨[], by simp [RwBuffer.calls]⟩, ⟨[], by simp [RwBuffer.calls]⟩, ?_⟩
    intro _ _; rfl
  | op :: ops, b, m, h, ha => by
    have c := call_ok h ha.1
    have h' := sound_nat.1 h
    obtain ⟨i1, i2, i3, i4, i5, ⟨rd, i6, i6'⟩, ⟨wr, i7, i7'⟩, i8⟩ :=
      calls_ok ops (b := (b.call m op).2.1) (m := (b.call m op).2.2) c.sound (by rw [c.tape]; exact ha.2)
    obtain ⟨rd0, r1, r2⟩ := c.reads
    obtain ⟨wr0, w1, w2⟩ := c.writes
    have harea : ∀ a, InArea (b.call m op).2.1 a ↔ InArea b a := by
      intro a; unfold InArea; rw [c.ptr, c.size]
    refine ⟨i1, ?_, ?_, ?_, ?_, ⟨rd0 ++ rd, ?_, ?_⟩, ⟨wr0 ++ wr, ?_, ?_⟩, ?_⟩
    · show (b.call m op).1 :: _ = _ :: _
      rw [c.result, i2, c.tape]
    · exact i3.trans (by rw [c.tape]; rfl)
    · rw [← c.ptr]; exact i4
    · rw [← c.size]; exact i5
    · rw [← List.append_assoc, ← r1]; exact i6
    · intro a hm
      rcases List.mem_append.1 hm with hm | hm
      · have := r2 a hm
        unfold InData at this
        unfold InArea
        omega
      · exact (harea a).1 (i6' a hm)
    · rw [← List.append_assoc, ← w1]; exact i7
    · intro a hm
      rcases List.mem_append.1 hm with hm | hm
      · exact w2 a hm
      · exact (harea a).1 (i7' a hm)
    · intro a hn
      rw [← c.outside a hn]
      exact i8 a (by rw [harea]; exact hn)

/-- C39, one operation: it does what the tape does, reads written and unread bytes only, writes
inside the array only and changes nothing else. -/
theorem C39_call_partial {b : RwBuffer} {m : Mem} {op : RwOp} (h : Sound b)
    (ha : (tape m b).Allowed op) :
    (b.call m op).1 = ((tape m b).step op).1 ∧
    tape (b.call m op).2.2 (b.call m op).2.1 = ((tape m b).step op).2 ∧
    (∃ rd, (b.call m op).2.2.reads = m.reads ++ rd ∧ ∀ a ∈ rd, InData b a) ∧
    (∃ wr, (b.call m op).2.2.writes = m.writes ++ wr ∧ ∀ a ∈ wr, InArea b a) ∧
    (∀ a, ¬ InArea b a → (b.call m op).2.2.byte a = m.byte a) ∧ Sound (b.call m op).2.1 :=
  let c := call_ok h ha
  ⟨c.result, c.tape, c.reads, c.writes, c.outside, c.sound⟩

/-- C39 (partial: only if the writing position is never put behind the reading position, see
`C39_negation`), every sequence of operations. -/
theorem C39_calls_partial {b : RwBuffer} {m : Mem} {ops : List RwOp} (h : Sound b)
    (ha : (tape m b).AllAllowed ops) :
    (b.calls m ops).1 = ((tape m b).steps ops).1 ∧
    tape (b.calls m ops).2.2 (b.calls m ops).2.1 = ((tape m b).steps ops).2 ∧
    (∃ rd, (b.calls m ops).2.2.reads = m.reads ++ rd ∧ ∀ a ∈ rd, InArea b a) ∧
    (∃ wr, (b.calls m ops).2.2.writes = m.writes ++ wr ∧ ∀ a ∈ wr, InArea b a) ∧
    (∀ a, ¬ InArea b a → (b.calls m ops).2.2.byte a = m.byte a) ∧ Sound (b.calls m ops).2.1 := by
  obtain ⟨h1, h2, h3, _, _, h6, h7, h8⟩ := calls_ok ops h ha
  exact ⟨h2, h3, h6, h7, h8, h1⟩

/-- The operations the app uses: all but the two absolute ways of moving the writing position. -/
def Used : RwOp → Prop
  | .seekWriteSet _ => False
  | .seekWriteEnd _ => False
  | .writeBytes bs => bs.length < 2 ^ 32
  | _ => True

theorem used_allowed : ∀ (ops : List RwOp) (t : Tape), (∀ op ∈ ops, Used op) → t.AllAllowed ops
  | [], _, _ => trivial
  | op :: ops, t, h => by
    refine ⟨?_, used_allowed ops _ (fun o ho => h o (List.mem_cons_of_mem _ ho))⟩
    have := h op (by simp)
    cases op <;> first | exact this | trivial | exact this.elim

/-- C39 for every sequence of the operations the app uses, on a new buffer: every address read or
written belongs to the array, all other memory keeps its content, and the results are those of the
tape. -/
theorem C39_app {ptr : Nat} {size filled : UInt32} {m : Mem} {ops : List RwOp} (hs : filled ≤ size)
    (hu : ∀ op ∈ ops, Used op) (b : RwBuffer) (hb : b = RwBuffer.init ptr size filled) :
    (b.calls m ops).1 = ((tape m b).steps ops).1 ∧
    (∃ rd, (b.calls m ops).2.2.reads = m.reads ++ rd ∧
      ∀ a ∈ rd, ptr ≤ a ∧ a < ptr + size.toNat) ∧
    (∃ wr, (b.calls m ops).2.2.writes = m.writes ++ wr ∧
      ∀ a ∈ wr, ptr ≤ a ∧ a < ptr + size.toNat) ∧
    (∀ a, ¬ (ptr ≤ a ∧ a < ptr + size.toNat) → (b.calls m ops).2.2.byte a = m.byte a) := by
  subst hb
  have h : Sound (RwBuffer.init ptr size filled) := ⟨by simp [RwBuffer.init], hs⟩
  obtain ⟨h1, _, h3, h4, h5, _⟩ := C39_calls_partial h (used_allowed ops (tape m _) hu)
  exact ⟨h1, h3, h4, h5⟩

/-- Memory with the numbers 0, 1, 2, … -/
def demoMem : Mem := ⟨fun a => UInt8.ofNat a, [], []⟩

/-- Writing, reading in both orders, shifting and a refused write. -/
example :
    let r := (RwBuffer.init 100 7 0).calls demoMem
      [.writeU16 0x1234 .be, .writeU32 0xA1B2C3D4 .le, .readU16 .be, .shift, .writeU8 9, .writeU8 8,
        .writeBytes [7, 7], .readU32 .le, .readBytes 2, .readU8]
    r.1 = [(true, .unit), (true, .unit), (true, .u16 0x1234), (true, .unit), (true, .unit),
      (true, .unit), (false, .unit), (true, .u32 0xA1B2C3D4), (true, .bytes [9, 8]), (false, .u8 0)] ∧
    (List.range 9).map (fun k => r.2.2.byte (99 + k)) =
      [99, 0xD4, 0xC3, 0xB2, 0xA1, 9, 8, 106, 107] := by
  decide +kernel

/-! ## Writes -/

/-- C39, refusal: a write that does not fit returns false and changes neither the buffer nor any byte
of memory, and makes no access. -/
theorem C39_refused {b : RwBuffer} {m : Mem} {op : RwOp} {bs : Bytes} (h : b.read.size ≤ b.size)
    (hw : written op = some bs) (hl : bs.length < 2 ^ 32)
    (hf : b.size.toNat < b.read.size.toNat + bs.length) :
    b.call m op = ((false, .unit), b, m) := by
  rw [UInt32.le_iff_toNat_le] at h
  have hn : (UInt32.ofNat bs.length).toNat = bs.length := by
    rw [UInt32.toNat_ofNat']; omega
  have hc : ¬ b.canWrite (UInt32.ofNat bs.length) = true := by
    rw [canWrite_iff h, hn]; omega
  cases op with
  | writeU8 v =>
    have e : intBytes .be 1 v.toNat = [v] := by simp [intBytes]
    cases hw
    rw [e] at hc
    rw [writeInt_call (bs := [v]) (by rfl) h (by simp), if_neg hc]
  | writeU16 v e =>
    cases hw
    rw [writeInt_call (bs := intBytes e 2 v.toNat) (by rw [← write16_eq]; rfl) h hl, if_neg hc]
  | writeU32 v e =>
    cases hw
    rw [writeInt_call (bs := intBytes e 4 v.toNat) (by rw [← write32_eq]; rfl) h hl, if_neg hc]
  | writeU64 v e =>
    cases hw
    rw [writeInt_call (bs := intBytes e 8 v.toNat) (by rw [← write64_eq]; rfl) h hl, if_neg hc]
  | writeBytes bs =>
    cases hw
    simp only [RwBuffer.call, RwBuffer.writeBytes]
    rw [if_pos (by simpa using hc)]
  | _ => cases hw

example : (RwBuffer.init 100 7 0).call demoMem (.writeU64 5 .be) =
    ((false, .unit), RwBuffer.init 100 7 0, demoMem) :=
  C39_refused (by decide) rfl (by decide) (by decide)

/-- The array is where it was and only its bytes were written. -/
def WritesOk (b : RwBuffer) (m : Mem) (b' : RwBuffer) (m' : Mem) : Prop :=
  b'.read.size ≤ b'.size ∧ b'.read.ptr = b.read.ptr ∧ b'.size = b.size ∧
  (∃ wr, m'.writes = m.writes ++ wr ∧ ∀ a ∈ wr, InArea b a) ∧
  (∀ a, ¬ InArea b a → m'.byte a = m.byte a)

theorem WritesOk.same {b b' : RwBuffer} {m m' : Mem} (h1 : b'.read.size ≤ b'.size)
    (h2 : b'.read.ptr = b.read.ptr) (h3 : b'.size = b.size) (h4 : m'.writes = m.writes)
    (h5 : m'.byte = m.byte) : WritesOk b m b' m' :=
  ⟨h1, h2, h3, ⟨[], by simp [h4]⟩, fun a _ => by rw [h5]⟩

theorem WritesOk.seek {b : RwBuffer} {m m' : Mem} {n : UInt32} (h : b.read.size ≤ b.size)
    (h4 : m'.writes = m.writes) (h5 : m'.byte = m.byte) :
    WritesOk b m { b with read := (b.read.seekCur n).2 } m' := by
  unfold Buffer.seekCur
  split
  · exact .same h rfl rfl h4 h5
  · exact .same h rfl rfl h4 h5

theorem stores_call {b : RwBuffer} {m : Mem} {op : RwOp} {bs : Bytes}
    (h : b.read.size.toNat ≤ b.size.toNat) (hl : bs.length < 2 ^ 32)
    (hc : b.call m op = if b.canWrite (UInt32.ofNat bs.length) then
        ((true, .unit), (b.seekWriteCur (UInt32.ofNat bs.length)).2,
          m.stores (span (b.read.ptr + b.read.size.toNat) bs.length) bs)
      else ((false, .unit), b, m)) :
    WritesOk b m (b.call m op).2.1 (b.call m op).2.2 := by
  have hn : (UInt32.ofNat bs.length).toNat = bs.length := by
    rw [UInt32.toNat_ofNat']; omega
  by_cases hf : b.read.size.toNat + bs.length ≤ b.size.toNat
  · obtain ⟨e1, e2⟩ := seekWriteCur_ok (b := b) (n := UInt32.ofNat bs.length) (by rw [hn]; exact hf)
    obtain ⟨s1, s2, s3⟩ := stores_span bs m (b.read.ptr + b.read.size.toNat)
    rw [if_pos ((canWrite_iff h).2 (by rw [hn]; exact hf)), e1] at hc
    rw [hc]
    refine ⟨?_, rfl, rfl, ⟨_, s2, fun a ha => ?_⟩, fun a ha => ?_⟩
    · rw [UInt32.le_iff_toNat_le]
      simp only [e2, hn]
      exact hf
    · rw [mem_span] at ha
      unfold InArea
      omega
    · simp only [s3]
      rw [if_neg]
      unfold InArea at ha
      omega
  · rw [if_neg (by rw [canWrite_iff h, hn]; exact hf)] at hc
    rw [hc]
    exact ⟨UInt32.le_iff_toNat_le.2 h, rfl, rfl, ⟨[], by simp⟩, fun _ _ => rfl⟩

theorem pathLoop_mem (p : Nat) (len : UInt32) : ∀ (n : Nat) (o : UInt32) (m : Mem),
    (Buffer.pathLoop p len n o m).2.writes = m.writes ∧ (Buffer.pathLoop p len n o m).2.byte = m.byte
  | 0, _, _ => ⟨rfl, rfl⟩
  | n + 1, o, m => by
    unfold Buffer.pathLoop
    split
    · exact ⟨rfl, rfl⟩
    · exact pathLoop_mem p len n (o + 4) (m.touch _)

/-- C39, writes in every sequence of operations (also those that move the writing position behind the
reading position), except `rw_buffer_shift_data`: only the array is written and everything else keeps
its content. -/
theorem C39_writes : ∀ (ops : List RwOp) (b : RwBuffer) (m : Mem), b.read.size ≤ b.size →
    .shift ∉ ops → (∀ bs, .writeBytes bs ∈ ops → bs.length < 2 ^ 32) →
    (∃ wr, (b.calls m ops).2.2.writes = m.writes ++ wr ∧ ∀ a ∈ wr, InArea b a) ∧
    (∀ a, ¬ InArea b a → (b.calls m ops).2.2.byte a = m.byte a)
  | [], b, m, _, _, _ => ⟨⟨[], by simp [RwBuffer.calls]⟩, fun _ _ => rfl⟩
  | op :: ops, b, m, h, hs, hb => by
    have key : WritesOk b m (b.call m op).2.1 (b.call m op).2.2 := by
      have hn := UInt32.le_iff_toNat_le.1 h
      have hz := b.size.toNat_lt
      cases op with
      | empty => exact .same (UInt32.le_iff_toNat_le.2 (Nat.zero_le _)) rfl rfl rfl rfl
      | shift => exact absurd (List.mem_cons_self) hs
      | seekReadSet n =>
        simp only [RwBuffer.call, Buffer.seekSet]
        split <;> exact .same h rfl rfl rfl rfl
      | seekReadCur n => exact .seek h rfl rfl
      | seekReadEnd n =>
        simp only [RwBuffer.call, Buffer.seekEnd]
        split <;> exact .same h rfl rfl rfl rfl
      | seekWriteSet n =>
        simp only [RwBuffer.call, RwBuffer.seekWriteSet]
        split
        · exact .same h rfl rfl rfl rfl
        · rename_i hc
          exact .same (by simpa using hc) rfl rfl rfl rfl
      | seekWriteCur n =>
        simp only [RwBuffer.call, RwBuffer.seekWriteCur]
        split
        · exact .same h rfl rfl rfl rfl
        · rename_i hc
          rw [not_or] at hc
          exact .same (by simpa using hc.2) rfl rfl rfl rfl
      | seekWriteEnd n =>
        simp only [RwBuffer.call, RwBuffer.seekWriteEnd]
        split
        · exact .same h rfl rfl rfl rfl
        · rename_i hc
          refine .same ?_ rfl rfl rfl rfl
          simp only [gt_iff_lt, UInt32.lt_iff_toNat_lt] at hc
          simp only [UInt32.le_iff_toNat_le, UInt32.toNat_sub]
          omega
      | readU8 =>
        simp only [RwBuffer.call, Buffer.readU8]
        split
        · exact .same h rfl rfl rfl rfl
        · exact .seek h rfl rfl
      | readU16 e =>
        simp only [RwBuffer.call, Buffer.readU16]
        split
        · exact .same h rfl rfl rfl rfl
        · exact .seek h rfl rfl
      | readU32 e =>
        simp only [RwBuffer.call, Buffer.readU32]
        split
        · exact .same h rfl rfl rfl rfl
        · exact .seek h rfl rfl
      | readU64 e =>
        simp only [RwBuffer.call, Buffer.readU64]
        split
        · exact .same h rfl rfl rfl rfl
        · exact .seek h rfl rfl
      | readBytes n =>
        simp only [RwBuffer.call, Buffer.readBytes, Buffer.copyBytes]
        cases b.read.canRead n
        · exact .same h rfl rfl rfl rfl
        · exact .seek h rfl rfl
      | copyBytes n =>
        simp only [RwBuffer.call, Buffer.copyBytes]
        split <;> exact .same h rfl rfl rfl rfl
      | readPath n =>
        simp only [RwBuffer.call, Buffer.readPath]
        obtain ⟨p1, p2⟩ := pathLoop_mem (b.read.ptr + b.read.offset.toNat)
          (b.read.size - b.read.offset) n.toNat 0 m
        split
        · exact .same h rfl rfl rfl rfl
        · split <;> rename_i hp <;> rw [hp] at p1 p2
          · exact .same h rfl rfl p1 p2
          · exact .seek h p1 p2
      | writeU8 v => exact stores_call (bs := [v]) hn (by simp) (writeInt_call (by rfl) hn (by simp))
      | writeU16 v e =>
        exact stores_call (bs := intBytes e 2 v.toNat) hn (by rw [intBytes_length]; decide)
          (writeInt_call (by rw [← write16_eq]; rfl) hn (by rw [intBytes_length]; decide))
      | writeU32 v e =>
        exact stores_call (bs := intBytes e 4 v.toNat) hn (by rw [intBytes_length]; decide)
          (writeInt_call (by rw [← write32_eq]; rfl) hn (by rw [intBytes_length]; decide))
      | writeU64 v e =>
        exact stores_call (bs := intBytes e 8 v.toNat) hn (by rw [intBytes_length]; decide)
          (writeInt_call (by rw [← write64_eq]; rfl) hn (by rw [intBytes_length]; decide))
      | writeBytes bs =>
        have hl := hb bs (by simp)
        have hn' : (UInt32.ofNat bs.length).toNat = bs.length := by
          rw [UInt32.toNat_ofNat']; omega
        refine stores_call (bs := bs) hn hl ?_
        simp only [RwBuffer.call, RwBuffer.writeBytes, hn']
        cases b.canWrite (UInt32.ofNat bs.length) <;> rfl
    obtain ⟨k1, k2, k3, ⟨wr0, w1, w2⟩, k5⟩ := key
    obtain ⟨⟨wr, i1, i2⟩, i3⟩ := C39_writes ops (b.call m op).2.1 (b.call m op).2.2 k1
      (fun hm => hs (List.mem_cons_of_mem _ hm)) (fun bs hm => hb bs (List.mem_cons_of_mem _ hm))
    have harea : ∀ a, InArea (b.call m op).2.1 a ↔ InArea b a := by
      intro a; unfold InArea; rw [k2, k3]
    refine ⟨⟨wr0 ++ wr, by rw [← List.append_assoc, ← w1]; exact i1, ?_⟩, ?_⟩
    · intro a hm
      rcases List.mem_append.1 hm with hm | hm
      · exact w2 a hm
      · exact (harea a).1 (i2 a hm)
    · intro a hn
      rw [← k5 a hn]
      exact i3 a (by rw [harea]; exact hn)

/-! ## Reading back -/

theorem data_write {t : Tape} {bs : Bytes} (h1 : t.pos ≤ t.filled)
    (h2 : t.filled + bs.length ≤ t.cells.length) :
    (t.write bs).1 = (true, .unit) ∧ (t.write bs).2.data = t.data ++ bs ∧
    (t.write bs).2.pos = t.pos ∧ (t.write bs).2.filled = t.filled + bs.length ∧
    (t.write bs).2.cells.length = t.cells.length := by
  unfold Tape.write
  rw [if_pos h2]
  refine ⟨rfl, ?_, rfl, rfl, ?_⟩
  · simp only [Tape.data]
    rw [List.take_append_of_le_length (by simp; omega), List.take_of_length_le (by simp),
      List.drop_append_of_le_length (by simp; omega)]
  · simp
    omega

theorem data_read {t : Tape} {bs r : Bytes} {f : Bytes → RwVal} {z : RwVal} (h : t.data = bs ++ r) :
    (t.read bs.length f z).1 = (true, f bs) ∧ (t.read bs.length f z).2.data = r := by
  unfold Tape.read
  rw [if_pos (by rw [h]; simp)]
  refine ⟨by rw [h]; simp, ?_⟩
  show (t.cells.take t.filled).drop (t.pos + bs.length) = r
  rw [← List.drop_drop]
  show t.data.drop bs.length = r
  rw [h]; simp

/-- The bytes of an item. -/
def Spec.Item.enc : Item → Bytes
  | .u8 v => intBytes .be 1 v.toNat
  | .u16 v e => intBytes e 2 v.toNat
  | .u32 v e => intBytes e 4 v.toNat
  | .u64 v e => intBytes e 8 v.toNat
  | .bytes bs => bs

theorem enc_length (i : Item) : i.enc.length = i.size := by
  cases i <;> simp [Item.enc, Item.size, intBytes_length]

theorem step_put (i : Item) (t : Tape) : t.step i.put = t.write i.enc := by
  cases i <;> rfl

theorem value_bytes16 (v : UInt16) (e : Endian) : intValue e (intBytes e 2 v.toNat) = v.toNat := by
  rw [← write16_eq]
  cases e
  · exact be_writeU16 v
  · exact be_writeU16 v

theorem value_bytes32 (v : UInt32) (e : Endian) : intValue e (intBytes e 4 v.toNat) = v.toNat := by
  rw [← write32_eq]
  cases e
  · exact be_writeU32 v
  · exact be_writeU32 v

theorem value_bytes64 (v : UInt64) (e : Endian) : intValue e (intBytes e 8 v.toNat) = v.toNat := by
  rw [← write64_eq]
  cases e
  · exact be_writeU64 v
  · exact be_writeU64 v

theorem step_get {i : Item} {t : Tape} {r : Bytes} (h : t.data = i.enc ++ r)
    (hl : i.size < 2 ^ 32) : (t.step i.get).1 = (true, i.val) ∧ (t.step i.get).2.data = r := by
  cases i with
  | u8 v =>
    obtain ⟨h1, h2⟩ := data_read (f := fun b => .u8 (UInt8.ofNat (be b))) (z := .u8 0) h
    refine ⟨h1.trans ?_, h2⟩
    simp [Item.enc, Item.val, intBytes, be]
  | u16 v e =>
    obtain ⟨h1, h2⟩ := data_read (f := fun b => .u16 (UInt16.ofNat (intValue e b))) (z := .u16 0) h
    rw [enc_length] at h1 h2
    refine ⟨h1.trans ?_, h2⟩
    simp only [Item.enc, Item.val, value_bytes16, UInt16.ofNat_toNat]
  | u32 v e =>
    obtain ⟨h1, h2⟩ := data_read (f := fun b => .u32 (UInt32.ofNat (intValue e b))) (z := .u32 0) h
    rw [enc_length] at h1 h2
    refine ⟨h1.trans ?_, h2⟩
    simp only [Item.enc, Item.val, value_bytes32, UInt32.ofNat_toNat]
  | u64 v e =>
    obtain ⟨h1, h2⟩ := data_read (f := fun b => .u64 (UInt64.ofNat (intValue e b))) (z := .u64 0) h
    rw [enc_length] at h1 h2
    refine ⟨h1.trans ?_, h2⟩
    simp only [Item.enc, Item.val, value_bytes64, UInt64.ofNat_toNat]
  | bytes bs =>
    obtain ⟨h1, h2⟩ := data_read (f := .bytes) (z := .bytes []) h
    have hl' : bs.length < 2 ^ 32 := hl
    have hn' : (UInt32.ofNat bs.length).toNat = bs.length := by
      rw [UInt32.toNat_ofNat']; omega
    have e : t.step (Item.bytes bs).get = t.read bs.length .bytes (.bytes []) := by
      show t.read (UInt32.ofNat bs.length).toNat .bytes (.bytes []) = _
      rw [hn']
    rw [e]
    exact ⟨h1, h2⟩

theorem steps_append (t : Tape) (a b : List RwOp) :
    t.steps (a ++ b) = ((t.steps a).1 ++ ((t.steps a).2.steps b).1, ((t.steps a).2.steps b).2) := by
  induction a generalizing t with
  | nil => rfl
  | cons x a ih => simp only [List.cons_append, Tape.steps, ih]

theorem steps_put : ∀ (l : List Item) (t : Tape), t.pos ≤ t.filled →
    t.filled + (l.map Item.size).sum ≤ t.cells.length →
    (t.steps (l.map Item.put)).1 = l.map (fun _ => (true, .unit)) ∧
    (t.steps (l.map Item.put)).2.data = t.data ++ l.flatMap Item.enc
  | [], t, _, _ => by simp [Tape.steps]
  | i :: l, t, h1, h2 => by
    rw [List.map_cons, List.sum_cons] at h2
    obtain ⟨w1, w2, w3, w4, w5⟩ := data_write (t := t) (bs := i.enc) h1 (by rw [enc_length]; omega)
    rw [enc_length] at w4
    obtain ⟨i1, i2⟩ := steps_put l (t.write i.enc).2 (by omega) (by omega)
    simp only [List.map_cons, Tape.steps, step_put]
    rw [i1, w1, i2, w2]
    simp

theorem steps_get : ∀ (l : List Item) (t : Tape) (r : Bytes), t.data = l.flatMap Item.enc ++ r →
    (∀ i ∈ l, i.size < 2 ^ 32) →
    (t.steps (l.map Item.get)).1 = l.map (fun i => (true, i.val)) ∧
    (t.steps (l.map Item.get)).2.data = r
  | [], t, r, h, _ => by simpa [Tape.steps] using h
  | i :: l, t, r, h, hl => by
    rw [List.flatMap_cons, List.append_assoc] at h
    obtain ⟨g1, g2⟩ := step_get h (hl i (by simp))
    obtain ⟨i1, i2⟩ := steps_get l _ r g2 (fun j hj => hl j (by simp [hj]))
    simp only [List.map_cons, Tape.steps]
    rw [g1, i1]
    exact ⟨rfl, i2⟩

theorem size_le_sum {i : Item} : ∀ {l : List Item}, i ∈ l → i.size ≤ (l.map Item.size).sum
  | j :: l, h => by
    rw [List.map_cons, List.sum_cons]
    rcases List.mem_cons.1 h with rfl | h
    · omega
    · have := size_le_sum h
      omega

/-- C39, round trip: items that fit are written without refusal, and reading items of the same kinds
and byte orders gives the same values. -/
theorem C39_roundtrip {b : RwBuffer} {m : Mem} {l : List Item} (h : b.read.offset = b.read.size)
    (hf : b.read.size.toNat + (l.map Item.size).sum ≤ b.size.toNat) :
    (b.calls m (l.map Item.put ++ l.map Item.get)).1 =
      l.map (fun _ => (true, .unit)) ++ l.map (fun i => (true, i.val)) := by
  have hs : Sound b := by rw [sound_nat, h]; omega
  have hz := b.size.toNat_lt
  have hi : ∀ i ∈ l, i.size < 2 ^ 32 := by
    intro i hi
    have := size_le_sum hi
    omega
  have hu : ∀ op ∈ l.map Item.put ++ l.map Item.get, Used op := by
    intro op ho
    rw [List.mem_append, List.mem_map, List.mem_map] at ho
    rcases ho with ⟨i, hm, rfl⟩ | ⟨i, hm, rfl⟩
    · have := hi i hm
      cases i <;> first | trivial | exact this
    · cases i <;> trivial
  rw [(C39_calls_partial hs (used_allowed _ (tape m b) hu)).1, steps_append]
  have hd : (tape m b).data = [] := by
    apply List.eq_nil_of_length_eq_zero
    rw [data_length hs, h, Nat.sub_self]
  obtain ⟨p1, p2⟩ := steps_put l (tape m b) (by simp [tape, h])
    (by rw [tape_length]; exact hf)
  obtain ⟨g1, _⟩ := steps_get l ((tape m b).steps (l.map Item.put)).2 []
    (by rw [p2, hd]; simp) hi
  rw [p1, g1]

example : ((RwBuffer.init 100 20 0).calls demoMem
    ([Item.u32 0x01020304 .le, .bytes [5, 6], .u64 77 .be].map Item.put ++
      [Item.u32 0x01020304 .le, .bytes [5, 6], .u64 77 .be].map Item.get)).1 =
    [(true, .unit), (true, .unit), (true, .unit),
      (true, .u32 0x01020304), (true, .bytes [5, 6]), (true, .u64 77)] :=
  C39_roundtrip (l := [.u32 0x01020304 .le, .bytes [5, 6], .u64 77 .be]) rfl (by decide)

/-! ## The writing position behind the reading position -/

/-- C39 is false as stated for all sequences: after `rw_buffer_seek_write_set` behind the reading
position the number of unread bytes is huge, reads succeed without data, and they leave the array.
The app never calls this function itself. -/
theorem C39_negation : ∃ (b : RwBuffer) (m : Mem) (ops : List RwOp), Sound b ∧
    (∃ v, (b.calls m ops).1.getLast? = some (true, v)) ∧
    ∃ a ∈ (b.calls m ops).2.2.reads, ¬ InArea b a := by
  refine ⟨RwBuffer.init 100 4 0, demoMem,
    [.writeU32 1 .be, .readU32 .be, .seekWriteSet 0, .readU64 .be], by unfold Sound; decide,
    ⟨.u64 0x68696A6B6C6D6E6F, ?_⟩, 111, ?_, ?_⟩
  · decide +kernel
  · decide +kernel
  · unfold InArea; decide

/-! ## The list view used by the rest of the model -/

theorem view_data {m : Mem} {b : Buffer} (h : b.offset ≤ b.size) :
    view m b = (tape m ⟨b, b.size⟩).data := by
  have hs : Sound ⟨b, b.size⟩ := ⟨h, UInt32.le_iff_toNat_le.2 (le_refl _)⟩
  have := data_take (m := m) (b := ⟨b, b.size⟩) (n := b.size.toNat - b.offset.toNat) hs (le_refl _)
  rw [show b.size.toNat - b.offset.toNat = (tape m ⟨b, b.size⟩).data.length from (data_length hs).symm,
    List.take_length] at this
  rw [this, data_length hs]
  simp [view, span]

/-- A read of the structure against a read of the list. -/
def Agrees {α : Type} (zero : α) (b : Buffer) (m : Mem) (r : Bool × α × Buffer × Mem) :
    Option (α × Bytes) → Prop
  | none => r.1 = false ∧ r.2.1 = zero ∧ r.2.2.1 = b
  | some (v, rest) => r.1 = true ∧ r.2.1 = v ∧ view r.2.2.2 r.2.2.1 = rest ∧
      r.2.2.1.offset ≤ r.2.2.1.size ∧ r.2.2.1.ptr = b.ptr

theorem bufU8_take (d : Bytes) : bufU8 d =
    if 1 ≤ d.length then some (UInt8.ofNat (be (d.take 1)), d.drop 1) else none := by
  match d with
  | [] => rfl
  | a :: r => simp [bufU8, be]

theorem bufU16_take (d : Bytes) : bufU16 d =
    if 2 ≤ d.length then some (UInt16.ofNat (be (d.take 2)), d.drop 2) else none := by
  match d with
  | [] => rfl
  | [_] => rfl
  | a :: b :: r =>
    rw [if_pos (by simp)]
    show some (readU16be a b, r) = some (UInt16.ofNat (be [a, b]), r)
    rw [← readU16be_toNat, UInt16.ofNat_toNat]

theorem bufU32_take (d : Bytes) : bufU32 d =
    if 4 ≤ d.length then some (UInt32.ofNat (be (d.take 4)), d.drop 4) else none := by
  match d with
  | [] => rfl
  | [_] => rfl
  | [_, _] => rfl
  | [_, _, _] => rfl
  | a :: b :: c :: e :: r =>
    rw [if_pos (by simp)]
    show some (readU32be a b c e, r) = some (UInt32.ofNat (be [a, b, c, e]), r)
    rw [← readU32be_toNat, UInt32.ofNat_toNat]

theorem bufU64_take (d : Bytes) : bufU64 d =
    if 8 ≤ d.length then some (UInt64.ofNat (be (d.take 8)), d.drop 8) else none := by
  match d with
  | [] => rfl
  | [_] => rfl
  | [_, _] => rfl
  | [_, _, _] => rfl
  | [_, _, _, _] => rfl
  | [_, _, _, _, _] => rfl
  | [_, _, _, _, _, _] => rfl
  | [_, _, _, _, _, _, _] => rfl
  | a :: b :: c :: e :: a' :: b' :: c' :: e' :: r =>
    rw [if_pos (by simp)]
    show some (readU64be a b c e a' b' c' e', r) = some (UInt64.ofNat (be [a, b, c, e, a', b', c', e']), r)
    rw [← readU64be_toNat, UInt64.ofNat_toNat]

theorem pathLoop_words : ∀ (n : Nat) (d : Bytes), pathReadLoop n d =
    if 4 * n ≤ d.length then some (words (d.take (4 * n)), d.drop (4 * n)) else none
  | 0, d => by simp [pathReadLoop, words]
  | n + 1, d => by
    unfold pathReadLoop
    rw [bufU32_take]
    by_cases h : 4 ≤ d.length
    · rw [if_pos h]
      simp only
      rw [pathLoop_words n]
      have hl : (d.drop 4).length = d.length - 4 := by simp
      by_cases h2 : 4 * n ≤ (d.drop 4).length
      · rw [if_pos h2, if_pos (by omega)]
        simp only [Option.some.injEq, Prod.mk.injEq]
        obtain ⟨a, b, c, e, r, rfl⟩ : ∃ a b c e r, d = a :: b :: c :: e :: r := by
          match d, h with
          | a :: b :: c :: e :: r, _ => exact ⟨a, b, c, e, r, rfl⟩
        rw [show 4 * (n + 1) = 4 * n + 1 + 1 + 1 + 1 by omega]
        simp [words]
      · rw [if_neg h2, if_neg (by omega)]
    · rw [if_neg h, if_neg (by omega)]

theorem agrees_of_call {b : Buffer} {m : Mem} {op : RwOp} {n : Nat} {α : Type} {f : α → RwVal}
    {g : Bytes → α} {z : α} {r : Bool × α × Buffer × Mem} (hf : Function.Injective f)
    (h : b.offset ≤ b.size)
    (hc : RwBuffer.call ⟨b, b.size⟩ m op = ((r.1, f r.2.1), ⟨r.2.2.1, b.size⟩, r.2.2.2))
    (ha : ∀ t : Tape, t.Allowed op)
    (hs : ∀ t : Tape, t.step op = t.read n (fun x => f (g x)) (f z))
    (hb : r.1 = false → r.2.2.1 = b) (hsz : r.2.2.1.size = b.size) :
    Agrees z b m r (if n ≤ (view m b).length then some (g ((view m b).take n), (view m b).drop n)
      else none) := by
  have hS : Sound ⟨b, b.size⟩ := ⟨h, UInt32.le_iff_toNat_le.2 (le_refl _)⟩
  have c := call_ok (m := m) hS (ha _)
  have c1 := c.result
  have c2 := c.tape
  have c3 := c.sound
  have c4 := c.ptr
  rw [hc] at c1 c2 c3 c4
  rw [hs] at c1 c2
  unfold Tape.read at c1 c2
  rw [← view_data h] at c1 c2
  by_cases hn : n ≤ (view m b).length
  · rw [if_pos hn] at c1 c2 ⊢
    simp only [Prod.mk.injEq] at c1
    refine ⟨c1.1, hf c1.2, ?_, ?_, c4⟩
    · rw [view_data c3.1]
      · have e : (⟨r.2.2.1, r.2.2.1.size⟩ : RwBuffer) = ⟨r.2.2.1, b.size⟩ := by rw [hsz]
        rw [e]
        have c2' := congrArg Tape.data c2
        refine c2'.trans ?_
        show ((tape m ⟨b, b.size⟩).cells.take _).drop ((tape m ⟨b, b.size⟩).pos + n) = _
        rw [← List.drop_drop]
        show (tape m ⟨b, b.size⟩).data.drop n = _
        rw [← view_data h]
    · exact c3.1
  · rw [if_neg hn] at c1 ⊢
    simp only [Prod.mk.injEq] at c1
    exact ⟨c1.1, hf c1.2, hb c1.1⟩

/-- C39, reading: the functions of the SDK and of buffer_ext.c on pointer, size and offset agree with
the functions on the list of unread bytes in which the rest of the model is written. -/
theorem C39_view {b : Buffer} {m : Mem} (h : b.offset ≤ b.size) :
    Agrees 0 b m (b.readU8 m) (bufU8 (view m b)) ∧
    Agrees 0 b m (b.readU16 .be m) (bufU16 (view m b)) ∧
    Agrees 0 b m (b.readU32 .be m) (bufU32 (view m b)) ∧
    Agrees 0 b m (b.readU64 .be m) (bufU64 (view m b)) ∧
    (∀ n, Agrees [] b m (b.readBytes n m) (bufBytes n.toNat (view m b))) ∧
    (∀ n, Agrees [] b m (b.readPath n m) (bufPath n.toNat (view m b))) := by
  have hcur : ∀ n, (b.seekCur n).2.size = b.size := by
    intro n; unfold Buffer.seekCur; split <;> rfl
  have hcur' : ∀ n, (b.seekCur n).1 = false → (b.seekCur n).2 = b := by
    intro n; unfold Buffer.seekCur; split <;> simp
  refine ⟨?_, ?_, ?_, ?_, fun n => ?_, fun n => ?_⟩
  · rw [bufU8_take]
    refine agrees_of_call (op := .readU8) (f := .u8) (g := fun d => UInt8.ofNat (be d))
      (fun _ _ e => by injection e) h rfl (fun _ => trivial) (fun _ => rfl) ?_ ?_
    · unfold Buffer.readU8; split <;> simp
    · unfold Buffer.readU8; split
      · rfl
      · exact hcur _
  · rw [bufU16_take]
    refine agrees_of_call (op := .readU16 .be) (f := .u16) (g := fun d => UInt16.ofNat (be d))
      (fun _ _ e => by injection e) h rfl (fun _ => trivial) (fun _ => rfl) ?_ ?_
    · unfold Buffer.readU16; split <;> simp
    · unfold Buffer.readU16; split
      · rfl
      · exact hcur _
  · rw [bufU32_take]
    refine agrees_of_call (op := .readU32 .be) (f := .u32) (g := fun d => UInt32.ofNat (be d))
      (fun _ _ e => by injection e) h rfl (fun _ => trivial) (fun _ => rfl) ?_ ?_
    · unfold Buffer.readU32; split <;> simp
    · unfold Buffer.readU32; split
      · rfl
      · exact hcur _
  · rw [bufU64_take]
    refine agrees_of_call (op := .readU64 .be) (f := .u64) (g := fun d => UInt64.ofNat (be d))
      (fun _ _ e => by injection e) h rfl (fun _ => trivial) (fun _ => rfl) ?_ ?_
    · unfold Buffer.readU64; split <;> simp
    · unfold Buffer.readU64; split
      · rfl
      · exact hcur _
  · have e : bufBytes n.toNat (view m b) = if n.toNat ≤ (view m b).length then
        some (id ((view m b).take n.toNat), (view m b).drop n.toNat) else none := by
      unfold bufBytes
      by_cases hn : n.toNat ≤ (view m b).length
      · rw [if_pos hn, if_neg (by omega)]; rfl
      · rw [if_neg hn, if_pos (by omega)]
    rw [e]
    refine agrees_of_call (op := .readBytes n) (f := .bytes) (g := id)
      (fun _ _ e => by injection e) h rfl (fun _ => trivial) (fun _ => rfl) ?_ ?_
    · unfold Buffer.readBytes Buffer.copyBytes
      cases b.canRead n
      · simp
      · exact hcur' n
    · unfold Buffer.readBytes Buffer.copyBytes
      cases b.canRead n
      · rfl
      · exact hcur n
  · by_cases hn : 1 ≤ n.toNat ∧ n.toNat ≤ 10
    · have e : bufPath n.toNat (view m b) = if 4 * n.toNat ≤ (view m b).length then
          some (words ((view m b).take (4 * n.toNat)), (view m b).drop (4 * n.toNat)) else none := by
        unfold bufPath
        rw [if_neg (by omega), pathLoop_words]
      rw [e]
      refine agrees_of_call (op := .readPath n) (f := .path) (g := words)
        (fun _ _ e => by injection e) h rfl (fun _ => trivial)
        (fun _ => by simp only [Tape.step, if_pos hn]) ?_ ?_
      · unfold Buffer.readPath
        split
        · simp
        · split <;> simp
      · unfold Buffer.readPath
        split
        · rfl
        · split
          · rfl
          · exact hcur _
    · have hz : n = 0 ∨ n > 10 := by
        rw [← UInt32.toNat_inj]
        simp only [gt_iff_lt, UInt32.lt_iff_toNat_lt, show (0 : UInt32).toNat = 0 by decide,
          show (10 : UInt32).toNat = 10 by decide]
        omega
      unfold bufPath Buffer.readPath
      rw [if_pos hz, if_pos (by omega)]
      exact ⟨rfl, rfl, rfl⟩

example : view demoMem ⟨100, 9, 2⟩ = [102, 103, 104, 105, 106, 107, 108] ∧
    ((Buffer.mk 100 9 2).readPath 1 demoMem).2.1 = [0x66676869] ∧
    ((Buffer.mk 100 9 2).readPath 2 demoMem).1 = false := by
  decide +kernel

end Ergo
