import Verif.Spec.Emit
import Verif.Proof.RwBuffer
import Verif.Proof.Gve
import Verif.Proof.Frame
import Verif.Props.Buffer
/-!
# Filling buffers
-/
namespace Ergo
open Spec

theorem Spec.Confined.refl (ptr size : Nat) (m : Mem) : Confined ptr size m m :=
  ⟨⟨[], by simp⟩, ⟨[], by simp⟩, fun _ _ => rfl⟩

theorem Spec.Confined.trans {ptr size : Nat} {m m' m'' : Mem} (h : Confined ptr size m m')
    (h' : Confined ptr size m' m'') : Confined ptr size m m'' := by
  obtain ⟨⟨r1, e1, q1⟩, ⟨w1, f1, p1⟩, o1⟩ := h
  obtain ⟨⟨r2, e2, q2⟩, ⟨w2, f2, p2⟩, o2⟩ := h'
  refine ⟨⟨r1 ++ r2, by rw [e2, e1, List.append_assoc], ?_⟩, ⟨w1 ++ w2, by rw [f2, f1, List.append_assoc],
    ?_⟩, fun a ha => (o2 a ha).trans (o1 a ha)⟩
  · intro a ha
    rcases List.mem_append.1 ha with ha | ha
    · exact q1 a ha
    · exact q2 a ha
  · intro a ha
    rcases List.mem_append.1 ha with ha | ha
    · exact p1 a ha
    · exact p2 a ha

/-- A buffer under construction: at the start of its array, holding `bs`. -/
structure Filling (p : Nat) (n : UInt32) (m0 : Mem) (s : Out) (bs : Bytes) : Prop where
  ptr : s.1.read.ptr = p
  size : s.1.size = n
  off : s.1.read.offset = 0
  len : s.1.read.size.toNat = bs.length
  fits : bs.length ≤ n.toNat
  data : (tape s.2 s.1).cells.take bs.length = bs
  conf : Confined p n.toNat m0 s.2

theorem filling_fresh (ptr : Nat) (size : UInt32) (m : Mem) :
    Filling ptr size m (Out.fresh ptr size m) [] :=
  ⟨rfl, rfl, rfl, rfl, Nat.zero_le _, rfl, Confined.refl _ _ _⟩

theorem Filling.sound {ptr : Nat} {size : UInt32} {m0 : Mem} {s : Out} {bs : Bytes}
    (h : Filling ptr size m0 s bs) : Sound s.1 := by
  rw [sound_nat, h.off, h.len, h.size]
  exact ⟨Nat.zero_le _, h.fits⟩

theorem callOk_confined {b : RwBuffer} {m : Mem} {op : RwOp} (c : CallOk b m op) (h : Sound b) :
    Confined b.read.ptr b.size.toNat m (b.call m op).2.2 := by
  obtain ⟨rd, e, hr⟩ := c.reads
  refine ⟨⟨rd, e, fun a ha => ?_⟩, c.writes, c.outside⟩
  have h1 := hr a ha
  unfold InData at h1
  have h2 := (sound_nat.1 h)
  omega

/-- A write that fits. -/
theorem Filling.write {ptr : Nat} {size : UInt32} {m0 : Mem} {s : Out} {bs ws : Bytes} {op : RwOp}
    (h : Filling ptr size m0 s bs) (hw : (tape s.2 s.1).step op = (tape s.2 s.1).write ws)
    (ha : (tape s.2 s.1).Allowed op) (hf : bs.length + ws.length ≤ size.toNat) :
    ∃ s', s.op op = some s' ∧ Filling ptr size m0 s' (bs ++ ws) := by
  have c := call_ok h.sound ha
  have hL := tape_length s.2 s.1
  have hfl : (tape s.2 s.1).filled = bs.length := h.len
  have hpos : (tape s.2 s.1).pos = 0 := by
    show s.1.read.offset.toNat = 0
    rw [h.off]; rfl
  have e : (tape s.2 s.1).write ws = ((true, .unit),
      ⟨bs ++ ws ++ (tape s.2 s.1).cells.drop (bs.length + ws.length), bs.length + ws.length, 0⟩) := by
    unfold Tape.write
    rw [hfl, if_pos (by rw [hL, h.size]; exact hf), h.data]
    congr 2
  have hr := c.result
  have ht := c.tape
  rw [hw, e] at hr ht
  refine ⟨(s.1.call s.2 op).2, ?_, ?_⟩
  · unfold Out.op
    simp only [hr, if_true]
  · refine ⟨c.ptr.trans h.ptr, c.size.trans h.size, ?_, ?_, ?_, ?_, ?_⟩
    · have := congrArg Tape.pos ht
      rw [← UInt32.toNat_inj]; exact this
    · have := congrArg Tape.filled ht
      rw [List.length_append]; exact this
    · rw [List.length_append]; exact hf
    · have := congrArg Tape.cells ht
      rw [this, List.take_append_of_le_length (by simp)]
      exact List.take_of_length_le (by simp)
    · have := callOk_confined c h.sound
      rw [h.ptr, h.size] at this
      exact h.conf.trans this

theorem Filling.bytes {ptr : Nat} {size : UInt32} {m0 : Mem} {s : Out} {bs : Bytes} (ws : Bytes)
    (h : Filling ptr size m0 s bs) (hf : bs.length + ws.length ≤ size.toNat) :
    ∃ s', s.op (.writeBytes ws) = some s' ∧ Filling ptr size m0 s' (bs ++ ws) :=
  h.write rfl (show ws.length < 2 ^ 32 by have := size.toNat_lt; omega) hf

theorem intBytes_one (v : UInt8) : intBytes .be 1 v.toNat = [v] := by simp [intBytes]

theorem Filling.u8 {ptr : Nat} {size : UInt32} {m0 : Mem} {s : Out} {bs : Bytes} (v : UInt8)
    (h : Filling ptr size m0 s bs) (hf : bs.length + 1 ≤ size.toNat) :
    ∃ s', s.op (.writeU8 v) = some s' ∧ Filling ptr size m0 s' (bs ++ [v]) :=
  h.write (ws := [v]) (by rw [← intBytes_one]; rfl) trivial hf

theorem Filling.u64be {ptr : Nat} {size : UInt32} {m0 : Mem} {s : Out} {bs : Bytes} (v : UInt64)
    (h : Filling ptr size m0 s bs) (hf : bs.length + 8 ≤ size.toNat) :
    ∃ s', s.op (.writeU64 v .be) = some s' ∧ Filling ptr size m0 s' (bs ++ amountBytes v) := by
  have e : intBytes .be 8 v.toNat = amountBytes v := by
    unfold intBytes amountBytes
    rfl
  have := h.write (ws := intBytes .be 8 v.toNat) (op := .writeU64 v .be) rfl trivial
    (by simp [intBytes]; omega)
  rwa [e] at this

theorem Filling.empty {ptr : Nat} {size : UInt32} {m0 : Mem} {s : Out} {bs : Bytes}
    (h : Filling ptr size m0 s bs) : ∃ s', s.op .empty = some s' ∧ Filling ptr size m0 s' [] :=
  ⟨_, rfl, h.ptr, h.size, rfl, rfl, Nat.zero_le _, rfl, h.conf⟩

theorem Filling.span_eq {ptr : Nat} {size : UInt32} {m0 : Mem} {s : Out} {bs : Bytes}
    (h : Filling ptr size m0 s bs) : (span ptr bs.length).map s.2.byte = bs := by
  have hd := h.data
  unfold tape at hd
  simp only [h.ptr, h.size] at hd
  rw [← List.map_take, List.take_range, Nat.min_eq_left h.fits] at hd
  unfold span
  rw [List.map_map]
  exact hd

theorem Filling.span_in {ptr : Nat} {size : UInt32} {m0 : Mem} {s : Out} {bs : Bytes}
    (h : Filling ptr size m0 s bs) : ∀ a ∈ span ptr bs.length, ptr ≤ a ∧ a < ptr + size.toNat := by
  intro a ha
  unfold span at ha
  obtain ⟨k, hk, rfl⟩ := List.mem_map.1 ha
  have := List.mem_range.1 hk
  have := h.fits
  omega

theorem Filling.take {ptr : Nat} {size : UInt32} {m0 : Mem} {s : Out} {bs : Bytes}
    (h : Filling ptr size m0 s bs) : s.take.1 = bs ∧ Filling ptr size m0 s.take.2 bs := by
  have e : span (s.1.read.ptr + s.1.read.offset.toNat) (s.1.read.size - s.1.read.offset).toNat =
      span ptr bs.length := by
    rw [h.ptr, h.off, UInt32.sub_zero, h.len]; rfl
  unfold Out.take
  rw [e]
  refine ⟨h.span_eq, h.ptr, h.size, h.off, h.len, h.fits, h.data, h.conf.trans ?_⟩
  exact ⟨⟨_, rfl, h.span_in⟩, ⟨[], by simp [Mem.touch]⟩, fun _ _ => rfl⟩

theorem Filling.fills {ptr : Nat} {size : UInt32} {m0 : Mem} {r : Option Out} {bs : Bytes}
    (h : ∃ s, r = some s ∧ Filling ptr size m0 s bs) : Fills ptr size.toNat m0 r bs := by
  obtain ⟨⟨b, m⟩, rfl, h⟩ := h
  have hs := h.span_eq
  unfold span at hs
  rw [List.map_map] at hs
  refine ⟨b, m, rfl, ?_, h.fits, hs, h.conf⟩
  have h1 : b.read.offset = 0 := h.off
  have h2 : b.read.size.toNat = bs.length := h.len
  have h3 : b.read.ptr = ptr := h.ptr
  unfold view
  rw [h1, h2, h3]
  exact hs

/-- Bytes of a number in a scratch buffer. -/
def Put.bytes : Put → Bytes
  | .u8 v => [v]
  | .u16 v => vlq v.toNat
  | .u32 v => vlq v.toNat
  | .u64 v => vlq v.toNat

/-- Space for every number of this kind. -/
def Put.room : Put → Nat
  | .u8 _ => 1
  | .u16 _ => 3
  | .u32 _ => 5
  | .u64 _ => 10

theorem Put.bytes_le (p : Put) : p.bytes.length ≤ p.room := by
  cases p with
  | u8 v => exact Nat.le_refl 1
  | u16 v => exact vlq_length_le 3 _ (by have := v.toNat_lt; omega) (by omega)
  | u32 v => exact vlq_length_le 5 _ (by have := v.toNat_lt; omega) (by omega)
  | u64 v => exact vlq_length_le 10 _ (by have := v.toNat_lt; omega) (by omega)

theorem Filling.vlq64 {ptr : Nat} {size : UInt32} {m0 : Mem} {s : Out} (v : UInt64) {n : Nat}
    (hn : v.toNat = n) (h : Filling ptr size m0 s []) (hf : (vlq n).length ≤ size.toNat) :
    ∃ s', s.putU64 v = some s' ∧ Filling ptr size m0 s' (vlq n) := by
  unfold Out.putU64
  rw [gvePutLoop_eq 10 v (by have := v.toNat_lt; omega) (by omega), hn]
  exact h.bytes (vlq n) (by simpa using hf)

theorem Filling.put {ptr : Nat} {size : UInt32} {m0 : Mem} {s : Out} (p : Put)
    (h : Filling ptr size m0 s []) (hf : p.room ≤ size.toNat) :
    ∃ s', s.put p = some s' ∧ Filling ptr size m0 s' p.bytes := by
  have hl := p.bytes_le
  cases p with
  | u8 v => exact h.u8 v (by have : 1 ≤ size.toNat := hf; simpa using this)
  | u16 v => exact h.vlq64 _ (by simp) (by exact hl.trans hf)
  | u32 v => exact h.vlq64 _ (by simp) (by exact hl.trans hf)
  | u64 v => exact h.vlq64 _ rfl (by exact hl.trans hf)

theorem Filling.scratch {ptr : Nat} {size : UInt32} {m0 : Mem} : ∀ (ps : List Put) {s : Out} {bs : Bytes},
    Filling ptr size m0 s bs → (∀ p ∈ ps, p.room ≤ size.toNat) →
    ∃ s' bs', s.scratch ps = some (ps.map Put.bytes, s') ∧ Filling ptr size m0 s' bs'
  | [], s, bs, h, _ => ⟨s, bs, rfl, h⟩
  | p :: ps, s, bs, h, hp => by
    obtain ⟨s1, e1, h1⟩ := h.empty
    obtain ⟨s2, e2, h2⟩ := h1.put p (hp p (by simp))
    obtain ⟨e3, h3⟩ := h2.take
    obtain ⟨s4, bs', e4, h4⟩ := Filling.scratch ps h3 (fun q hq => hp q (by simp [hq]))
    refine ⟨s4, bs', ?_, h4⟩
    unfold Out.scratch
    rw [e1]; simp only
    rw [e2]; simp only
    rw [e4, e3]; rfl

/-- Numbers through a fresh scratch buffer. -/
theorem scratch_hands (ptr : Nat) (size : UInt32) (m : Mem) (ps : List Put)
    (hp : ∀ p ∈ ps, p.room ≤ size.toNat) :
    Hands ptr size.toNat m ((Out.fresh ptr size m).scratch ps) (ps.map Put.bytes) := by
  obtain ⟨⟨b, m'⟩, bs, e, h⟩ := (filling_fresh ptr size m).scratch ps hp
  exact ⟨b, m', e, h.conf⟩

theorem parityByte_eq (pk : Bytes) : parityByte pk :: (pk.drop 1).take 32 = compress pk := by
  unfold parityByte compress
  congr 1
  have : ∀ x : UInt8, (x &&& 1 ≠ 0) = (x &&& 1 = 1) := by
    intro x
    apply propext
    rw [ne_eq, ← UInt8.toNat_inj, ← UInt8.toNat_inj, UInt8.toNat_and]
    show ¬ x.toNat &&& 1 = 0 ↔ x.toNat &&& 1 = 1
    rw [Nat.and_one_is_mod]
    omega
  simp only [this]

theorem Filling.checksum {ptr : Nat} {size : UInt32} {m0 : Mem} {s : Out} {bs : Bytes} {env : Env}
    (hwf : env.WF) (h : Filling ptr size m0 s bs) (hf : bs.length + 4 ≤ size.toNat) :
    ∃ s', s.checksum env = some s' ∧ Filling ptr size m0 s' (bs ++ (env.blake bs).take 4) := by
  obtain ⟨e, h1⟩ := h.take
  unfold Out.checksum
  simp only [e]
  exact h1.bytes _ (by rw [List.length_take, hwf.blake_len]; simpa using hf)

/-- Tokens of a frame. -/
theorem Filling.tokens {ptr : Nat} {size : UInt32} {m0 : Mem} {tokens : List (Bytes × UInt64)}
    (hid : ∀ t ∈ tokens, t.1.length = 32) (hlt : tokens.length < 256) :
    ∀ (n : Nat) (i : UInt8) {s : Out} {bs : Bytes}, i.toNat + n ≤ tokens.length →
    Filling ptr size m0 s bs → bs.length + 40 * n ≤ size.toNat →
    ∃ s', s.frameTokens tokens n i = some s' ∧ Filling ptr size m0 s'
      (bs ++ ((tokens.drop i.toNat).take n).flatMap (fun t => t.1 ++ amountBytes t.2))
  | 0, i, s, bs, _, h, _ => ⟨s, rfl, by simpa using h⟩
  | n + 1, i, s, bs, hi, h, hf => by
    have hlt' : i.toNat < tokens.length := by omega
    have hg : tokens[i.toNat]? = some tokens[i.toNat] := List.getElem?_eq_getElem hlt'
    have hl := hid _ (List.getElem_mem hlt')
    obtain ⟨s1, e1, h1⟩ := h.bytes (tokens[i.toNat]).1 (by omega)
    obtain ⟨s2, e2, h2⟩ := h1.u64be (tokens[i.toNat]).2 (by rw [List.length_append]; omega)
    have hadd : (i + 1).toNat = i.toNat + 1 := by
      rw [UInt8.toNat_add]; show (i.toNat + 1) % 256 = _; omega
    have h8 : (amountBytes (tokens[i.toNat]).2).length = 8 := by simp [amountBytes]
    obtain ⟨s3, e3, h3⟩ := Filling.tokens hid hlt n (i + 1) (by omega) h2
      (by rw [List.length_append, List.length_append]; omega)
    refine ⟨s3, ?_, ?_⟩
    · unfold Out.frameTokens
      rw [hg]; simp only
      rw [e1]; simp only [Option.bind_some]
      rw [e2]; simp only [Option.bind_some]
      exact e3
    · rw [hadd] at h3
      rw [List.drop_eq_getElem_cons hlt', List.take_succ_cons, List.flatMap_cons]
      simpa only [List.append_assoc] using h3

/-- The tag. -/
theorem Filling.tag {ptr : Nat} {size : UInt32} {m0 : Mem} {s : Out} {bs : Bytes} {env : Env}
    (hwf : env.WF) (key : Bytes) (h : Filling ptr size m0 s bs) (hf : bs.length + 32 ≤ size.toNat) :
    s.1.canWrite 32 = true ∧
    ∃ s', (s.hmac env key).op (.seekWriteCur 16) = some s' ∧
      Filling ptr size m0 s' (bs ++ (env.hmac key bs).take 16) := by
  have hs := sound_nat.1 h.sound
  refine ⟨?_, ?_⟩
  · rw [canWrite_iff hs.2, h.len, h.size]
    exact hf
  obtain ⟨e, h1⟩ := h.take
  obtain ⟨s2, e2, h2⟩ := h1.bytes (env.hmac key bs) (by rw [hwf.hmac_len]; exact hf)
  have hcw : s.take.2.1.canWrite (UInt32.ofNat (env.hmac key bs).length) = true := by
    rw [hwf.hmac_len]
    show s.1.canWrite 32 = true
    rw [canWrite_iff hs.2, h.len, h.size]
    exact hf
  have hmem : s2.2 = (s.hmac env key).2 := by
    have e3 : s.take.2.op (.writeBytes (env.hmac key bs)) =
        some ((s.take.2.1.seekWriteCur (UInt32.ofNat (env.hmac key bs).length)).2,
          s.take.2.2.stores (span (s.take.2.1.read.ptr + s.take.2.1.read.size.toNat)
            (UInt32.ofNat (env.hmac key bs).length).toNat) (env.hmac key bs)) := by
      unfold Out.op RwBuffer.call RwBuffer.writeBytes
      simp only [hcw, Bool.not_true, Bool.false_eq_true, if_false, if_true]
    rw [e3] at e2
    have := (congrArg Prod.snd (Option.some.inj e2)).symm
    rw [this]
    unfold Out.hmac
    simp only [e]
    rw [hwf.hmac_len]
    rfl
  have h16 : s.1.read.size + 16 = UInt32.ofNat (bs.length + 16) := by
    rw [← UInt32.toNat_inj, UInt32.toNat_add, h.len, UInt32.toNat_ofNat']; rfl
  have hz := size.toNat_lt
  have hn : (UInt32.ofNat (bs.length + 16)).toNat = bs.length + 16 := by
    rw [UInt32.toNat_ofNat']; omega
  have hseek : (s.hmac env key).1.seekWriteCur 16 =
      (true, { s.1 with read.size := UInt32.ofNat (bs.length + 16) }) := by
    show RwBuffer.seekWriteCur s.1 16 = _
    unfold RwBuffer.seekWriteCur
    rw [h16, if_neg]
    rw [UInt32.lt_iff_toNat_lt, gt_iff_lt, UInt32.lt_iff_toNat_lt, hn, h.len, h.size]
    omega
  refine ⟨({ s.1 with read.size := UInt32.ofNat (bs.length + 16) }, s2.2), ?_, ?_⟩
  · unfold Out.op RwBuffer.call
    simp only [hseek, if_true]
    rw [hmem]
  · have hl : (bs ++ (env.hmac key bs).take 16).length = bs.length + 16 := by
      rw [List.length_append, List.length_take, hwf.hmac_len]; omega
    have hcells : (tape s2.2 { s.1 with read.size := UInt32.ofNat (bs.length + 16) }).cells =
        (tape s2.2 s2.1).cells := by
      unfold tape
      simp only [h.ptr, h.size, h2.ptr, h2.size]
    refine ⟨h.ptr, h.size, h.off, by rw [hl]; exact hn, by rw [hl]; omega, ?_, h2.conf⟩
    simp only
    rw [hcells, hl]
    have := congrArg (List.take (bs.length + 16)) h2.data
    rw [List.take_take, Nat.min_eq_left (by rw [List.length_append, hwf.hmac_len]; omega)] at this
    rw [this, List.take_append, List.take_of_length_le (by omega)]
    congr 2
    omega

end Ergo
