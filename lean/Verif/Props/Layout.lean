import Verif.Spec.Layout
import Mathlib.Tactic.SplitIfs
import Mathlib.Tactic.NormNum
import Mathlib.Data.List.GetD
/-!
# C83: the remembered change path in memory
-/
namespace Ergo
open Spec

theorem le_alignUp {n a : Nat} (h : 0 < a) : n ≤ alignUp n a := by
  unfold alignUp
  have h1 := Nat.div_add_mod (n + a - 1) a
  have h2 := Nat.mod_lt (n + a - 1) h
  rw [Nat.mul_comm a] at h1
  omega

theorem alignUp_lt {n a : Nat} (h : 0 < a) : alignUp n a < n + a := by
  unfold alignUp
  have := Nat.div_mul_le_self (n + a - 1) a
  omega

theorem alignUp_zero {a : Nat} (h : 0 < a) : alignUp 0 a = 0 := by
  unfold alignUp
  rw [Nat.div_eq_of_lt (by omega)]; simp

theorem maxAlign_pos : ∀ ls : List Lay, 0 < maxAlign ls
  | [] => by simp [maxAlign]
  | l :: ls => by have := maxAlign_pos ls; unfold maxAlign; omega

theorem endFrom_ge : ∀ (ls : List Lay) (o : Nat), (∀ l ∈ ls, 0 < l.align) → o ≤ endFrom o ls
  | [], o, _ => by simp [endFrom]
  | l :: ls, o, h => by
    have h1 := le_alignUp (n := o) (h l (by simp))
    have h2 := endFrom_ge ls (alignUp o l.align + l.size) (fun x hx => h x (by simp [hx]))
    unfold endFrom; omega

/-- Members lie one after the other. -/
theorem offset_end : ∀ (ls : List Lay) (o i : Nat) (l : Lay), (∀ l ∈ ls, 0 < l.align) → ls[i]? = some l →
    o ≤ (offsetsFrom o ls).getD i 0 ∧ (offsetsFrom o ls).getD i 0 + l.size ≤ endFrom o ls
  | [], _, _, _, _, h => by simp at h
  | x :: xs, o, i, l, ha, h => by
    have h1 := le_alignUp (n := o) (ha x (by simp))
    have hx : ∀ l ∈ xs, 0 < l.align := fun y hy => ha y (by simp [hy])
    cases i with
    | zero =>
      simp only [List.getElem?_cons_zero, Option.some.injEq] at h
      subst h
      have := endFrom_ge xs (alignUp o x.align + x.size) hx
      simp only [offsetsFrom, endFrom, List.getD_cons_zero]
      omega
    | succ i =>
      simp only [List.getElem?_cons_succ] at h
      have := offset_end xs (alignUp o x.align + x.size) i l hx h
      simp only [offsetsFrom, endFrom, List.getD_cons_succ]
      omega

theorem offset_next : ∀ (ls : List Lay) (o i : Nat) (l : Lay), (∀ l ∈ ls, 0 < l.align) → ls[i]? = some l →
    i + 1 < ls.length → (offsetsFrom o ls).getD i 0 + l.size ≤ (offsetsFrom o ls).getD (i + 1) 0
  | [], _, _, _, _, h, _ => by simp at h
  | x :: xs, o, i, l, ha, h, hi => by
    have hx : ∀ l ∈ xs, 0 < l.align := fun y hy => ha y (by simp [hy])
    cases i with
    | zero =>
      simp only [List.getElem?_cons_zero, Option.some.injEq] at h
      subst h
      cases xs with
      | nil => simp at hi
      | cons y ys =>
        have := le_alignUp (n := alignUp o x.align + x.size) (hx y (by simp))
        simp only [offsetsFrom, List.getD_cons_zero, List.getD_cons_succ]
        omega
    | succ i =>
      simp only [List.getElem?_cons_succ] at h
      have := offset_next xs (alignUp o x.align + x.size) i l hx h (by simpa using hi)
      simpa only [offsetsFrom, List.getD_cons_succ] using this

theorem struct_size_ge (ls : List Lay) : endFrom 0 ls ≤ (Lay.struct ls).size :=
  le_alignUp (maxAlign_pos ls)

theorem union_size_ge {ls : List Lay} {l : Lay} (h : l ∈ ls) : l.size ≤ (Lay.union ls).size := by
  refine le_trans ?_ (le_alignUp (maxAlign_pos ls))
  induction ls with
  | nil => simp at h
  | cons x xs ih =>
    unfold maxSize
    rcases List.mem_cons.1 h with rfl | h
    · omega
    · have := ih h; omega

theorem pathL_eq : pathL = ⟨44, 4⟩ := by decide
theorem pathAt_eq : pathAt = 4 := by decide

section
variable {a : Abi} (h : Spec.Abi.WF a)
include h

theorem outFields_pos : ∀ l ∈ a.outFields, 0 < l.align := by
  intro l hl
  simp only [Abi.outFields, List.mem_cons, List.not_mem_nil, or_false] at hl
  rcases hl with rfl | rfl | rfl | rfl | rfl
  · exact h.align64
  · exact h.align64
  · exact Nat.one_pos
  · exact maxAlign_pos _
  · exact h.ptr.1

theorem uiFields_pos : ∀ l ∈ a.uiFields, 0 < l.align := by
  intro l hl
  simp only [Abi.uiFields, List.mem_cons, List.not_mem_nil, or_false] at hl
  rcases hl with rfl | rfl <;> exact maxAlign_pos _

theorem txFields_pos : ∀ l ∈ a.txFields, 0 < l.align := by
  intro l hl
  simp only [Abi.txFields, List.mem_cons, List.not_mem_nil, or_false] at hl
  rcases hl with rfl | rfl | rfl <;> exact maxAlign_pos _

/-- Where the members are. -/
theorem layout :
    a.fullL.size ≤ a.uiAt ∧ a.uiAt + 168 ≤ a.outPathAt ∧ a.outPathAt + 44 ≤ a.outUiAt ∧
    a.uiAt + (Lay.struct a.outFields).size ≤ a.outUiAt ∧
    a.outUiAt + a.outUiL.size ≤ a.lastAt ∧ a.outPathAt = a.uiAt + offsetOf a.outFields 3 := by
  have t1 := offset_next a.txFields 0 0 a.fullL (txFields_pos h) rfl (by simp [Abi.txFields])
  have t0 := offset_end a.txFields 0 0 a.fullL (txFields_pos h) rfl
  have t2 := offset_next a.txFields 0 1 (Lay.struct a.uiFields) (txFields_pos h) rfl
    (by simp [Abi.txFields])
  have u1 := offset_next a.uiFields 0 0 (Lay.struct a.outFields) (uiFields_pos h) rfl
    (by simp [Abi.uiFields])
  have u2 := offset_end a.uiFields 0 1 a.outUiL (uiFields_pos h) rfl
  have u3 := struct_size_ge a.uiFields
  have u0 : offsetOf a.uiFields 0 = 0 := by
    simp only [offsetOf, Abi.uiFields, offsetsFrom, List.getD_cons_zero]
    exact alignUp_zero (maxAlign_pos _)
  have o0 := offset_next a.outFields 0 0 a.u64 (outFields_pos h) rfl (by simp [Abi.outFields])
  have o1 := offset_next a.outFields 0 1 (.arr 20 a.u64) (outFields_pos h) rfl (by simp [Abi.outFields])
  have o2 := offset_next a.outFields 0 2 .u8 (outFields_pos h) rfl (by simp [Abi.outFields])
  have o3 := offset_end a.outFields 0 3 (.union [a.hashL, .arr 33 .u8, .arr 32 .u8, pathL])
    (outFields_pos h) rfl
  have o4 := struct_size_ge a.outFields
  have o5 := union_size_ge (ls := [a.hashL, .arr 33 .u8, .arr 32 .u8, pathL]) (l := pathL) (by simp)
  rw [pathL_eq] at o5
  simp only [Abi.u64, Lay.arr, Lay.u8, Nat.zero_add, Nat.reduceAdd] at o0 o1 o2 t1 t2 u1
  unfold Abi.lastAt Abi.outUiAt Abi.outPathAt Abi.uiAt
  rw [u0]
  unfold offsetOf at *
  rw [pathL_eq] at o3
  simp only at o5
  refine ⟨by omega, by omega, by omega, by omega, by omega, by omega⟩

theorem approve_small : a.approveL.size ≤ 168 := by
  have hp := h.ptr
  have e : ∀ n, alignUp n 1 = n := by intro n; unfold alignUp; simp
  have s1 : maxAlign [Lay.u32, .arr 11 .u8, .u8, a.pointer] ≤ 8 := by
    simp only [maxAlign, Lay.u32, Lay.arr, Lay.u8, Abi.pointer]; omega
  have s0 := maxAlign_pos [Lay.u32, .arr 11 .u8, .u8, a.pointer]
  have s2 : (Lay.struct [Lay.u32, .arr 11 .u8, .u8, a.pointer]).size ≤ 39 := by
    have e4 : alignUp 0 4 = 0 := by decide
    have := alignUp_lt (n := endFrom 0 [Lay.u32, .arr 11 .u8, .u8, a.pointer]) s0
    have e5 : endFrom 0 [Lay.u32, .arr 11 .u8, .u8, a.pointer] ≤ 31 := by
      simp only [endFrom, Lay.u32, Lay.arr, Lay.u8, Abi.pointer, e, e4]
      have := alignUp_lt (n := 16) hp.1
      norm_num
      omega
    unfold Lay.struct
    simp only
    omega
  generalize hb : Lay.struct [Lay.u32, .arr 11 .u8, .u8, a.pointer] = b at s2
  have hb1 : b.align ≤ 8 := by rw [← hb]; exact s1
  have hb0 : 0 < b.align := by rw [← hb]; exact s0
  unfold Abi.approveL
  rw [hb]
  have m1 : maxAlign [b, .arr 60 .u8] ≤ 8 := by simp only [maxAlign, Lay.arr, Lay.u8]; omega
  have m0 := maxAlign_pos [b, .arr 60 .u8]
  have := alignUp_lt (n := endFrom 0 [b, .arr 60 .u8]) m0
  have e5 : endFrom 0 [b, .arr 60 .u8] ≤ 99 := by
    simp only [endFrom, Lay.arr, Lay.u8, e, alignUp_zero hb0]; omega
  unfold Lay.struct
  simp only
  omega

theorem confirm_small : a.confirmL.size ≤ 168 := by
  have hp := h.ptr
  have e : ∀ n, alignUp n 1 = n := by intro n; unfold alignUp; simp
  unfold Abi.confirmL Lay.struct
  have m1 : maxAlign [Lay.arr 20 .u8, .arr 70 .u8, .u8, a.pointer, a.pointer, a.pointer, a.pointer] ≤ 8 := by
    simp only [maxAlign, Lay.arr, Lay.u8, Abi.pointer]; omega
  have m0 := maxAlign_pos [Lay.arr 20 .u8, .arr 70 .u8, .u8, a.pointer, a.pointer, a.pointer, a.pointer]
  have := alignUp_lt (n := endFrom 0 [Lay.arr 20 .u8, .arr 70 .u8, .u8, a.pointer, a.pointer, a.pointer,
    a.pointer]) m0
  have e5 : endFrom 0 [Lay.arr 20 .u8, .arr 70 .u8, .u8, a.pointer, a.pointer, a.pointer, a.pointer] ≤ 155 := by
    simp only [endFrom, Lay.arr, Lay.u8, Abi.pointer, e]
    have a1 := alignUp_lt (n := 0 + 20 * 1 + 70 * 1 + 1) hp.1
    generalize alignUp (0 + 20 * 1 + 70 * 1 + 1) a.ptr = x1 at *
    have a2 := alignUp_lt (n := x1 + a.ptr) hp.1
    generalize alignUp (x1 + a.ptr) a.ptr = x2 at *
    have a3 := alignUp_lt (n := x2 + a.ptr) hp.1
    generalize alignUp (x2 + a.ptr) a.ptr = x3 at *
    have a4 := alignUp_lt (n := x3 + a.ptr) hp.1
    generalize alignUp (x3 + a.ptr) a.ptr = x4 at *
    omega
  simp only
  omega

end

theorem pathMem_len (p : List UInt32) : (pathMem p).length = 4 * p.length := by
  induction p with
  | nil => rfl
  | cons x xs ih =>
    have : (pathMem (x :: xs)) = leBytes32 x ++ pathMem xs := rfl
    rw [this, List.length_append, ih, List.length_cons]
    have : (leBytes32 x).length = 4 := rfl
    omega

/-- A write elsewhere. -/
theorem Spec.HoldsPath.write {m : UMem} {o o' : Nat} {p : List UInt32} {bs : Bytes} (h : HoldsPath m o p)
    (hp : p.length ≤ 10) (hd : o' + bs.length ≤ o ∨ o + 44 ≤ o') : HoldsPath (m.write o' bs) o p := by
  have hk : ∀ x, o ≤ x → x < o + 44 → m.write o' bs x = m x := by
    intro x h1 h2
    unfold UMem.write
    rw [if_neg (by omega)]
  refine ⟨by rw [hk o (by omega) (by omega)]; exact h.1, fun i hi => ?_⟩
  rw [hk _ (by omega) (by omega)]; exact h.2 i hi

/-- What holds of the bytes. -/
structure FitsMem (a : Abi) (m : UMem) (k : Kept) : Prop where
  last : HoldsPath m a.lastAt k.last
  lastLen : k.last.length ≤ 10
  out : ∀ p, k.out = some p → HoldsPath m a.outPathAt p ∧ p.length ≤ 10

theorem fits_step {a : Abi} (ha : Spec.Abi.WF a) {m : UMem} {k : Kept} (hf : FitsMem a m k) (x : Access)
    (hi : x.inside a) (hs : x = .store → k.out ≠ none) : FitsMem a (x.run a m) (k.step a x) := by
  obtain ⟨l1, l2, l3, l4, l5, l6⟩ := layout ha
  have s1 := approve_small ha
  have s2 := confirm_small ha
  cases x with
  | wipe =>
    refine ⟨⟨rfl, fun i hi => ?_⟩, by simp [Kept.step], fun p hp => by simp [Kept.step] at hp⟩
    simp [Kept.step] at hi
  | approve o bs =>
    have hi : o + bs.length ≤ a.approveL.size := hi
    exact ⟨hf.last.write hf.lastLen (.inl (by omega)), hf.lastLen, fun p hp => by simp [Kept.step] at hp⟩
  | confirm o bs =>
    have hi : o + bs.length ≤ a.confirmL.size := hi
    exact ⟨hf.last.write hf.lastLen (.inl (by omega)), hf.lastLen, fun p hp => by simp [Kept.step] at hp⟩
  | serializer o bs =>
    have hi : o + bs.length ≤ a.fullL.size := hi
    exact ⟨hf.last.write hf.lastLen (.inl (by omega)), hf.lastLen, fun p hp =>
      ⟨(hf.out p hp).1.write (hf.out p hp).2 (.inl (by omega)), (hf.out p hp).2⟩⟩
  | output o bs =>
    have hi : o + bs.length ≤ (Lay.struct a.outFields).size := hi
    have hl : HoldsPath (m.write (a.uiAt + o) bs) a.lastAt k.last :=
      hf.last.write hf.lastLen (.inl (by omega))
    unfold Kept.step
    dsimp only
    split_ifs with hc
    · exact ⟨hl, hf.lastLen, fun p hp =>
        ⟨(hf.out p hp).1.write (hf.out p hp).2 (.inl (by omega)), (hf.out p hp).2⟩⟩
    · exact ⟨hl, hf.lastLen, fun p hp => by simp at hp⟩
  | outputUi o bs =>
    have hi : o + bs.length ≤ a.outUiL.size := hi
    exact ⟨hf.last.write hf.lastLen (.inl (by omega)), hf.lastLen, fun p hp =>
      ⟨(hf.out p hp).1.write (hf.out p hp).2 (.inr (by omega)), (hf.out p hp).2⟩⟩
  | setPath p =>
    have hi : p.length ≤ 10 := hi
    have hlen := pathMem_len p
    refine ⟨?_, hf.lastLen, fun q hq => ?_⟩
    · refine HoldsPath.write (hf.last.write hf.lastLen (.inl ?_)) hf.lastLen (.inl ?_)
      · simp only [List.length_singleton]; omega
      · rw [hlen, pathAt_eq]; omega
    · simp only [Kept.step, Option.some.injEq] at hq
      subst hq
      refine ⟨⟨?_, fun i h' => ?_⟩, hi⟩
      · simp [Access.run, UMem.write, pathAt_eq]
      · simp only [Access.run, UMem.write, pathAt_eq]
        rw [if_pos (by omega)]
        congr 1
        omega
  | clear =>
    refine ⟨⟨?_, fun i h' => ?_⟩, by simp [Kept.step], fun p hp => ?_⟩
    · simp [Access.run, UMem.write, pathL_eq, Kept.step]
    · simp [Kept.step] at h'
    · have := hf.out p hp
      exact ⟨this.1.write this.2 (.inr (by omega)), this.2⟩
  | store =>
    cases hk : k.out with
    | none => exact absurd hk (hs rfl)
    | some p =>
      obtain ⟨g1, g2⟩ := hf.out p hk
      have hr : ∀ j < 44, Access.store.run a m (a.lastAt + j) = m (a.outPathAt + j) := by
        intro j hj
        simp only [Access.run, UMem.write, pathL_eq, List.length_map, List.length_range]
        rw [if_pos (by omega), Nat.add_sub_cancel_left, List.getD_eq_getElem _ _ (by simpa using hj)]
        simp
      refine ⟨⟨?_, fun i h' => ?_⟩, by simpa [Kept.step, hk] using g2, fun q hq => ?_⟩
      · have := hr 0 (by omega)
        simp only [Nat.add_zero] at this
        rw [this, g1.1]; simp [Kept.step, hk]
      · simp only [Kept.step, hk, Option.getD_some] at h' ⊢
        have := hr (4 + i) (by omega)
        rw [← Nat.add_assoc, ← Nat.add_assoc] at this
        rw [this]; exact g1.2 i h'
      · have hq' : k.out = some q := hq
        exact ⟨(hf.out q hq').1.write (hf.out q hq').2 (.inr (by omega)), (hf.out q hq').2⟩

theorem fits_run {a : Abi} (ha : Spec.Abi.WF a) : ∀ (l : List Access) {m : UMem} {k : Kept}, FitsMem a m k →
    (∀ x ∈ l, x.inside a) → Proper a k l →
    FitsMem a (l.foldl (fun m x => x.run a m) m) (l.foldl (Kept.step a) k)
  | [], _, _, hf, _, _ => hf
  | x :: xs, _, _, hf, hi, hp =>
    fits_run ha xs (fits_step ha hf x (hi x (by simp)) hp.1) (fun y hy => hi y (by simp [hy])) hp.2

/-- C83: whatever was in the bytes of the union before the command started, after any accesses to its
members the bytes of `last_approved_change` are those of the path approved last, or of none. -/
theorem C83_kept {a : Abi} (ha : Spec.Abi.WF a) (m : UMem) (l : List Access) (hi : ∀ x ∈ l, x.inside a)
    (hp : Proper a ⟨none, []⟩ l) :
    HoldsPath ((Access.wipe :: l).foldl (fun m x => x.run a m) m) a.lastAt (kept a l).last := by
  have : FitsMem a (fun _ => 0) ⟨none, []⟩ :=
    ⟨⟨rfl, fun i hi => by simp at hi⟩, by simp, fun p hp => by simp at hp⟩
  exact (fits_run ha l this hi hp).last

/-- C83: so the comparison in C of the path of a change output with the bytes of `last_approved_change` is
the comparison with the path approved last. -/
theorem C83_compare {a : Abi} (ha : Spec.Abi.WF a) (m : UMem) (l : List Access) (hi : ∀ x ∈ l, x.inside a)
    (hp : Proper a ⟨none, []⟩ l) {p : List UInt32} (ho : (kept a l).out = some p) :
    a.sameAsLast ((Access.wipe :: l).foldl (fun m x => x.run a m) m) = pathIsEqual p (kept a l).last := by
  have h0 : FitsMem a (fun _ => 0) ⟨none, []⟩ :=
    ⟨⟨rfl, fun i hi => by simp at hi⟩, by simp, fun p hp => by simp at hp⟩
  have hf := fits_run ha l h0 hi hp
  have hr : (Access.wipe :: l).foldl (fun m x => x.run a m) m = l.foldl (fun m x => x.run a m) (fun _ => 0) :=
    rfl
  rw [hr]
  change FitsMem a _ (kept a l) at hf
  generalize l.foldl (fun m x => x.run a m) (fun _ => 0) = M at *
  obtain ⟨g1, g2⟩ := hf.out p ho
  have k1 := hf.last
  have k2 := hf.lastLen
  generalize (kept a l).last = q at *
  have bytes : ∀ {o : Nat} {r : List UInt32} (n : Nat), HoldsPath M o r → n ≤ 4 * r.length →
      (List.range n).map (fun i => M (o + pathAt + i)) = (pathMem r).take n := by
    intro o r n hr hn
    have hlen := pathMem_len r
    apply List.ext_getElem
    · rw [List.length_map, List.length_range, List.length_take]; omega
    · intro i h1 h2
      rw [List.getElem_map, List.getElem_range, List.getElem_take, pathAt_eq,
        hr.2 i (by simp at h1; omega), List.getD_eq_getElem]
  unfold Abi.sameAsLast pathIsEqual
  rw [g1.1, k1.1]
  have hpn : (UInt8.ofNat p.length).toNat = p.length := by
    rw [UInt8.toNat_ofNat']; omega
  have heq : UInt8.ofNat p.length = UInt8.ofNat q.length ↔ p.length = q.length := by
    constructor
    · intro e
      have := congrArg UInt8.toNat e
      rw [UInt8.toNat_ofNat', UInt8.toNat_ofNat'] at this
      omega
    · intro e; rw [e]
  rw [hpn]
  by_cases hl : p.length = q.length
  · rw [bytes p.length g1 (by omega), bytes p.length k1 (by omega)]
    simp [heq]
  · have : ¬ UInt8.ofNat p.length = UInt8.ofNat q.length := fun e => hl (heq.1 e)
    simp [hl, this]

/-- An ARM compiler: sizes and offsets. -/
def demoAbi : Abi := ⟨4, 1, 8, 232, 8⟩

example : Spec.Abi.WF demoAbi ∧ demoAbi.approveL.size = 80 ∧ demoAbi.confirmL.size = 108 ∧
    demoAbi.uiAt = 80 ∧ demoAbi.outPathAt = 256 ∧ demoAbi.lastAt = 600 :=
  ⟨⟨by decide, by decide, by decide, by decide⟩, by decide +kernel⟩

/-- The approval question fills its member; a change path is not taken for approved before it was, and is
afterwards. -/
example :
    let p : List UInt32 := [0x8000002C, 0x800001AD, 0x80000000, 0, 7]
    let l : List Access := [.approve 0 (List.replicate 80 0xFF), .serializer 0 (List.replicate 80 1),
      .output 0 (List.replicate 416 0), .setPath p]
    let run (l : List Access) := (Access.wipe :: l).foldl (fun m x => x.run demoAbi m) (fun _ => 0xAA)
    demoAbi.sameAsLast (run l) = false ∧
    demoAbi.sameAsLast (run (l ++ [.clear, .store, .output 0 (List.replicate 416 0), .setPath p])) = true ∧
    (kept demoAbi (l ++ [.clear, .store])).last = p := by
  decide +kernel

end Ergo
