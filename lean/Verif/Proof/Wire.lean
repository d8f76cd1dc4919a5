import Verif.Spec.Wire
import Verif.Proof.Lengths
import Verif.Proof.Accepted
/-!
# Uniqueness of the reading of a transaction
-/
namespace Ergo
open Spec

theorem delim_split {L : Bytes → Prop} (hL : SelfDelimiting L) {a b r s : Bytes}
    (ha : L a) (hb : L b) (h : a ++ r = b ++ s) : a = b ∧ r = s := by
  have := hL a b r s ha hb h
  subst this
  exact ⟨rfl, List.append_cancel_left h⟩

/-- Sequences of self-delimiting parts. -/
theorem flatMap_split {α : Type} {enc : α → Bytes} {P : α → Prop}
    (henc : ∀ a b r s, P a → P b → enc a ++ r = enc b ++ s → a = b ∧ r = s) :
    ∀ {l l' : List α} {r s : Bytes}, (∀ a ∈ l, P a) → (∀ a ∈ l', P a) → l.length = l'.length →
      l.flatMap enc ++ r = l'.flatMap enc ++ s → l = l' ∧ r = s
  | [], [], _, _, _, _, _, h => ⟨rfl, by simpa using h⟩
  | [], _ :: _, _, _, _, _, hl, _ => by simp at hl
  | _ :: _, [], _, _, _, _, hl, _ => by simp at hl
  | a :: l, b :: l', r, s, h1, h2, hl, h => by
    simp only [List.flatMap_cons, List.append_assoc] at h
    obtain ⟨rfl, h'⟩ := henc _ _ _ _ (h1 a (by simp)) (h2 b (by simp)) h
    obtain ⟨rfl, h''⟩ := flatMap_split henc (fun x hx => h1 x (List.mem_cons_of_mem _ hx))
      (fun x hx => h2 x (List.mem_cons_of_mem _ hx)) (by simpa using hl) h'
    exact ⟨rfl, h''⟩

theorem ids_split {a b r s : Bytes} (ha : a.length = 32) (hb : b.length = 32)
    (h : a ++ r = b ++ s) : a = b ∧ r = s :=
  List.append_inj h (by rw [ha, hb])

theorem flatten_split {l l' : List Bytes} {r s : Bytes} (h1 : ∀ a ∈ l, a.length = 32)
    (h2 : ∀ a ∈ l', a.length = 32) (hl : l.length = l'.length)
    (h : l.flatten ++ r = l'.flatten ++ s) : l = l' ∧ r = s := by
  refine flatMap_split (enc := id) (P := fun a : Bytes => a.length = 32)
    (fun a b r s ha hb h => ids_split ha hb h) h1 h2 hl ?_
  simpa [List.flatMap_id] using h

theorem wireBox_split {T R : Bytes → Prop} (hT : SelfDelimiting T) (hR : SelfDelimiting R)
    {o o' : WireBox} {r s : Bytes} (h1 : T o.script ∧ R o.regs ∧ o.tokens.length < 256)
    (h2 : T o'.script ∧ R o'.regs ∧ o'.tokens.length < 256) (h : o.bytes ++ r = o'.bytes ++ s) :
    o = o' ∧ r = s := by
  unfold WireBox.bytes at h
  simp only [List.append_assoc] at h
  obtain ⟨e1, h⟩ := vlq_append_inj _ _ _ _ h
  obtain ⟨e2, h⟩ := delim_split hT h1.1 h2.1 h
  obtain ⟨e3, h⟩ := vlq_append_inj _ _ _ _ h
  simp only [List.cons_append, List.nil_append, List.cons.injEq] at h
  obtain ⟨e4, h⟩ := h
  have e5 : o.tokens.length = o'.tokens.length := by
    have := congrArg UInt8.toNat e4
    rw [UInt8.toNat_ofNat', UInt8.toNat_ofNat'] at this
    omega
  obtain ⟨e6, h⟩ := flatMap_split (enc := fun t : Nat × Nat => vlq t.1 ++ vlq t.2)
    (P := fun _ => True) (by
      intro a b r s _ _ h
      simp only [List.append_assoc] at h
      obtain ⟨g1, h⟩ := vlq_append_inj _ _ _ _ h
      obtain ⟨g2, h⟩ := vlq_append_inj _ _ _ _ h
      exact ⟨Prod.ext g1 g2, h⟩) (by simp) (by simp) e5 h
  obtain ⟨e7, h⟩ := delim_split hR h1.2.1 h2.2.1 h
  exact ⟨WireBox.ext e1 e2 e3 e6 e7, h⟩

/-- The bytes have one reading. -/
theorem wire_unique {T R X : Bytes → Prop} (hT : SelfDelimiting T) (hR : SelfDelimiting R)
    (hX : SelfDelimiting X) {w w' : WireTx} (h1 : Readable T R X w) (h2 : Readable T R X w')
    (h : w.bytes = w'.bytes) : w = w' := by
  replace h : w.bytes ++ [] = w'.bytes ++ [] := by rw [h]
  unfold WireTx.bytes at h
  simp only [List.append_assoc] at h
  obtain ⟨l1, h⟩ := vlq_append_inj _ _ _ _ h
  obtain ⟨e1, h⟩ := flatMap_split (enc := fun i : Bytes × Bytes => i.1 ++ [0] ++ i.2)
    (P := fun i => i.1.length = 32 ∧ X i.2) (by
      intro a b r s ha hb h
      simp only [List.append_assoc] at h
      obtain ⟨g1, h⟩ := ids_split ha.1 hb.1 h
      simp only [List.cons_append, List.nil_append, List.cons.injEq, true_and] at h
      obtain ⟨g2, h⟩ := delim_split hX ha.2 hb.2 h
      exact ⟨Prod.ext g1 g2, h⟩) (fun i hi => ⟨h1.ids i hi, h1.exts i hi⟩)
    (fun i hi => ⟨h2.ids i hi, h2.exts i hi⟩) l1 (by simpa [List.append_assoc] using h)
  obtain ⟨l2, h⟩ := vlq_append_inj _ _ _ _ h
  obtain ⟨e2, h⟩ := flatten_split h1.dataIds h2.dataIds l2 h
  obtain ⟨l3, h⟩ := vlq_append_inj _ _ _ _ h
  obtain ⟨e3, h⟩ := flatten_split h1.tableIds h2.tableIds l3 h
  obtain ⟨l4, h⟩ := vlq_append_inj _ _ _ _ h
  obtain ⟨e4, h⟩ := flatMap_split (enc := WireBox.bytes)
    (P := fun o => T o.script ∧ R o.regs ∧ o.tokens.length < 256)
    (fun a b r s ha hb h => wireBox_split hT hR ha hb h)
    (fun o ho => ⟨h1.scripts o ho, h1.regs o ho, h1.tokens o ho⟩)
    (fun o ho => ⟨h2.scripts o ho, h2.regs o ho, h2.tokens o ho⟩) l4
    (show w.outputs.flatMap WireBox.bytes ++ [] = w'.outputs.flatMap WireBox.bytes ++ [] by
      simpa using h)
  exact WireTx.ext e1 e2 e3 e4

/-- The serialization of a complete description is the one of the transaction it means. -/
theorem wireTx_bytes {keyOf : List UInt32 → Bytes} {D : TxDesc}
    (h : ∀ o ∈ D.outputs, o.box.complete) : (wireTx keyOf D).bytes = txBytes keyOf D := by
  unfold WireTx.bytes txBytes wireTx
  simp only [List.length_map, List.length_reverse, List.flatMap_map]
  congr 1
  rw [List.flatMap_def, List.flatMap_def]
  congr 1
  apply List.map_congr_left
  intro o ho
  have hc := h o (by simpa using ho)
  simp only [BoxDesc.complete, Bool.and_eq_true, decide_eq_true_eq] at hc
  simp only [WireBox.bytes, wireBox, boxBytes, hc.1.2]

/-! ## Ids in described transactions -/

/-- All ids have 32 bytes. -/
structure IdsOk (D : TxDesc) : Prop where
  inputs : ∀ i ∈ D.inputs, i.boxId.length = 32
  dataInputs : ∀ b ∈ D.dataInputs, b.length = 32
  table : ∀ b ∈ D.table, b.length = 32

theorem onOutput_ids {D : TxDesc} {f : BoxDesc Nat → BoxDesc Nat} (h : IdsOk D) :
    IdsOk (D.onOutput f) := by
  unfold TxDesc.onOutput
  split
  · exact h
  · exact ⟨h.inputs, h.dataInputs, h.table⟩

theorem onInput_ids {D : TxDesc} {f : InDesc → InDesc} (hf : ∀ i, (f i).boxId = i.boxId)
    (h : IdsOk D) : IdsOk (D.onInput f) := by
  unfold TxDesc.onInput
  split
  · exact h
  · rename_i i is hi
    refine ⟨fun j hj => ?_, h.dataInputs, h.table⟩
    simp only [List.mem_cons] at hj
    rcases hj with rfl | hj
    · rw [hf]; exact h.inputs _ (by rw [hi]; simp)
    · exact h.inputs _ (by rw [hi]; simp [hj])

theorem pieces32 {d : Bytes} (h : d.length % 32 = 0) : ∀ a ∈ pieces 32 d, a.length = 32 :=
  pieces_mem_length (by omega) (d.length / 32) d (by omega)

theorem step_ids {D : TxDesc} {sub : UInt8} {data : Bytes} (h : IdsOk D)
    (hl : ∀ p2, lengthOk 0x21 sub p2 data) : IdsOk (D.step (.cmd sub data)) := by
  obtain ⟨_, h2, h3⟩ := hl 0
  by_cases e : sub = 0x10
  · subst e; exact ⟨by rintro _ ⟨⟩, by rintro _ ⟨⟩, by rintro _ ⟨⟩⟩
  by_cases e1 : sub = 0x11
  · subst e1
    have := h2 32 (by simp [entryLen])
    refine ⟨h.inputs, h.dataInputs, fun b hb => ?_⟩
    rw [step_tokens] at hb
    exact (List.mem_append.1 hb).elim (h.table b) (pieces32 this b)
  by_cases e2 : sub = 0x12
  · subst e2
    have h4 : leastLen 0x21 0x12 data = 59 + 40 * field data 42 1 % 256 +
        if field data 33 1 = 0 then 4 else 0 := by simp [leastLen]
    rw [h4] at h3
    show IdsOk (D.frame data)
    unfold TxDesc.frame
    split
    · refine ⟨fun i hi => ?_, h.dataInputs, h.table⟩
      simp only [List.mem_cons] at hi
      rcases hi with rfl | hi
      · simp; omega
      · exact h.inputs i hi
    · exact onInput_ids (fun _ => rfl) h
  by_cases e3 : sub = 0x13
  · subst e3; rw [step_ext]; exact onInput_ids (fun _ => rfl) h
  by_cases e4 : sub = 0x14
  · subst e4
    have := h2 32 (by simp [entryLen])
    refine ⟨h.inputs, fun b hb => ?_, h.table⟩
    have hb : b ∈ D.dataInputs ++ pieces 32 data := hb
    exact (List.mem_append.1 hb).elim (h.dataInputs b) (pieces32 this b)
  by_cases e5 : sub = 0x15
  · subst e5; exact ⟨h.inputs, h.dataInputs, h.table⟩
  by_cases e6 : sub = 0x16
  · subst e6; rw [step_tree]; exact onOutput_ids h
  by_cases e7 : sub = 0x17
  · subst e7; rw [step_fee]; exact onOutput_ids h
  by_cases e8 : sub = 0x18
  · subst e8; rw [step_change]; exact onOutput_ids h
  by_cases e9 : sub = 0x19
  · subst e9; rw [step_outTokens]; exact onOutput_ids h
  by_cases e10 : sub = 0x1A
  · subst e10; rw [step_regs]; exact onOutput_ids h
  · simp only [TxDesc.step, if_neg e, if_neg e1, if_neg e2, if_neg e3, if_neg e4, if_neg e5, if_neg e6,
      if_neg e7, if_neg e8, if_neg e9, if_neg e10]
    exact h

theorem session_ids {env : Env} {nanoS : Bool} {key : Bytes} {tr : List Obs} {d : Device}
    (h : Runs env nanoS key tr d) {S : SignSess} (hS : (know tr).sign = some S) (l : List Entry) :
    ∀ l', S.log = l ++ l' → IdsOk (describe l) := by
  induction l using List.reverseRecOn with
  | nil => intro _ _; exact ⟨by simp [describe, TxDesc.empty], by simp [describe, TxDesc.empty],
      by simp [describe, TxDesc.empty]⟩
  | append_singleton l e ih =>
    intro l' hl
    have hd := ih (e :: l') (by rw [hl]; simp)
    rw [describe_append]
    cases e with
    | approve =>
      simp only [TxDesc.step]
      split
      · exact hd
      · exact ⟨hd.inputs, hd.dataInputs, hd.table⟩
    | cmd sub data =>
      obtain ⟨_, _, _, _, _, _, _, _, _, _, _, _, _, ho, h1, h2, _⟩ :=
        cmd_accepted (l1 := l) (l2 := l') h hS (by rw [hl, List.append_assoc]; rfl)
      exact step_ids hd (fun p2 => signOp_length ho h1 h2)

end Ergo
