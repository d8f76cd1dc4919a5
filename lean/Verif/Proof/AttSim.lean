import Verif.Proof.BoxSim
import Verif.Proof.Frame
import Verif.Proof.Inv
import Verif.Spec.Attest
/-!
# Attestation sessions and the boxes they describe
-/
set_option linter.unusedSimpArgs false

namespace Ergo
open Spec

/-- The attestation context matches a start command and a description. -/
structure AttRel (env : Env) (start : Bytes) (o : BoxDesc Bytes) (x : AttestCtx) : Prop where
  toks : x.st.s = toks64 o.tokens
  small : ∀ t ∈ o.tokens, t.2 < 2 ^ 64
  nodup : (o.tokens.map (·.1)).Nodup
  idLen : ∀ t ∈ o.tokens, t.1.length = 32
  value : x.st.c.value.toNat = o.value
  raw : ∀ s, o.script = some s → ∃ b, s = .raw b
  tree_le : o.treeSize ≤ 32768
  regs_le : o.regsSize ≤ 32768
  tok_le : o.nTokens ≤ 20
  start_len : 32 ≤ start.length
  phase : if x.state = .finished then
      o.complete ∧ x.boxId = env.blake (fullBoxBytes start o)
    else BoxRel (fun id => id) (fun _ => []) [] x.st.c x.st.h o ∧ o.complete = false ∧
      x.boxId = start.take 32 ∧ x.index.toNat = field start 32 2

theorem field_of {d pre a post : Bytes} {off len : Nat} (h : d = pre ++ a ++ post)
    (h1 : pre.length = off) (h2 : a.length = len) : field d off len = be a := by
  unfold field
  rw [h, List.append_assoc, ← h1, List.drop_left, ← h2, List.take_left]

theorem be_one (v : UInt8) : be [v] = v.toNat := by simp [be]

theorem attestInit_rel {env : Env} {d : Bytes} {b : Bool} {s : UInt8} {x : AttestCtx}
    (h : attestInit d b s = .ok x) : AttRel env d (attestHeader d) x := by
  obtain ⟨i, h1, h2, h3, h4, h5, h6, h7, h8⟩ := attestInit_ok h
  obtain ⟨t, e, l, _⟩ := attestParse_some h1
  obtain ⟨_, hc, hR⟩ := boxInit_rel (α := Bytes) (enc := fun id => id) (keyOf := fun _ => []) h8 rfl
  have l1 := length_writeU16 i.index
  have l2 := length_writeU64 i.value
  have l3 := length_writeU32 i.treeSize
  have l4 := length_writeU32 i.height
  have l5 := length_writeU32 i.regs
  have f0 : field d 32 2 = i.index.toNat := by
    rw [field_of (pre := i.txId) (a := writeU16be i.index) (post := writeU64be i.value ++ writeU32be i.treeSize ++ writeU32be i.height ++ [i.tokens] ++ writeU32be i.regs ++ t)
      (by rw [e]; simp) (by simp [l, l1, l2, l3, l4]) (by simp [l1, l2, l3, l4, l5]), be_writeU16]
  have f1 : field d 34 8 = i.value.toNat := by
    rw [field_of (pre := i.txId ++ writeU16be i.index) (a := writeU64be i.value) (post := writeU32be i.treeSize ++ writeU32be i.height ++ [i.tokens] ++ writeU32be i.regs ++ t)
      (by rw [e]; simp) (by simp [l, l1, l2, l3, l4]) (by simp [l1, l2, l3, l4, l5]), be_writeU64]
  have f2 : field d 42 4 = i.treeSize.toNat := by
    rw [field_of (pre := i.txId ++ writeU16be i.index ++ writeU64be i.value) (a := writeU32be i.treeSize) (post := writeU32be i.height ++ [i.tokens] ++ writeU32be i.regs ++ t)
      (by rw [e]; simp) (by simp [l, l1, l2, l3, l4]) (by simp [l1, l2, l3, l4, l5]), be_writeU32]
  have f3 : field d 46 4 = i.height.toNat := by
    rw [field_of (pre := i.txId ++ writeU16be i.index ++ writeU64be i.value ++ writeU32be i.treeSize) (a := writeU32be i.height) (post := [i.tokens] ++ writeU32be i.regs ++ t)
      (by rw [e]; simp) (by simp [l, l1, l2, l3, l4]) (by simp [l1, l2, l3, l4, l5]), be_writeU32]
  have f4 : field d 50 1 = i.tokens.toNat := by
    rw [field_of (pre := i.txId ++ writeU16be i.index ++ writeU64be i.value ++ writeU32be i.treeSize ++ writeU32be i.height) (a := [i.tokens]) (post := writeU32be i.regs ++ t)
      (by rw [e]; simp) (by simp [l, l1, l2, l3, l4]) (by simp [l1, l2, l3, l4, l5]), be_one]
  have f5 : field d 51 4 = i.regs.toNat := by
    rw [field_of (pre := i.txId ++ writeU16be i.index ++ writeU64be i.value ++ writeU32be i.treeSize ++ writeU32be i.height ++ [i.tokens]) (a := writeU32be i.regs) (post := t)
      (by rw [e]) (by simp [l, l1, l2, l3, l4]) (by simp [l1, l2, l3, l4, l5]), be_writeU32]
  have ht : d.take 32 = i.txId := by
    rw [e, ← l]; simp
  have hh : attestHeader d = ⟨i.value.toNat, i.treeSize.toNat, i.height.toNat, i.tokens.toNat,
      i.regs.toNat, none, [], []⟩ := by
    unfold attestHeader
    rw [f1, f2, f3, f4, f5]
  rw [hh]
  refine ⟨by rw [h6]; rfl, by simp, by simp, by simp, ?_, by simp, hR.tree_le, hR.regs_le, hR.tok_le,
    ?_, ?_⟩
  · rw [hc]
  · rw [e]; simp [l]
  · rw [if_neg (by rw [h5]; decide)]
    refine ⟨hR, rfl, by rw [h3, ht], by rw [h4, f0]⟩

theorem addTokens_more {σ : Type} {cbs : BoxCbs σ} {table : Option TableArg} {x x' : BoxSt σ}
    {input : Bytes} (h : x.addTokens cbs table input = (x', .more)) : x'.c.state = .treeAdded := by
  unfold BoxSt.addTokens at h
  split at h
  · simp [BoxSt.fail] at h
  rename_i hs
  simp only [ne_eq, Decidable.not_not] at hs
  split at h
  · rename_i y hl
    obtain ⟨_, k, _, _, l3, _⟩ := tokensLoop_passes cbs table _ _ _ _ _ hl rfl
    split at h
    · split at h
      · have := finish_passes h rfl
        simp at this
      · simp at h
    · simp only [Prod.mk.injEq, and_true] at h
      subst h
      rw [l3]; exact hs
  · rename_i r hr
    obtain ⟨_, k, _, _, l3, _⟩ := tokensLoop_passes cbs table _ _ _ _ _ h rfl
    rw [l3]; exact hs

theorem foldToks_attest {ty : BoxType} : ∀ (items : List Item) (s s' : List (Bytes × UInt64)),
    foldToks attestCbs ty items s = some s' → (s.map (·.1)).Nodup →
    s' = s ++ items.map (fun i => (i.id, i.amt)) ∧ (s'.map (·.1)).Nodup
  | [], s, s', h, hn => by
    simp only [foldToks, Option.some.injEq] at h
    subst h; simpa using hn
  | i :: is, s, s', h, hn => by
    simp only [foldToks] at h
    split at h
    swap
    · simp at h
    rename_i hp
    simp only [attestCbs] at h hp
    split at hp
    · simp [Res.passes] at hp
    rename_i c1
    split at hp
    · simp [Res.passes] at hp
    rename_i c2
    rw [if_neg c1, if_neg c2] at h
    have hn' : ((s ++ [(i.id, i.amt)]).map (·.1)).Nodup := by
      rw [List.map_append, List.nodup_append]
      refine ⟨hn, by simp, ?_⟩
      simp only [List.any_eq_true, beq_iff_eq, not_exists, not_and] at c2
      intro a ha b hb
      simp only [List.map_cons, List.map_nil, List.mem_singleton] at hb
      subst hb
      simp only [List.mem_map] at ha
      obtain ⟨t, ht, rfl⟩ := ha
      exact c2 t ht
    obtain ⟨e1, e2⟩ := foldToks_attest is _ _ h hn'
    exact ⟨by rw [e1]; simp, e2⟩

/-- What a command answers in terms of the description. -/
def attestReply (o : BoxDesc Bytes) : Bytes :=
  if o.complete then [UInt8.ofNat (framesFor o.nTokens)] else []

theorem finEff_attest {ty : BoxType} {f : Bool} {s s' : List (Bytes × UInt64)}
    (h : finEff attestCbs ty f s s') : s' = s := by
  unfold finEff at h
  split at h
  · obtain ⟨r, h1, h2⟩ := h
    simp only [attestCbs, Prod.mk.injEq] at h1
    exact h1.1.symm
  · exact h

theorem typeEff_attest {ty : BoxType} {v : UInt64} {f : Bool} {s s' : List (Bytes × UInt64)}
    (h : typeEff attestCbs ty v f s s') : s' = s := by
  obtain ⟨s1, r1, h1, _, h3⟩ := h
  simp only [attestCbs, Prod.mk.injEq] at h1
  rw [finEff_attest h3, ← h1.1]

/-- End of a command: the new serializer state matches the new description `o`. -/
theorem part_rel {env : Env} {start : Bytes} {o o0 : BoxDesc Bytes} {x x' : AttestCtx} {out : Bytes}
    {st : BoxSt (List (Bytes × UInt64))} {r : Res BoxErr} (h0 : AttRel env start o0 x)
    (hR : BoxRel (fun id => id) (fun _ => []) [] st.c st.h o) (hv : st.c.value = x.st.c.value)
    (hval : o.value = o0.value) (hts : st.s = toks64 o.tokens)
    (small : ∀ t ∈ o.tokens, t.2 < 2 ^ 64)
    (nodup : (o.tokens.map (·.1)).Nodup) (hil : ∀ t ∈ o.tokens, t.1.length = 32)
    (raw : ∀ s, o.script = some s → ∃ b, s = .raw b)
    (hm : r = .more → st.c.state ≠ .finished)
    (hnf : st.c.state ≠ .hashFinalized)
    (h : x.part env (st, r) = .ok x' out) :
    AttRel env start o x' ∧ out = attestReply o := by
  have hph := h0.phase
  unfold AttestCtx.part at h
  split at h
  · simp at h
  rename_i hst
  simp only [ne_eq, not_not] at hst
  rw [if_neg (by rw [hst]; decide)] at hph
  obtain ⟨_, _, hb, hi⟩ := hph
  have hval' : st.c.value.toNat = o.value := by rw [hv, h0.value, hval]
  have fin := hR.phase.finished_iff
  have key : st.c.state ≠ .finished → AttRel env start o { x with st := st } ∧ [] = attestReply o := by
    intro hnot
    have hc : o.complete = false := by
      cases hcc : o.complete with
      | false => rfl
      | true => rcases fin.2 hcc with e | e
                · exact absurd e hnot
                · exact absurd e hnf
    refine ⟨⟨hts, small, nodup, hil, hval', raw, hR.tree_le, hR.regs_le, hR.tok_le, h0.start_len, ?_⟩, ?_⟩
    · rw [if_neg (by show ¬ x.state = _; rw [hst]; decide)]
      exact ⟨hR, hc, hb, hi⟩
    · simp [attestReply, hc]
  split at h
  · unfold AttestCtx.checkFinished at h
    rename_i e
    simp only [Prod.mk.injEq] at e
    obtain ⟨rfl, rfl⟩ := e
    split at h
    · rename_i hnot
      simp only [AttestRes.ok.injEq] at h
      obtain ⟨rfl, rfl⟩ := h
      exact key hnot
    · rename_i hf
      simp only [ne_eq, not_not] at hf
      split at h
      · simp at h
      · rename_i st' id hid
        simp only [AttestRes.ok.injEq] at h
        obtain ⟨rfl, rfl⟩ := h
        have hf' : st.c.state = .finished := hf
        unfold BoxSt.idHash at hid
        rw [if_neg (by simp [hf'])] at hid
        simp only [Prod.mk.injEq, Except.ok.injEq] at hid
        obtain ⟨rfl, rfl⟩ := hid
        have hc := fin.1 (.inl hf')
        refine ⟨⟨hts, small, nodup, hil, hval', raw, hR.tree_le, hR.regs_le, hR.tok_le, h0.start_len, ?_⟩, ?_⟩
        · rw [if_pos rfl]
          refine ⟨hc, ?_⟩
          show env.blake (st.h ++ x.boxId ++ gvePutU16 x.index) = _
          rw [hR.hash, boxSoFar_complete _ _ _ hc, hb, gvePutU16_eq, hi]
          rfl
        · have hc' := hc
          simp only [BoxDesc.complete, Bool.and_eq_true, decide_eq_true_eq] at hc'
          simp only [attestReply, hc, if_true, hts, toks64, List.length_map, framesCount_eq, hc'.1.2]
  · rename_i e
    simp only [Prod.mk.injEq] at e
    obtain ⟨rfl, rfl⟩ := e
    simp only [AttestRes.ok.injEq] at h
    obtain ⟨rfl, rfl⟩ := h
    exact key (hm rfl)
  · simp at h
  · simp at h

/-! No serializer call leaves a context whose hash is already final. -/

theorem treeAdded_nf {σ : Type} {cbs : BoxCbs σ} {x x' : BoxSt σ} {r : Res BoxErr}
    (h : x.treeAdded cbs = (x', r)) (hp : r.passes) : x'.c.state ≠ .hashFinalized := by
  unfold BoxSt.treeAdded at h
  obtain ⟨_, h2⟩ := check_passes h hp
  simp only at h2
  split at h2
  · split at h2
    · obtain ⟨_, e, _⟩ := finish_passes h2 hp
      rw [e]; simp
    · simp only [Prod.mk.injEq] at h2
      obtain ⟨rfl, rfl⟩ := h2; simp
  · simp only [Prod.mk.injEq] at h2
    obtain ⟨rfl, rfl⟩ := h2; simp

theorem addTree_nf {σ : Type} {cbs : BoxCbs σ} {x x' : BoxSt σ} {r : Res BoxErr} {b : Bytes}
    (h : x.addTree cbs b = (x', r)) (hp : r.passes) : x'.c.state ≠ .hashFinalized := by
  unfold BoxSt.addTree at h
  split at h
  · exact (fail_not_passes h hp).elim
  rename_i hs
  simp only [ne_eq, Decidable.not_not] at hs
  split at h
  · exact (fail_not_passes h hp).elim
  split at h
  · exact (fail_not_passes h hp).elim
  simp only at h
  split at h
  · exact treeAdded_nf h hp
  · simp only [Prod.mk.injEq] at h
    obtain ⟨rfl, rfl⟩ := h
    simp [hs]

theorem addTokens_nf {σ : Type} {cbs : BoxCbs σ} {table : Option TableArg} {x x' : BoxSt σ}
    {r : Res BoxErr} {b : Bytes}
    (h : x.addTokens cbs table b = (x', r)) (hp : r.passes) : x'.c.state ≠ .hashFinalized := by
  unfold BoxSt.addTokens at h
  split at h
  · exact (fail_not_passes h hp).elim
  rename_i hs
  simp only [ne_eq, Decidable.not_not] at hs
  split at h
  · rename_i y hl
    obtain ⟨_, k, _, _, l3, _⟩ := tokensLoop_passes cbs table _ _ _ _ _ hl rfl
    split at h
    · split at h
      · obtain ⟨_, e, _⟩ := finish_passes h hp
        rw [e]; simp
      · simp only [Prod.mk.injEq] at h
        obtain ⟨rfl, rfl⟩ := h; simp
    · simp only [Prod.mk.injEq] at h
      obtain ⟨rfl, rfl⟩ := h
      rw [l3]; simp [hs]
  · obtain ⟨_, k, _, _, l3, _⟩ := tokensLoop_passes cbs table _ _ _ _ _ h hp
    rw [l3]; simp [hs]

theorem addRegisters_nf {σ : Type} {cbs : BoxCbs σ} {x x' : BoxSt σ} {r : Res BoxErr} {b : Bytes}
    (h : x.addRegisters cbs b = (x', r)) (hp : r.passes) : x'.c.state ≠ .hashFinalized := by
  unfold BoxSt.addRegisters at h
  split at h
  · exact (fail_not_passes h hp).elim
  rename_i hs
  simp only [ne_eq, Decidable.not_not] at hs
  split at h
  · exact (fail_not_passes h hp).elim
  simp only at h
  split at h
  · obtain ⟨_, e, _⟩ := finish_passes h hp
    rw [e]; simp
  · simp only [Prod.mk.injEq] at h
    obtain ⟨rfl, rfl⟩ := h
    simp [hs]

theorem part_passes {env : Env} {x x' : AttestCtx} {out : Bytes}
    {q : BoxSt (List (Bytes × UInt64)) × Res BoxErr} (h : x.part env q = .ok x' out) :
    x.state = .approved ∧ q.2.passes := by
  unfold AttestCtx.part at h
  split at h
  · simp at h
  rename_i hst
  simp only [ne_eq, not_not] at hst
  refine ⟨hst, ?_⟩
  obtain ⟨st, r⟩ := q
  cases r <;> simp_all [Res.passes]

theorem tok40_item (b : Bytes) (h : b.length = 40) :
    (itemOf none b).hashed = (tok40 b).1 ∧ (itemOf none b).amt.toNat = (tok40 b).2 := by
  refine ⟨rfl, ?_⟩
  have hb := be_lt (b.drop 32)
  have : (b.drop 32).length = 8 := by simp [h]
  rw [this] at hb
  show (UInt64.ofNat (be (b.drop 32))).toNat = be (b.drop 32)
  simp only [UInt64.toNat_ofNat']
  exact Nat.mod_eq_of_lt (by simpa using hb)

/-- An accepted command of an attestation session adds its data to the described box. -/
theorem attestOp_rel {env : Env} {key start data out : Bytes} {sub : UInt8} {o : BoxDesc Bytes}
    {x x' : AttestCtx} (h0 : AttRel env start o x) (h : attestOp env key x sub data = .ok x' out) :
    AttRel env start (attestStep o (sub, data)) x' ∧
      (sub = 0x02 ∨ sub = 0x03 ∨ sub = 0x04 → out = attestReply (attestStep o (sub, data))) := by
  unfold attestOp at h
  unfold attestStep
  simp only
  split at h
  · rename_i hsub
    rw [if_pos hsub]
    unfold AttestCtx.addTree at h
    obtain ⟨hst, hp⟩ := part_passes h
    have hph := h0.phase
    rw [if_neg (by rw [hst]; decide)] at hph
    obtain ⟨hR, hc, hb, hi⟩ := hph
    generalize hq : x.st.addTree attestCbs data = q at h hp
    obtain ⟨st, r⟩ := q
    obtain ⟨e1, e2, e3, e4⟩ := addTree_rel hR hq hp
    have et : (o.addTree data).tokens = o.tokens := by
      unfold BoxDesc.addTree; split <;> rfl
    have ev : (o.addTree data).value = o.value := by
      unfold BoxDesc.addTree; split <;> rfl
    have hs : st.s = x.st.s := by
      split at e4
      · exact typeEff_attest e4.2.2.2
      · exact e4.2.1
    have hraw : ∀ s, (o.addTree data).script = some s → ∃ b, s = .raw b := by
      intro s hs
      unfold BoxDesc.addTree at hs
      split at hs
      · simp only [Option.some.injEq] at hs
        exact ⟨_, hs.symm⟩
      · simp only [Option.some.injEq] at hs
        exact ⟨_, hs.symm⟩
    obtain ⟨a, b⟩ := part_rel h0 e2 e3 ev (by rw [hs, h0.toks, et]) (by rw [et]; exact h0.small)
      (by rw [et]; exact h0.nodup) (by rw [et]; exact h0.idLen) hraw
      (by intro hr
          split at e4
          · rw [e4.1] at hr; cases hr
          · rw [e4.2.2]; simp) (addTree_nf hq hp) h
    exact ⟨a, fun _ => b⟩
  rename_i s1
  rw [if_neg s1]
  split at h
  · rename_i hsub
    rw [if_pos hsub]
    unfold AttestCtx.addTokens at h
    obtain ⟨hst, hp⟩ := part_passes h
    have hph := h0.phase
    rw [if_neg (by rw [hst]; decide)] at hph
    obtain ⟨hR, hc, hb, hi⟩ := hph
    generalize hq : x.st.addTokens attestCbs none data = q at h hp
    obtain ⟨st, r⟩ := q
    obtain ⟨e1, e2, e3, e4, e5, ⟨k, e6⟩, e7, s1, e8, e9⟩ :=
      addTokens_rel (enc := fun id => id) (table := none) tok40 tok40_item hR hq hp
    have hpm := pieces_mem_length (n := 40) (by decide) k data e6
    rw [show itemWidth none = 40 from rfl] at e2 e8 e9
    obtain ⟨f1, f2⟩ := foldToks_attest _ _ _ e8 (by
      rw [h0.toks, toks64, List.map_map]; exact h0.nodup)
    have hs : st.s = toks64 (o.tokens ++ (pieces 40 data).map tok40) := by
      rw [finEff_attest e9, f1, h0.toks]
      simp only [toks64, List.map_append, List.map_map]
      rfl
    have hsm : ∀ t ∈ o.tokens ++ (pieces 40 data).map tok40, t.2 < 2 ^ 64 := by
      intro t ht
      rcases List.mem_append.1 ht with ht | ht
      · exact h0.small t ht
      · obtain ⟨b, hb, rfl⟩ := List.mem_map.1 ht
        have := (tok40_item b (hpm b hb)).2
        rw [← this]
        exact (itemOf none b).amt.toNat_lt
    have hil : ∀ t ∈ o.tokens ++ (pieces 40 data).map tok40, t.1.length = 32 := by
      intro t ht
      rcases List.mem_append.1 ht with ht | ht
      · exact h0.idLen t ht
      · obtain ⟨b, hb, rfl⟩ := List.mem_map.1 ht
        simp [tok40, hpm b hb]
    have hnd : ((o.tokens ++ (pieces 40 data).map tok40).map (·.1)).Nodup := by
      rw [← finEff_attest e9, hs, toks64, List.map_map] at f2
      exact f2
    obtain ⟨a, b⟩ := part_rel h0 e2 e3 rfl hs hsm hnd hil h0.raw
      (by intro hr
          subst hr
          rw [addTokens_more hq]; simp) (addTokens_nf hq hp) h
    exact ⟨a, fun _ => b⟩
  rename_i s2
  rw [if_neg s2]
  split at h
  · rename_i hsub
    rw [if_pos hsub]
    unfold AttestCtx.addRegisters at h
    obtain ⟨hst, hp⟩ := part_passes h
    have hph := h0.phase
    rw [if_neg (by rw [hst]; decide)] at hph
    obtain ⟨hR, hc, hb, hi⟩ := hph
    generalize hq : x.st.addRegisters attestCbs data = q at h hp
    obtain ⟨st, r⟩ := q
    obtain ⟨e1, e2, e3, e4, e5, e6, e7⟩ := addRegisters_rel hR hq hp
    have hfin := e2.phase.finished_iff
    obtain ⟨a, b⟩ := part_rel h0 e2 e3 rfl (by rw [finEff_attest e7]; exact h0.toks) h0.small
      h0.nodup h0.idLen h0.raw
      (by intro hr hf
          have := e6.2 (hfin.1 (.inl hf))
          rw [hr] at this; cases this) (addRegisters_nf hq hp) h
    exact ⟨a, fun _ => b⟩
  · rename_i s3
    rw [if_neg s3]
    refine ⟨?_, by intro hh; rcases hh with hh | hh | hh <;> contradiction⟩
    unfold AttestCtx.getFrame at h
    split at h
    · simp at h
    split at h
    · simp at h
    split at h
    · simp at h
    split at h
    · simp at h
    simp only [AttestRes.ok.injEq] at h
    rw [← h.1]; exact h0

/-- The frame a session hands out. -/
theorem getFrame_rel {env : Env} {key start data out : Bytes} {o : BoxDesc Bytes}
    {x x' : AttestCtx} (h0 : AttRel env start o x) (h : x.getFrame env key data = .ok x' out) :
    x' = x ∧ o.complete ∧ o.tokens.length = o.nTokens ∧ ∃ i, data = [i] ∧
      i.toNat < framesFor o.tokens.length ∧
      out = frameBytes (env.blake (fullBoxBytes start o)) (UInt64.ofNat o.value) (toks64 o.tokens) i.toNat ++
        (env.hmac key (frameBytes (env.blake (fullBoxBytes start o)) (UInt64.ofNat o.value)
          (toks64 o.tokens) i.toNat)).take 16 := by
  unfold AttestCtx.getFrame at h
  split at h
  · simp at h
  rename_i hst
  simp only [ne_eq, not_not] at hst
  have hph := h0.phase
  rw [if_pos hst] at hph
  split at h
  · simp at h
  rename_i i d hd
  split at h
  · simp at h
  rename_i hnil
  simp only [ne_eq, not_not] at hnil
  split at h
  · simp at h
  rename_i hlt
  simp only [AttestRes.ok.injEq] at h
  obtain ⟨rfl, rfl⟩ := h
  have hc := hph.1
  simp only [BoxDesc.complete, Bool.and_eq_true, decide_eq_true_eq] at hc
  rw [h0.toks, framesCount_eq] at hlt
  have hv : x.st.c.value = UInt64.ofNat o.value := by
    rw [← h0.value]; simp
  refine ⟨rfl, hph.1, hc.1.2, i, ?_, ?_, ?_⟩
  · subst hnil
    cases data with
    | nil => simp [bufU8] at hd
    | cons a t =>
      simp only [bufU8, Option.some.injEq, Prod.mk.injEq] at hd
      rw [hd.1, hd.2]
  · simpa [toks64] using hlt
  · rw [hph.2, hv, h0.toks]
    rw [frameBody_eq]

/-- Induction over an attestation session in an execution. -/
theorem attest_induct {env : Env} {nanoS : Bool} {key : Bytes} (P : AttestSess → AttestCtx → Prop)
    (init : ∀ (a : Request) (x : AttestCtx) (id : UInt8) (asked : Bool) (app : UInt32) (s : UInt8),
      attestInit a.data (a.p2 = 2) 0 = .ok x →
      P ⟨a, id, asked, app, []⟩ { x with session := s, state := .approved })
    (step : ∀ (S : AttestSess) (x x' : AttestCtx) (sub : UInt8) (data out : Bytes), P S x →
      (sub = 2 ∨ sub = 3 ∨ sub = 4 ∨ sub = 5) → attestOp env key x sub data = .ok x' out →
      P { S with log := S.log ++ [(sub, data)] } x')
    {tr : List Obs} {d : Device} (h : Runs env nanoS key tr d) :
    ∀ x S, d.screen = none → d.ctx = .attest x → (know tr).attest = some S → P S x := by
  induction h with
  | boot => intro x S _ h2 _; simp [Device.boot] at h2
  | @step tr d e h hh hu ih =>
    have hI := h.inv
    obtain ⟨d', r, hst, hT⟩ := step_cases env nanoS d e
    rw [show know (d.observe env nanoS e :: tr) = (know tr).next (d.observe env nanoS e) from rfl,
      observe_eq hst]
    rw [hst] at hh hu ⊢
    simp only at hh hu ⊢
    generalize know tr = g at hI ih
    intro x S hsc hx hS
    cases hT with
    | neutral h =>
      obtain ⟨h1, h2⟩ := neutral_ghost h
      simp only [Ghost.next, status, if_neg h1, h2, if_true] at hS
      exact ih x S hsc hx hS
    | version hl =>
      exact ih x S hsc hx (by simpa [Ghost.next, Ghost.onOk, Sw.ok] using hS)
    | name hl =>
      exact ih x S hsc hx (by simpa [Ghost.next, Ghost.onOk, Sw.ok] using hS)
    | abort hb hsw hi => simp [Device.setCommand] at hx
    | deriveFail hb => simp [Device.setCommand] at hx
    | epkSend hb h1 hp hv hg hk => simp [Device.setCommand] at hx
    | epkAsk hb h1 hp hv hg hk hf => simp [Device.display] at hsc
    | daSend hb h1 h2 hd hp hv hg ha hk => simp [Device.setCommand] at hx
    | daAskSend hb h1 h2 hd hp hv hg ha hk hf => simp [Device.display] at hsc
    | daAskShow hb h1 h2 hd hp hv hg ha hf hs hl => simp [Device.display] at hsc
    | attestHang hb => exact absurd rfl hh
    | @attestKnown p2 data rnd y s hb h2 hi hs hk =>
      simp only [Ctx.attest.injEq] at hx
      subst hx
      have e1 : g.next ⟨d.asks, d.here, .apdu 0xE0 0x20 0x01 p2 data rnd, .sw Sw.ok [s]⟩ =
        { g.close with attest := some ⟨⟨0x20, 0x01, p2, data, rnd⟩, s, false, g.app, []⟩ } := rfl
      rw [e1] at hS
      simp only [Option.some.injEq] at hS
      subst hS
      exact init _ _ _ _ _ _ hi
    | attestAsk hb h2 hi hs hk => simp [Device.display] at hsc
    | @attestOk sub p2 data rnd y x' out hb hl hsub hc hy hs ho =>
      have hne : ¬ sub = 0x01 := by rcases hsub with rfl | rfl | rfl | rfl <;> decide
      have e1 : g.next ⟨d.asks, d.here, .apdu 0xE0 0x20 sub p2 data rnd, .sw Sw.ok out⟩ =
          { g with attest := g.attest.map (fun s => { s with log := s.log ++ [(sub, data)] }) } := by
        show (if sub = 0x01 then _ else _) = _
        rw [if_neg hne]
      rw [e1] at hS
      simp only [Ctx.attest.injEq] at hx
      subst hx
      simp only [Option.map_eq_some_iff] at hS
      obtain ⟨S0, hS0, rfl⟩ := hS
      rw [hI.key] at ho
      exact step S0 y _ sub data out (ih y S0 hsc hy hS0) hsub ho
    | attestUb => exact absurd rfl hu
    | signHang => exact absurd rfl hh
    | signInitUb => exact absurd rfl hu
    | signAsk hb h2 hp hi hs hf => simp [Device.display] at hsc
    | signOk hb hl hsub hc hx' hs ha ho hn => simp at hx
    | signShow hb hl hsub hc hx' hs ha ho hn hu' hout => simp [Device.display] at hsc
    | signUb => exact absurd rfl hu
    | signConfirm hb hl hc hx' hs ha hp => simp [Device.display] at hsc
    | idle he hs =>
      rcases he with rfl | rfl | rfl <;> exact ih x S hsc hx hS
    | move he hs hm => simp at hsc
    | moveErr he hs hm hk => simp [Device.menu, Device.setCommand] at hx
    | moveUb => exact absurd rfl hu
    | click hs h1 h2 h3 => exact ih x S hsc hx hS
    | reject hs h1 => simp [Device.menu, Device.setCommand] at hx
    | okEpk hs h1 hcb hx' => simp [Device.menu, Device.setCommand] at hx
    | okDa hs h1 hcb hx' => simp [Device.menu, Device.setCommand] at hx
    | @okAttest s y hs h1 hcb hy =>
      obtain ⟨a, f0, p1, p2, p3⟩ := hI.asking s hs
      rw [hcb] at p3
      obtain ⟨q1, q2, q3, q4, x0, s0, q5, q6, _, q7, q8⟩ := p3
      rw [hy] at q8
      simp only [Ctx.attest.injEq] at q8
      subst q8
      have hask : d.asks = some .confirmAttest := by rw [asks_eq hs p2, q7]; rfl
      have e1 : g.next ⟨d.asks, d.here, .both, .sw Sw.ok [s0]⟩ =
          { g with app := a.token, attest := some ⟨a, s0, true, g.app, []⟩ } := by
        simp only [Ghost.next, Sw.ok, if_true, hask, Ghost.onApprove, p1, Option.map_some,
          Option.getD_some, List.headD_cons]
      rw [e1] at hS
      simp only [Option.some.injEq] at hS
      subst hS
      simp only [Device.menu, Ctx.attest.injEq] at hx
      subst hx
      exact init _ _ _ _ _ _ q5
    | okSignInit hs h1 hcb hx' hu' => simp [Device.menu] at hx
    | okSignOutput hs h1 hcb hx' hu' hout hl => simp [Device.menu] at hx
    | okSignTx hs h1 hcb hx' hsig => simp [Device.menu, Device.setCommand] at hx
    | failSignTx hs h1 hcb hx' hsig => simp [Device.menu, Device.setCommand] at hx
    | actUb => exact absurd rfl hu

/-- An attestation context in an execution matches what was described in the session. -/
theorem Runs.attRel {env : Env} {nanoS : Bool} {key : Bytes} {tr : List Obs} {d : Device}
    (h : Runs env nanoS key tr d) {x : AttestCtx} {S : AttestSess} (hs : d.screen = none)
    (hx : d.ctx = .attest x) (hS : (know tr).attest = some S) : AttRel env S.start.data S.box x := by
  refine attest_induct (fun S x => AttRel env S.start.data S.box x) ?_ ?_ h x S hs hx hS
  · intro a x id asked app s hi
    have hr : AttRel env a.data (attestHeader a.data) x := attestInit_rel hi
    have hst : x.state = .initialized := by
      obtain ⟨_, _, _, _, _, e, _⟩ := attestInit_ok hi; exact e
    have hph := hr.phase
    rw [if_neg (by rw [hst]; decide)] at hph
    exact ⟨hr.toks, hr.small, hr.nodup, hr.idLen, hr.value, hr.raw, hr.tree_le, hr.regs_le,
      hr.tok_le, hr.start_len, by rw [if_neg (by simp)]; exact hph⟩
  · intro S x x' sub data out hp hsub ho
    have := (attestOp_rel hp ho).1
    simpa [AttestSess.box, List.foldl_append] using this

theorem attestOp_tok {env : Env} {key start data out : Bytes} {o : BoxDesc Bytes}
    {x x' : AttestCtx} (h0 : AttRel env start o x) (h : attestOp env key x 3 data = .ok x' out) :
    ∃ k, data.length = k * 40 := by
  unfold attestOp at h
  rw [if_neg (by decide), if_pos rfl] at h
  unfold AttestCtx.addTokens at h
  obtain ⟨hst, hp⟩ := part_passes h
  have hph := h0.phase
  rw [if_neg (by rw [hst]; decide)] at hph
  obtain ⟨hR, hc, hb, hi⟩ := hph
  generalize hq : x.st.addTokens attestCbs none data = q at h hp
  obtain ⟨st, r⟩ := q
  obtain ⟨e1, e2, e3, e4, e5, ⟨k, e6⟩, _⟩ :=
    addTokens_rel (enc := fun id => id) (table := none) tok40 tok40_item hR hq hp
  exact ⟨k, e6⟩

/-- Accepted token data is a whole number of entries. -/
theorem Runs.attTok {env : Env} {nanoS : Bool} {key : Bytes} {tr : List Obs} {d : Device}
    (h : Runs env nanoS key tr d) {x : AttestCtx} {S : AttestSess} (hs : d.screen = none)
    (hx : d.ctx = .attest x) (hS : (know tr).attest = some S) :
    ∀ c ∈ S.log, c.1 = 3 → ∃ k, c.2.length = k * 40 := by
  refine (attest_induct (fun S x => AttRel env S.start.data S.box x ∧
    ∀ c ∈ S.log, c.1 = 3 → ∃ k, c.2.length = k * 40) ?_ ?_ h x S hs hx hS).2
  · intro a x id asked app s hi
    refine ⟨?_, by simp⟩
    have hr : AttRel env a.data (attestHeader a.data) x := attestInit_rel hi
    have hst : x.state = .initialized := by
      obtain ⟨_, _, _, _, _, e, _⟩ := attestInit_ok hi; exact e
    have hph := hr.phase
    rw [if_neg (by rw [hst]; decide)] at hph
    exact ⟨hr.toks, hr.small, hr.nodup, hr.idLen, hr.value, hr.raw, hr.tree_le, hr.regs_le,
      hr.tok_le, hr.start_len, by rw [if_neg (by simp)]; exact hph⟩
  · rintro S x x' sub data out ⟨hp, ht⟩ hsub ho
    refine ⟨by simpa [AttestSess.box, List.foldl_append] using (attestOp_rel hp ho).1, ?_⟩
    intro c hc h3
    simp only [List.mem_append, List.mem_singleton] at hc
    rcases hc with hc | rfl
    · exact ht c hc h3
    · simp only at h3
      subst h3
      exact attestOp_tok hp ho

/-- The described box in terms of the whole parts. -/
theorem attest_parts : ∀ (log : List (UInt8 × Bytes)) (o : BoxDesc Bytes),
    (∀ c ∈ log, c.1 = 3 → ∃ k, c.2.length = k * 40) →
    (∀ s, o.script = some s → ∃ b, s = .raw b) →
    (log.foldl attestStep o).value = o.value ∧ (log.foldl attestStep o).treeSize = o.treeSize ∧
    (log.foldl attestStep o).height = o.height ∧ (log.foldl attestStep o).nTokens = o.nTokens ∧
    (log.foldl attestStep o).regsSize = o.regsSize ∧
    ((log.foldl attestStep o).script.map (scriptBytes (fun _ => []))).getD [] =
      (o.script.map (scriptBytes (fun _ => []))).getD [] ++
        log.flatMap (fun c => if c.1 = 2 then c.2 else []) ∧
    (log.foldl attestStep o).tokens = o.tokens ++
      (pieces 40 (log.flatMap (fun c => if c.1 = 3 then c.2 else []))).map tok40 ∧
    (log.foldl attestStep o).regs = o.regs ++ log.flatMap (fun c => if c.1 = 4 then c.2 else [])
  | [], o, _, _ => by simp [pieces_nil]
  | (sub, data) :: log, o, h, hr => by
    have hl : ∀ c ∈ log, c.1 = 3 → ∃ k, c.2.length = k * 40 :=
      fun c hc => h c (List.mem_cons_of_mem _ hc)
    simp only [List.foldl_cons, List.flatMap_cons]
    unfold attestStep
    simp only
    by_cases h2 : sub = 2
    · subst h2
      simp only [if_true]
      have hraw : ∀ s, (o.addTree data).script = some s → ∃ b, s = .raw b := by
        intro s hs
        unfold BoxDesc.addTree at hs
        split at hs
        · simp only [Option.some.injEq] at hs
          exact ⟨_, hs.symm⟩
        · simp only [Option.some.injEq] at hs
          exact ⟨_, hs.symm⟩
      obtain ⟨p1, p2, p3, p4, p5, p6, p7, p8⟩ := attest_parts log (o.addTree data) hl hraw
      have key : (o.addTree data).value = o.value ∧ (o.addTree data).treeSize = o.treeSize ∧
          (o.addTree data).height = o.height ∧ (o.addTree data).nTokens = o.nTokens ∧
          (o.addTree data).regsSize = o.regsSize ∧ (o.addTree data).tokens = o.tokens ∧
          (o.addTree data).regs = o.regs ∧
          ((o.addTree data).script.map (scriptBytes (fun _ => []))).getD [] =
            (o.script.map (scriptBytes (fun _ => []))).getD [] ++ data := by
        unfold BoxDesc.addTree
        split
        · rename_i b hb
          refine ⟨rfl, rfl, rfl, rfl, rfl, rfl, rfl, ?_⟩
          simp [hb, scriptBytes]
        · rename_i hb
          refine ⟨rfl, rfl, rfl, rfl, rfl, rfl, rfl, ?_⟩
          cases hs : o.script with
          | none => simp [scriptBytes]
          | some s =>
            obtain ⟨b, rfl⟩ := hr s hs
            exact absurd hs (hb b)
      obtain ⟨k1, k2, k3, k4, k5, k6, k7, k8⟩ := key
      refine ⟨p1.trans k1, p2.trans k2, p3.trans k3, p4.trans k4, p5.trans k5, ?_, ?_, ?_⟩
      · erw [p6, k8]; simp
      · erw [p7, k6]; simp
      · erw [p8, k7]; simp
    · rw [if_neg h2]
      by_cases h3 : sub = 3
      · subst h3
        simp only [if_true]
        obtain ⟨p1, p2, p3, p4, p5, p6, p7, p8⟩ :=
          attest_parts log { o with tokens := o.tokens ++ (pieces 40 data).map tok40 } hl hr
        refine ⟨p1, p2, p3, p4, p5, ?_, ?_, ?_⟩
        · erw [p6]; simp
        · obtain ⟨k, hk⟩ := h (3, data) (by simp) rfl
          erw [p7, pieces_app (n := 40) (by decide) k data _ hk]; simp
        · erw [p8]; simp
      · rw [if_neg h3]
        by_cases h4 : sub = 4
        · subst h4
          simp only [if_true]
          obtain ⟨p1, p2, p3, p4, p5, p6, p7, p8⟩ :=
            attest_parts log { o with regs := o.regs ++ data } hl hr
          refine ⟨p1, p2, p3, p4, p5, ?_, ?_, ?_⟩
          · erw [p6]; simp
          · erw [p7]; simp
          · erw [p8]; simp
        · obtain ⟨p1, p2, p3, p4, p5, p6, p7, p8⟩ := attest_parts log o hl hr
          simp only [if_neg h4, if_neg h2, if_neg h3, List.nil_append]
          exact ⟨p1, p2, p3, p4, p5, p6, p7, p8⟩

end Ergo
