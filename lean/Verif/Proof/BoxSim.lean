import Verif.Proof.BoxTokens
/-!
# The box serializer follows the description of the box
-/
namespace Ergo
open Spec

variable {σ α : Type}

theorem boxSoFar_complete (enc : α → Bytes) (keyOf : List UInt32 → Bytes) (o : BoxDesc α)
    (h : o.complete) : boxSoFar enc keyOf o = boxBytes enc keyOf o := by
  simp only [BoxDesc.complete, Bool.and_eq_true, decide_eq_true_eq] at h
  obtain ⟨⟨h1, h2⟩, _⟩ := h
  unfold boxSoFar boxBytes
  rw [if_pos h1, if_pos h2]
  simp

/-- Box type of a script. -/
def typeOf : Script → BoxType
  | .raw _ => .tree
  | .fee => .fee
  | .change _ => .change

/-- What the serializer state says about the description. -/
def BoxPhase (b : BoxCtx) (o : BoxDesc α) : Prop :=
  match b.state with
  | .initialized =>
    ((o.script = none ∧ b.treeSize.toNat = o.treeSize) ∨
      ∃ bs, o.script = some (.raw bs) ∧ bs.length + b.treeSize.toNat = o.treeSize ∧
        0 < b.treeSize.toNat) ∧
    o.tokens = [] ∧ o.regs = [] ∧ b.tokensCount.toNat = o.nTokens ∧ b.regsSize.toNat = o.regsSize
  | .treeAdded =>
    o.scriptDone ∧ o.script.map typeOf = some b.type ∧
    o.tokens.length + b.tokensCount.toNat = o.nTokens ∧ 0 < b.tokensCount.toNat ∧
    o.regs = [] ∧ b.regsSize.toNat = o.regsSize
  | .tokensAdded =>
    o.scriptDone ∧ o.script.map typeOf = some b.type ∧ o.tokens.length = o.nTokens ∧
    o.regs.length + b.regsSize.toNat = o.regsSize ∧ 0 < b.regsSize.toNat
  | .finished => o.complete ∧ o.script.map typeOf = some b.type
  | .hashFinalized => o.complete ∧ o.script.map typeOf = some b.type
  | .error => False

/-- The serializer state (context and hashed bytes behind `base`) matches a description. -/
structure BoxRel (enc : α → Bytes) (keyOf : List UInt32 → Bytes) (base : Bytes) (b : BoxCtx)
    (h : Bytes) (o : BoxDesc α) : Prop where
  hash : h = base ++ boxSoFar enc keyOf o
  value : b.value.toNat = o.value
  height : b.height.toNat = o.height
  tree_le : o.treeSize ≤ 32768
  regs_le : o.regsSize ≤ 32768
  tok_le : o.nTokens ≤ 20
  phase : BoxPhase b o

theorem BoxPhase.finished_iff {b : BoxCtx} {o : BoxDesc α} (h : BoxPhase b o) :
    (b.state = .finished ∨ b.state = .hashFinalized) ↔ o.complete := by
  unfold BoxPhase at h
  cases hs : b.state <;> simp only [hs] at h
  · constructor
    · simp
    · intro hc
      exfalso
      simp only [BoxDesc.complete, BoxDesc.scriptDone, Bool.and_eq_true, decide_eq_true_eq] at hc
      rcases h.1 with ⟨h1, _⟩ | ⟨bs, h1, h2, h3⟩
      · rw [h1] at hc; simp at hc
      · rw [h1] at hc; simp at hc; omega
  · constructor
    · simp
    · intro hc
      exfalso
      simp only [BoxDesc.complete, Bool.and_eq_true, decide_eq_true_eq] at hc
      omega
  · constructor
    · simp
    · intro hc
      exfalso
      simp only [BoxDesc.complete, Bool.and_eq_true, decide_eq_true_eq] at hc
      omega
  · simp [h.1]
  · simp [h.1]

/-- Effect of `on_finished` (run only if the box became complete). -/
def finEff (cbs : BoxCbs σ) (ty : BoxType) (fin : Bool) (s s' : σ) : Prop :=
  if fin then ∃ r, cbs.onFinished ty s = (s', r) ∧ r.passes else s' = s

/-- Effect of `on_type` followed by `on_finished`. -/
def typeEff (cbs : BoxCbs σ) (ty : BoxType) (v : UInt64) (fin : Bool) (s s' : σ) : Prop :=
  ∃ s1 r1, cbs.onType ty v s = (s1, r1) ∧ r1.passes ∧ finEff cbs ty fin s1 s'

theorem check_passes {x : BoxSt σ} {r : Res BoxErr} {k : BoxSt σ × Res BoxErr}
    {x' : BoxSt σ} {r' : Res BoxErr} (h : x.check r k = (x', r')) (hp : r'.passes) :
    r.passes ∧ k = (x', r') := by
  cases r with
  | ok => exact ⟨rfl, h⟩
  | more => exact ⟨rfl, h⟩
  | err e =>
    simp only [BoxSt.check, BoxSt.fail, Prod.mk.injEq] at h
    obtain ⟨rfl, rfl⟩ := h
    simp [Res.passes] at hp
  | ub =>
    simp only [BoxSt.check, Prod.mk.injEq] at h
    obtain ⟨rfl, rfl⟩ := h
    simp [Res.passes] at hp

theorem finish_passes {cbs : BoxCbs σ} {x x' : BoxSt σ} {r : Res BoxErr}
    (h : BoxSt.finish cbs x = (x', r)) (hp : r.passes) :
    r = .ok ∧ x'.c = { x.c with state := .finished } ∧ x'.h = x.h ∧
      ∃ q, cbs.onFinished x.c.type x.s = (x'.s, q) ∧ q.passes := by
  unfold BoxSt.finish at h
  obtain ⟨h1, h2⟩ := check_passes h hp
  simp only [Prod.mk.injEq] at h2
  obtain ⟨rfl, rfl⟩ := h2
  exact ⟨rfl, rfl, rfl, _, rfl, h1⟩

theorem treeAdded_rel {enc : α → Bytes} {keyOf : List UInt32 → Bytes} {base : Bytes}
    {cbs : BoxCbs σ} {x x' : BoxSt σ} {r : Res BoxErr} {o : BoxDesc α}
    (h : x.treeAdded cbs = (x', r)) (hp : r.passes)
    (hd : o.scriptDone) (hty : o.script.map typeOf = some x.c.type)
    (ht : o.tokens = []) (hr : o.regs = []) (hv : x.c.value.toNat = o.value)
    (hh : x.c.height.toNat = o.height) (hn : x.c.tokensCount.toNat = o.nTokens)
    (hg : x.c.regsSize.toNat = o.regsSize) (htl : o.treeSize ≤ 32768) (hgl : o.regsSize ≤ 32768)
    (hnl : o.nTokens ≤ 20)
    (hash : x.h = base ++ (vlq o.value ++ (o.script.map (scriptBytes keyOf)).getD [])) :
    r = .ok ∧ BoxRel enc keyOf base x'.c x'.h o ∧ x'.c.type = x.c.type ∧
      x'.c.value = x.c.value ∧ x'.c.state ≠ .initialized ∧
      typeEff cbs x.c.type x.c.value o.complete x.s x'.s := by
  unfold BoxSt.treeAdded at h
  obtain ⟨h1, h2⟩ := check_passes h hp
  have hcount : UInt8.ofNat o.nTokens = x.c.tokensCount := by
    rw [← hn]; simp
  have hbytes : heightCountBytes x.c = vlq o.height ++ [UInt8.ofNat o.nTokens] := by
    unfold heightCountBytes
    rw [gvePutU32_eq, hh, hcount]; rfl
  simp only at h2
  split at h2
  · rename_i h0
    have hn0 : o.nTokens = 0 := by rw [← hn, h0]; rfl
    split at h2
    · rename_i hg0
      have hg0' : o.regsSize = 0 := by rw [← hg, hg0]; rfl
      have hc : o.complete := by
        simp [BoxDesc.complete, hd, ht, hr, hn0, hg0']
      obtain ⟨e1, e2, e3, q, e4, e5⟩ := finish_passes h2 hp
      refine ⟨e1, ⟨?_, ?_, ?_, htl, hgl, hnl, ?_⟩, ?_, ?_, ?_, ?_⟩
      · rw [e3]
        simp only [boxSoFar, hd, if_true, ht, hn0, hg0', hash, hbytes, gvePutU8]
        simp
      · rw [e2]; exact hv
      · rw [e2]; exact hh
      · rw [e2]; exact ⟨hc, hty⟩
      · rw [e2]
      · rw [e2]
      · rw [e2]; simp
      · refine ⟨_, _, rfl, h1, ?_⟩
        rw [finEff, if_pos hc]
        exact ⟨q, e4, e5⟩
    · rename_i hg0
      have hg0' : 0 < o.regsSize := by rw [← hg]; exact u32_ne_zero.1 hg0
      have hc : ¬ o.complete := by
        simp only [BoxDesc.complete, hr, Bool.and_eq_true, decide_eq_true_eq, List.length_nil]
        omega
      simp only [Prod.mk.injEq] at h2
      obtain ⟨rfl, rfl⟩ := h2
      refine ⟨rfl, ⟨?_, hv, hh, htl, hgl, hnl, ?_⟩, rfl, rfl, by simp, ?_⟩
      · have : ¬ o.regsSize = 0 := by omega
        simp only [boxSoFar, hd, if_true, ht, hn0, hash, hbytes, this, hr]
        simp
      · refine ⟨hd, hty, by simp [ht, hn0], ?_, ?_⟩
        · simp only [hr, List.length_nil, hg]; omega
        · rw [hg]; exact hg0'
      · refine ⟨_, _, rfl, h1, ?_⟩
        rw [finEff, if_neg hc]
  · rename_i h0
    have hn0 : 0 < o.nTokens := by rw [← hn]; exact u8_ne_zero.1 h0
    have hc : ¬ o.complete := by
      simp only [BoxDesc.complete, ht, Bool.and_eq_true, decide_eq_true_eq, List.length_nil]
      omega
    simp only [Prod.mk.injEq] at h2
    obtain ⟨rfl, rfl⟩ := h2
    refine ⟨rfl, ⟨?_, hv, hh, htl, hgl, hnl, ?_⟩, rfl, rfl, by simp, ?_⟩
    · have : ¬ (0 = o.nTokens) := by omega
      simp only [boxSoFar, hd, if_true, ht, hash, hbytes, List.length_nil, this, if_false]
      simp
    · refine ⟨hd, hty, ?_, ?_, hr, hg⟩
      · simp only [ht, List.length_nil, hn]; omega
      · rw [hn]; exact hn0
    · refine ⟨_, _, rfl, h1, ?_⟩
      rw [finEff, if_neg hc]

theorem boxInit_rel {enc : α → Bytes} {keyOf : List UInt32 → Bytes} {value : UInt64}
    {treeSize height regs : UInt32} {tokens : UInt8} {h h' : Bytes} {c : BoxCtx} {r : Res BoxErr}
    (hi : boxInit value treeSize height tokens regs h = (c, h', r)) (hp : r.passes) :
    r = .ok ∧ c = ⟨.initialized, value, treeSize, height, regs, tokens, .tree⟩ ∧
    BoxRel (α := α) enc keyOf h c h'
      ⟨value.toNat, treeSize.toNat, height.toNat, tokens.toNat, regs.toNat, none, [], []⟩ := by
  unfold boxInit at hi
  simp only at hi
  split at hi
  · simp only [Prod.mk.injEq] at hi
    obtain ⟨_, _, rfl⟩ := hi
    simp [Res.passes] at hp
  split at hi
  · simp only [Prod.mk.injEq] at hi
    obtain ⟨_, _, rfl⟩ := hi
    simp [Res.passes] at hp
  split at hi
  · simp only [Prod.mk.injEq] at hi
    obtain ⟨_, _, rfl⟩ := hi
    simp [Res.passes] at hp
  rename_i h1 h2 h3
  simp only [Prod.mk.injEq] at hi
  obtain ⟨rfl, rfl, rfl⟩ := hi
  simp only [tokenMax, maxPart] at h1 h2 h3
  refine ⟨rfl, rfl, ?_, rfl, rfl, Nat.le_of_not_lt h2, Nat.le_of_not_lt h3, Nat.le_of_not_lt h1, ?_⟩
  · simp [boxSoFar, BoxDesc.scriptDone, gvePutU64_eq]
  · exact ⟨.inl ⟨rfl, rfl⟩, rfl, rfl, rfl, rfl⟩

theorem fail_not_passes {x x' : BoxSt σ} {e : BoxErr} {r : Res BoxErr} (h : x.fail e = (x', r))
    (hp : r.passes) : False := by
  simp only [BoxSt.fail, Prod.mk.injEq] at h
  obtain ⟨_, rfl⟩ := h
  simp [Res.passes] at hp

theorem addTree_rel {enc : α → Bytes} {keyOf : List UInt32 → Bytes} {base : Bytes}
    {cbs : BoxCbs σ} {x x' : BoxSt σ} {r : Res BoxErr} {o : BoxDesc α} {chunk : Bytes}
    (hR : BoxRel enc keyOf base x.c x.h o) (h : x.addTree cbs chunk = (x', r)) (hp : r.passes) :
    x.c.state = .initialized ∧ BoxRel enc keyOf base x'.c x'.h (o.addTree chunk) ∧
      x'.c.value = x.c.value ∧
      (if (o.addTree chunk).scriptDone then
        r = .ok ∧ x'.c.type = .tree ∧ x'.c.state ≠ .initialized ∧
          typeEff cbs .tree x.c.value (o.addTree chunk).complete x.s x'.s
       else r = .more ∧ x'.s = x.s ∧ x'.c.state = .initialized) := by
  unfold BoxSt.addTree at h
  split at h
  · exact (fail_not_passes h hp).elim
  rename_i hs
  simp only [ne_eq, Decidable.not_not] at hs
  split at h
  · exact (fail_not_passes h hp).elim
  rename_i hle
  split at h
  · exact (fail_not_passes h hp).elim
  have hph := hR.phase
  unfold BoxPhase at hph
  rw [hs] at hph
  simp only at hph
  obtain ⟨hscr, ht, hr, hn, hg⟩ := hph
  -- the script bytes received so far
  obtain ⟨bs, hbs, hlen, hbytes, hadd, hnd⟩ : ∃ bs : Bytes,
      (o.script = none ∧ bs = [] ∨ o.script = some (.raw bs)) ∧
      bs.length + x.c.treeSize.toNat = o.treeSize ∧
      (o.script.map (scriptBytes keyOf)).getD [] = bs ∧
      o.addTree chunk = { o with script := some (.raw (bs ++ chunk)) } ∧ o.scriptDone = false := by
    rcases hscr with ⟨h1, h2⟩ | ⟨bs, h1, h2, h3⟩
    · exact ⟨[], .inl ⟨h1, rfl⟩, by simpa using h2, by simp [h1], by simp [BoxDesc.addTree, h1],
        by simp [BoxDesc.scriptDone, h1]⟩
    · exact ⟨bs, .inr h1, h2, by simp [h1, scriptBytes], by simp [BoxDesc.addTree, h1],
        by simp [BoxDesc.scriptDone, h1]; omega⟩
  rw [hadd]
  have hash0 : x.h = base ++ (vlq o.value ++ bs) := by
    rw [hR.hash, boxSoFar, hbytes, hnd]; simp
  simp only [not_lt] at hle
  have hsize := u32_sub_ofNat x.c.treeSize hle
  simp only at h
  split at h
  · rename_i h0
    rw [u32_eq_zero, hsize] at h0
    have hdone : BoxDesc.scriptDone { o with script := some (.raw (bs ++ chunk)) } = true := by
      simp only [BoxDesc.scriptDone, List.length_append, decide_eq_true_eq]; omega
    obtain ⟨e1, e2, e3, e3', e4, e5⟩ := treeAdded_rel (enc := enc) (keyOf := keyOf) (base := base)
      (o := { o with script := some (.raw (bs ++ chunk)) }) h hp hdone rfl ht hr hR.value
      hR.height hn hg hR.tree_le hR.regs_le hR.tok_le
      (by simp [hash0, scriptBytes])
    refine ⟨hs, e2, e3', ?_⟩
    rw [if_pos hdone]
    exact ⟨e1, e3, e4, e5⟩
  · rename_i h0
    have h0' : 0 < x.c.treeSize.toNat - chunk.length := by
      rw [← hsize]; exact u32_ne_zero.1 h0
    have hdone : ¬ BoxDesc.scriptDone { o with script := some (.raw (bs ++ chunk)) } = true := by
      simp only [BoxDesc.scriptDone, List.length_append, decide_eq_true_eq]; omega
    simp only [Prod.mk.injEq] at h
    obtain ⟨rfl, rfl⟩ := h
    refine ⟨hs, ⟨?_, hR.value, hR.height, hR.tree_le, hR.regs_le, hR.tok_le, ?_⟩, rfl, ?_⟩
    · rw [boxSoFar, if_neg hdone, hash0]
      simp [scriptBytes]
    · unfold BoxPhase
      simp only [hs]
      refine ⟨.inr ⟨bs ++ chunk, rfl, ?_, ?_⟩, ht, hr, hn, hg⟩
      · rw [hsize]; simp; omega
      · rw [hsize]; exact h0'
    · rw [if_neg hdone]
      exact ⟨rfl, rfl, hs⟩

/-- The two commands that set a whole script. -/
theorem setScript_rel {enc : α → Bytes} {keyOf : List UInt32 → Bytes} {base : Bytes}
    {cbs : BoxCbs σ} {x x' : BoxSt σ} {r : Res BoxErr} {o : BoxDesc α} {s : Script} {bytes : Bytes}
    (hR : BoxRel enc keyOf base x.c x.h o) (hs : x.c.state = .initialized)
    (hno : o.script = none) (hraw : ∀ b, s ≠ .raw b) (hbytes : scriptBytes keyOf s = bytes)
    (h : BoxSt.treeAdded cbs { x with h := x.h ++ bytes, c := { x.c with type := typeOf s } } =
      (x', r)) (hp : r.passes) :
    r = .ok ∧ BoxRel enc keyOf base x'.c x'.h { o with script := some s } ∧
      x'.c.value = x.c.value ∧ x'.c.type = typeOf s ∧ x'.c.state ≠ .initialized ∧
      typeEff cbs (typeOf s) x.c.value
        (BoxDesc.complete { o with script := some s }) x.s x'.s := by
  have hph := hR.phase
  unfold BoxPhase at hph
  rw [hs] at hph
  simp only at hph
  obtain ⟨_, ht, hr, hn, hg⟩ := hph
  have hdone : BoxDesc.scriptDone { o with script := some s } = true := by
    cases s with
    | raw b => exact absurd rfl (hraw b)
    | fee => rfl
    | change p => rfl
  have hash0 : x.h = base ++ vlq o.value := by
    rw [hR.hash, boxSoFar]
    simp [hno, BoxDesc.scriptDone]
  obtain ⟨e1, e2, e3, e3', e4, e5⟩ := treeAdded_rel (enc := enc) (keyOf := keyOf) (base := base)
    (o := { o with script := some s }) h hp hdone rfl ht hr hR.value
    hR.height hn hg hR.tree_le hR.regs_le hR.tok_le
    (by simp [hash0, hbytes])
  exact ⟨e1, e2, e3', e3, e4, e5⟩

theorem pieces_mem_length {n : Nat} (hn : 0 < n) (k : Nat) (b : Bytes) (h : b.length = k * n) :
    ∀ a ∈ pieces n b, a.length = n := by
  induction k generalizing b with
  | zero =>
    have : b = [] := by simpa using h
    subst this; simp [pieces_nil]
  | succ k ih =>
    have hle : n ≤ b.length := by rw [h, Nat.succ_mul]; omega
    have ht : (b.take n).length = n := by simp; omega
    have e1 : pieces n b = b.take n :: pieces n (b.drop n) := by
      conv_lhs => rw [← List.take_append_drop n b]
      exact pieces_append _ ht hn
    rw [e1]
    simp only [List.mem_cons, forall_eq_or_imp]
    refine ⟨ht, ih _ ?_⟩
    simp only [List.length_drop, h, Nat.succ_mul]; omega

theorem addTokens_rel {enc : α → Bytes} {keyOf : List UInt32 → Bytes} {base : Bytes}
    {cbs : BoxCbs σ} {x x' : BoxSt σ} {r : Res BoxErr} {o : BoxDesc α} {input : Bytes}
    {table : Option TableArg} (conv : Bytes → α × Nat)
    (hconv : ∀ b, b.length = itemWidth table → (itemOf table b).hashed = enc (conv b).1 ∧
      (itemOf table b).amt.toNat = (conv b).2)
    (hR : BoxRel enc keyOf base x.c x.h o) (h : x.addTokens cbs table input = (x', r))
    (hp : r.passes) :
    x.c.state = .treeAdded ∧
      BoxRel enc keyOf base x'.c x'.h
        { o with tokens := o.tokens ++ (pieces (itemWidth table) input).map conv } ∧
      x'.c.value = x.c.value ∧ x'.c.type = x.c.type ∧ x'.c.state ≠ .initialized ∧
      (∃ k, input.length = k * itemWidth table) ∧
      (∀ b ∈ pieces (itemWidth table) input, ItemOk table b) ∧
      ∃ s1, foldToks cbs x.c.type ((pieces (itemWidth table) input).map (itemOf table)) x.s =
          some s1 ∧
        finEff cbs x.c.type (BoxDesc.complete
          { o with tokens := o.tokens ++ (pieces (itemWidth table) input).map conv }) s1 x'.s := by
  unfold BoxSt.addTokens at h
  split at h
  · exact (fail_not_passes h hp).elim
  rename_i hs
  simp only [ne_eq, Decidable.not_not] at hs
  have hph := hR.phase
  unfold BoxPhase at hph
  rw [hs] at hph
  simp only at hph
  obtain ⟨hd, hty, hn, hn0, hr, hg⟩ := hph
  generalize hl : BoxSt.tokensLoop cbs table input.length input x = q at h
  obtain ⟨y, ry⟩ := q
  by_cases hry : ry.passes
  swap
  · cases ry with
    | ok => simp [Res.passes] at hry
    | more => simp [Res.passes] at hry
    | err e =>
      simp only [Prod.mk.injEq] at h
      obtain ⟨rfl, rfl⟩ := h; exact absurd hp hry
    | ub =>
      simp only [Prod.mk.injEq] at h
      obtain ⟨rfl, rfl⟩ := h; exact absurd hp hry
  obtain ⟨rfl, k, l1, l2, l3, l4, l5, l6⟩ := tokensLoop_passes cbs table _ _ _ _ _ hl hry
  have hpl := pieces_length (itemWidth_pos table) k input l1
  have hpm := pieces_mem_length (itemWidth_pos table) k input l1
  -- the bytes in terms of the description
  have hbytes : ((pieces (itemWidth table) input).map (itemOf table)).flatMap
      (fun i => i.hashed ++ vlq i.amt.toNat) =
      ((pieces (itemWidth table) input).map conv).flatMap (fun t => enc t.1 ++ vlq t.2) := by
    rw [List.flatMap_map, List.flatMap_map]
    generalize pieces (itemWidth table) input = ps at hpm
    clear hpl l4 l5 l6
    induction ps with
    | nil => rfl
    | cons p ps ih =>
      simp only [List.flatMap_cons]
      obtain ⟨c1, c2⟩ := hconv p (hpm p (by simp))
      rw [c1, c2, ih (fun a ha => hpm a (by simp [ha]))]
  have hcount : (y.c.tokensCount).toNat = x.c.tokensCount.toNat - k := by
    rw [l3]; exact u8_sub_ofNat _ l2
  have hyc : y.c.type = x.c.type ∧ y.c.value = x.c.value ∧ y.c.height = x.c.height ∧
      y.c.regsSize = x.c.regsSize ∧ y.c.state = .treeAdded := by
    rw [l3]; exact ⟨rfl, rfl, rfl, rfl, hs⟩
  obtain ⟨y1, y2, y3, y4, y5⟩ := hyc
  set o' : BoxDesc α := { o with tokens := o.tokens ++ (pieces (itemWidth table) input).map conv }
    with ho'
  have hlen' : o'.tokens.length = o.tokens.length + k := by
    simp [ho', hpl]
  have hd' : o'.scriptDone = true := hd
  have hash' : y.h = base ++ (vlq o.value ++ (o.script.map (scriptBytes keyOf)).getD [] ++
      (vlq o.height ++ [UInt8.ofNat o.nTokens] ++
        o'.tokens.flatMap (fun t => enc t.1 ++ vlq t.2))) := by
    rw [l4, hR.hash, boxSoFar, if_pos hd, if_neg (by omega), hbytes]
    simp [ho']
  simp only at h
  split at h
  · rename_i hz
    rw [u8_eq_zero, hcount] at hz
    have hall : o'.tokens.length = o'.nTokens := by rw [hlen']; show _ = o.nTokens; omega
    split at h
    · rename_i hz2
      have hg0 : o.regsSize = 0 := by rw [← hg, ← y4, hz2]; rfl
      have hc : o'.complete := by
        simp only [BoxDesc.complete, hd', hall, Bool.and_eq_true, decide_eq_true_eq, true_and]
        show o.regs.length = o.regsSize
        rw [hr, hg0]; rfl
      obtain ⟨e1, e2, e3, q, e4, e5⟩ := finish_passes h hp
      simp only at e2 e3 e4
      refine ⟨hs, ⟨?_, ?_, ?_, hR.tree_le, hR.regs_le, hR.tok_le, ?_⟩, ?_, ?_, ?_, ⟨k, l1⟩, l6, y.s,
        l5, ?_⟩
      · rw [e3, hash', boxSoFar, if_pos hd', if_pos hall, if_pos hg0]
        simp [gvePutU8, ho']
      · rw [e2]; show y.c.value.toNat = _; rw [y2]; exact hR.value
      · rw [e2]; show y.c.height.toNat = _; rw [y3]; exact hR.height
      · rw [e2]; exact ⟨hc, by rw [← y1] at hty; exact hty⟩
      · rw [e2]; exact y2
      · rw [e2]; exact y1
      · rw [e2]; simp
      · rw [finEff, if_pos hc, ← y1]
        exact ⟨q, e4, e5⟩
    · rename_i hz2
      have hg0 : 0 < o.regsSize := by
        rw [← hg, ← y4]; exact u32_ne_zero.1 hz2
      have hc : ¬ o'.complete := by
        simp only [BoxDesc.complete, Bool.and_eq_true, decide_eq_true_eq]
        have e : o'.regs.length = 0 := by show o.regs.length = 0; rw [hr]; rfl
        have e2 : o'.regsSize = o.regsSize := rfl
        omega
      simp only [Prod.mk.injEq] at h
      obtain ⟨rfl, rfl⟩ := h
      refine ⟨hs, ⟨?_, ?_, ?_, hR.tree_le, hR.regs_le, hR.tok_le, ?_⟩, y2, y1, by simp, ⟨k, l1⟩, l6,
        y.s, l5, ?_⟩
      · have e0 : ¬ o'.regsSize = 0 := by show ¬ o.regsSize = 0; omega
        rw [boxSoFar, if_pos hd', if_pos hall, if_neg e0]
        simp only [hash']
        simp [ho', hr]
      · show y.c.value.toNat = _; rw [y2]; exact hR.value
      · show y.c.height.toNat = _; rw [y3]; exact hR.height
      · refine ⟨hd', by rw [← y1] at hty; exact hty, hall, ?_, ?_⟩
        · show o.regs.length + y.c.regsSize.toNat = o.regsSize
          rw [hr, y4, hg]; simp
        · show 0 < y.c.regsSize.toNat
          rw [y4, hg]; exact hg0
      · rw [finEff, if_neg hc]
  · rename_i hz
    have hz' : 0 < x.c.tokensCount.toNat - k := by
      rw [← hcount]; exact u8_ne_zero.1 hz
    have hnall : ¬ o'.tokens.length = o'.nTokens := by
      rw [hlen']; show ¬ _ = o.nTokens; omega
    have hc : ¬ o'.complete := by
      simp only [BoxDesc.complete, Bool.and_eq_true, decide_eq_true_eq]
      tauto
    simp only [Prod.mk.injEq] at h
    obtain ⟨rfl, rfl⟩ := h
    refine ⟨hs, ⟨?_, ?_, ?_, hR.tree_le, hR.regs_le, hR.tok_le, ?_⟩, y2, y1, by rw [y5]; simp,
      ⟨k, l1⟩, l6, y.s, l5, ?_⟩
    · rw [boxSoFar, if_pos hd', if_neg hnall]
      simp only [hash']
      simp [ho']
    · rw [y2]; exact hR.value
    · rw [y3]; exact hR.height
    · unfold BoxPhase
      simp only [y5]
      refine ⟨hd', by rw [← y1] at hty; exact hty, ?_, ?_, hr, ?_⟩
      · rw [hlen', hcount]; show _ = o.nTokens; omega
      · rw [hcount]; exact hz'
      · rw [y4]; exact hg
    · rw [finEff, if_neg hc]

theorem addRegisters_rel {enc : α → Bytes} {keyOf : List UInt32 → Bytes} {base : Bytes}
    {cbs : BoxCbs σ} {x x' : BoxSt σ} {r : Res BoxErr} {o : BoxDesc α} {chunk : Bytes}
    (hR : BoxRel enc keyOf base x.c x.h o) (h : x.addRegisters cbs chunk = (x', r))
    (hp : r.passes) :
    x.c.state = .tokensAdded ∧
      BoxRel enc keyOf base x'.c x'.h { o with regs := o.regs ++ chunk } ∧
      x'.c.value = x.c.value ∧ x'.c.type = x.c.type ∧ x'.c.state ≠ .initialized ∧
      (r = .ok ↔ BoxDesc.complete { o with regs := o.regs ++ chunk }) ∧
      finEff cbs x.c.type (BoxDesc.complete { o with regs := o.regs ++ chunk }) x.s x'.s := by
  unfold BoxSt.addRegisters at h
  split at h
  · exact (fail_not_passes h hp).elim
  rename_i hs
  simp only [ne_eq, Decidable.not_not] at hs
  split at h
  · exact (fail_not_passes h hp).elim
  rename_i hle
  simp only [not_lt] at hle
  have hph := hR.phase
  unfold BoxPhase at hph
  rw [hs] at hph
  simp only at hph
  obtain ⟨hd, hty, hn, hg, hg0⟩ := hph
  have hsize := u32_sub_ofNat x.c.regsSize hle
  have hrn : ¬ o.regsSize = 0 := by omega
  set o' : BoxDesc α := { o with regs := o.regs ++ chunk } with ho'
  have hd' : o'.scriptDone = true := hd
  have hash' : x.h ++ chunk = base ++ boxSoFar enc keyOf o' := by
    rw [hR.hash, boxSoFar, boxSoFar, if_pos hd, if_pos hd', if_pos hn, if_pos hn, if_neg hrn,
      if_neg hrn]
    simp [ho']
  simp only at h
  split at h
  · rename_i hz
    rw [u32_eq_zero, hsize] at hz
    have hc : o'.complete := by
      simp only [BoxDesc.complete, hd', Bool.and_eq_true, decide_eq_true_eq, true_and]
      refine ⟨hn, ?_⟩
      simp only [ho', List.length_append]; omega
    obtain ⟨e1, e2, e3, q, e4, e5⟩ := finish_passes h hp
    simp only at e2 e3 e4
    refine ⟨hs, ⟨?_, ?_, ?_, hR.tree_le, hR.regs_le, hR.tok_le, ?_⟩, ?_, ?_, ?_, ?_, ?_⟩
    · rw [e3, hash']
    · rw [e2]; exact hR.value
    · rw [e2]; exact hR.height
    · rw [e2]; exact ⟨hc, hty⟩
    · rw [e2]
    · rw [e2]
    · rw [e2]; simp
    · exact ⟨fun _ => hc, fun _ => e1⟩
    · rw [finEff, if_pos hc]
      exact ⟨q, e4, e5⟩
  · rename_i hz
    have hz' : 0 < x.c.regsSize.toNat - chunk.length := by
      rw [← hsize]; exact u32_ne_zero.1 hz
    have hc : ¬ o'.complete := by
      simp only [BoxDesc.complete, Bool.and_eq_true, decide_eq_true_eq]
      have e : o'.regs.length = o.regs.length + chunk.length := by simp [ho']
      have e2 : o'.regsSize = o.regsSize := rfl
      omega
    simp only [Prod.mk.injEq] at h
    obtain ⟨rfl, rfl⟩ := h
    refine ⟨hs, ⟨hash', hR.value, hR.height, hR.tree_le, hR.regs_le, hR.tok_le, ?_⟩, rfl, rfl,
      by rw [hs]; simp, ?_, ?_⟩
    · unfold BoxPhase
      simp only [hs]
      refine ⟨hd', hty, hn, ?_, ?_⟩
      · rw [hsize]; simp only [ho', List.length_append]; omega
      · rw [hsize]; exact hz'
    · simp [hc]
    · rw [finEff, if_neg hc]

end Ergo
