import Verif.Spec.Wallet
import Verif.Proof.AttestComplete
import Verif.Props.Authentic
/-!
# The commands that send a box
-/
namespace Ergo
open Spec

theorem num_length : ∀ k n : Nat, (num k n).length = k
  | 0, _ => rfl
  | k + 1, n => by rw [num, List.length_append, num_length k]; rfl

theorem be_append_one (x : UInt8) : ∀ a : Bytes, be (a ++ [x]) = be a * 256 + x.toNat
  | [] => by simp [be]
  | y :: a => by
    rw [List.cons_append, be, be_append_one x a, be, List.length_append]
    simp only [List.length_cons, List.length_nil, Nat.zero_add, Nat.pow_succ]
    ring

theorem be_num : ∀ k n : Nat, n < 256 ^ k → be (num k n) = n
  | 0, n, h => by
    have : n = 0 := by simpa using h
    subst this; rfl
  | k + 1, n, h => by
    rw [num, be_append_one, be_num k _ (by
      rw [Nat.div_lt_iff_lt_mul (by decide), ← Nat.pow_succ]; exact h), UInt8.toNat_ofNat']
    omega

theorem groups_nil {α : Type} (n : Nat) : groups n ([] : List α) = [] := by
  rw [groups]; simp

theorem groups_cons {α : Type} {n : Nat} (hn : 0 < n) {l : List α} (h : l ≠ []) :
    groups n l = l.take n :: groups n (l.drop n) := by
  rw [groups, dif_neg (by simp [h]; omega)]

/-- Induction over groups. -/
theorem groups_ind {α : Type} {n : Nat} (hn : 0 < n) {P : List α → Prop} (h0 : P [])
    (h1 : ∀ l, l ≠ [] → P (l.drop n) → P l) (l : List α) : P l := by
  induction hk : l.length using Nat.strongRecOn generalizing l with
  | _ k ih =>
    by_cases e : l = []
    · subst e; exact h0
    · have : 0 < l.length := List.length_pos_iff.2 e
      exact h1 l e (ih (l.drop n).length (by simp; omega) _ rfl)

/-- Chunks that fit one after the other. -/
def ChunksOk {σ : Type} (ok : σ → Bytes → Prop) (step : σ → Bytes → σ) : σ → List Bytes → Prop
  | _, [] => True
  | s, c :: cs => c.length ≤ 255 ∧ ok s c ∧ ChunksOk ok step (step s c) cs

/-! ## Script -/

/-- A script chunk fits. -/
def TreeOk {α : Type} (o : BoxDesc α) (data : Bytes) : Prop :=
  o.scriptDone = false ∧ scriptLen o + data.length ≤ o.treeSize ∧
    (scriptLen o + data.length = o.treeSize ∨ 255 ≤ data.length)

theorem tree_more {α : Type} (b : Bytes) : ∀ (o : BoxDesc α) (pre : Bytes), o.script = some (.raw pre) →
    pre.length + b.length = o.treeSize →
    ChunksOk TreeOk BoxDesc.addTree o (groups 255 b) ∧
      (groups 255 b).foldl BoxDesc.addTree o = { o with script := some (.raw (pre ++ b)) } := by
  induction b using groups_ind (n := 255) (by decide) with
  | h0 =>
    intro o pre hs _
    rw [groups_nil, List.append_nil, ← hs]
    exact ⟨trivial, rfl⟩
  | h1 b hb ih =>
    intro o pre hs hl
    have hp : 0 < b.length := List.length_pos_iff.2 hb
    rw [groups_cons (by decide) hb]
    have e : o.addTree (b.take 255) = { o with script := some (.raw (pre ++ b.take 255)) } := by
      unfold BoxDesc.addTree; rw [hs]
    obtain ⟨i1, i2⟩ := ih (o.addTree (b.take 255)) (pre ++ b.take 255) (by rw [e]) (by
      rw [e]
      simp only [List.length_append, List.length_take, List.length_drop]
      omega)
    have hlen : scriptLen o = pre.length := by unfold scriptLen; rw [hs]
    refine ⟨⟨by rw [List.length_take]; omega, ⟨?_, ?_, ?_⟩, i1⟩, ?_⟩
    · unfold BoxDesc.scriptDone; rw [hs]; simp; omega
    · rw [hlen, List.length_take]; omega
    · rw [hlen, List.length_take]; omega
    · rw [List.foldl_cons, i2, e]
      simp

/-- The chunks of a script fit. -/
theorem tree_all {α : Type} (b : Bytes) (o : BoxDesc α) (hs : o.script = none)
    (hl : b.length = o.treeSize) :
    ChunksOk TreeOk BoxDesc.addTree o (treeChunks b) ∧
      (treeChunks b).foldl BoxDesc.addTree o = { o with script := some (.raw b) } := by
  have hlen : scriptLen o = 0 := by unfold scriptLen; rw [hs]
  have hd : o.scriptDone = false := by unfold BoxDesc.scriptDone; rw [hs]
  have e : ∀ c, o.addTree c = { o with script := some (.raw c) } := by
    intro c; unfold BoxDesc.addTree; rw [hs]
  by_cases hb : b = []
  · subst hb
    simp only [treeChunks, if_true]
    refine ⟨⟨by decide, ⟨hd, by rw [hlen, ← hl]; simp, .inl (by rw [hlen, ← hl]; simp)⟩, trivial⟩, ?_⟩
    simp [e]
  · rw [treeChunks, if_neg hb, groups_cons (by decide) hb]
    have hp : 0 < b.length := List.length_pos_iff.2 hb
    obtain ⟨i1, i2⟩ := tree_more (b.drop 255) (o.addTree (b.take 255)) (b.take 255) (by rw [e]) (by
      rw [e]
      simp only [List.length_take, List.length_drop]
      omega)
    refine ⟨⟨by rw [List.length_take]; omega, ⟨hd, ?_, ?_⟩, i1⟩, ?_⟩
    · rw [hlen, List.length_take]; omega
    · rw [hlen, List.length_take]; omega
    · rw [List.foldl_cons, i2, e]
      simp

/-! ## Registers -/

/-- A chunk of registers fits. -/
def RegsOk {α : Type} (o : BoxDesc α) (data : Bytes) : Prop :=
  o.scriptDone = true ∧ o.tokens.length = o.nTokens ∧ o.regs.length < o.regsSize ∧
    o.regs.length + data.length ≤ o.regsSize

/-- More registers. -/
def Spec.BoxDesc.addRegs {α : Type} (o : BoxDesc α) (data : Bytes) : BoxDesc α :=
  { o with regs := o.regs ++ data }

/-- The chunks of the registers fit. -/
theorem regs_all {α : Type} (b : Bytes) : ∀ (o : BoxDesc α), o.scriptDone = true →
    o.tokens.length = o.nTokens → o.regs.length + b.length = o.regsSize →
    ChunksOk RegsOk BoxDesc.addRegs o (groups 255 b) ∧
      (groups 255 b).foldl BoxDesc.addRegs o = { o with regs := o.regs ++ b } := by
  induction b using groups_ind (n := 255) (by decide) with
  | h0 =>
    intro o _ _ _
    rw [groups_nil, List.append_nil]
    exact ⟨trivial, rfl⟩
  | h1 b hb ih =>
    intro o hd ht hl
    have hp : 0 < b.length := List.length_pos_iff.2 hb
    rw [groups_cons (by decide) hb]
    obtain ⟨i1, i2⟩ := ih (o.addRegs (b.take 255)) hd ht (by
      simp only [BoxDesc.addRegs, List.length_append, List.length_take, List.length_drop]
      omega)
    refine ⟨⟨by rw [List.length_take]; omega, ⟨hd, ht, by omega, ?_⟩, i1⟩, ?_⟩
    · rw [List.length_take]; omega
    · rw [List.foldl_cons, i2]
      simp [BoxDesc.addRegs]

/-! ## Tokens with ids -/

theorem pieces_entries {β : Type} {w : Nat} (hw : 0 < w) {enc : β → Bytes} {dec : Bytes → β}
    (l : List β) (h1 : ∀ x ∈ l, (enc x).length = w) (h2 : ∀ x ∈ l, dec (enc x) = x) :
    (pieces w (l.flatMap enc)).map dec = l ∧ (l.flatMap enc).length = w * l.length := by
  induction l with
  | nil => simp [pieces_nil]
  | cons x l ih =>
    obtain ⟨i1, i2⟩ := ih (fun y hy => h1 y (by simp [hy])) (fun y hy => h2 y (by simp [hy]))
    rw [List.flatMap_cons, pieces_append _ (h1 x (by simp)) hw, List.map_cons, i1, h2 x (by simp)]
    refine ⟨rfl, ?_⟩
    rw [List.length_append, h1 x (by simp), i2, List.length_cons, Nat.mul_succ, Nat.add_comm]

theorem tok40_num {t : Bytes × Nat} (h : t.1.length = 32 ∧ t.2 < 2 ^ 64) :
    (t.1 ++ num 8 t.2).length = 40 ∧ tok40 (t.1 ++ num 8 t.2) = t := by
  refine ⟨by rw [List.length_append, num_length, h.1], ?_⟩
  unfold tok40
  rw [List.take_left' h.1, List.drop_left' h.1, be_num _ _ (by simpa using h.2)]

/-- A command with tokens fits. -/
def TokensOk (o : BoxDesc Bytes) (data : Bytes) : Prop :=
  o.scriptDone = true ∧ o.tokens.length < o.nTokens ∧ data.length % 40 = 0 ∧
    o.tokens.length + data.length / 40 ≤ o.nTokens ∧
    ((o.tokens ++ (pieces 40 data).map tok40).map (·.1)).Nodup

/-- More tokens. -/
def Spec.BoxDesc.addToks (o : BoxDesc Bytes) (data : Bytes) : BoxDesc Bytes :=
  { o with tokens := o.tokens ++ (pieces 40 data).map tok40 }

/-- The commands with tokens fit. -/
theorem tokens_all (l : List (Bytes × Nat)) : ∀ (o : BoxDesc Bytes), o.scriptDone = true →
    o.tokens.length + l.length = o.nTokens → (∀ t ∈ l, t.1.length = 32 ∧ t.2 < 2 ^ 64) →
    ((o.tokens ++ l).map (·.1)).Nodup →
    ChunksOk TokensOk BoxDesc.addToks o ((groups 6 l).map (·.flatMap (fun t => t.1 ++ num 8 t.2))) ∧
      ((groups 6 l).map (·.flatMap (fun t => t.1 ++ num 8 t.2))).foldl BoxDesc.addToks o =
        { o with tokens := o.tokens ++ l } := by
  induction l using groups_ind (n := 6) (by decide) with
  | h0 =>
    intro o _ _ _ _
    rw [groups_nil, List.append_nil]
    exact ⟨trivial, rfl⟩
  | h1 l hl ih =>
    intro o hd hn ht hN
    have hp : 0 < l.length := List.length_pos_iff.2 hl
    rw [groups_cons (by decide) hl, List.map_cons, List.foldl_cons]
    have htk : ∀ t ∈ l.take 6, t.1.length = 32 ∧ t.2 < 2 ^ 64 := fun t h => ht t (List.mem_of_mem_take h)
    obtain ⟨p1, p2⟩ := pieces_entries (w := 40) (by decide) (enc := fun t => t.1 ++ num 8 t.2)
      (dec := tok40) (l.take 6) (fun t h => (tok40_num (htk t h)).1) (fun t h => (tok40_num (htk t h)).2)
    have e : o.addToks ((l.take 6).flatMap (fun t => t.1 ++ num 8 t.2)) =
        { o with tokens := o.tokens ++ l.take 6 } := by
      unfold BoxDesc.addToks; rw [p1]
    have hsplit : o.tokens ++ l = (o.tokens ++ l.take 6) ++ l.drop 6 := by simp
    obtain ⟨i1, i2⟩ := ih (o.addToks ((l.take 6).flatMap (fun t => t.1 ++ num 8 t.2)))
      (by rw [e]; exact hd)
      (by
        rw [e]
        simp only [List.length_append, List.length_take, List.length_drop]
        omega)
      (fun t h => ht t (List.mem_of_mem_drop h))
      (by rw [e]; simpa using hN)
    have hN' : ((o.tokens ++ l.take 6).map (·.1)).Nodup := by
      rw [hsplit, List.map_append] at hN
      exact hN.of_append_left
    refine ⟨⟨?_, ⟨hd, by omega, ?_, ?_, ?_⟩, i1⟩, ?_⟩
    · rw [p2, List.length_take]; omega
    · rw [p2]; omega
    · rw [p2, Nat.mul_div_cancel_left _ (by decide), List.length_take]; omega
    · rw [p1]; exact hN'
    · rw [i2, e]; simp

/-! ## The attestation -/

theorem attestFitsAll_append (a b : List SignCmd) : ∀ o : BoxDesc Bytes, AttestFitsAll o (a ++ b) ↔
    AttestFitsAll o a ∧ AttestFitsAll ((a.map (fun c => (c.sub, c.data))).foldl attestStep o) b := by
  induction a with
  | nil => intro o; simp [AttestFitsAll]
  | cons c a ih =>
    intro o
    simp only [List.cons_append, AttestFitsAll, ih, List.map_cons, List.foldl_cons, and_assoc]

theorem attest_chunks {ok : BoxDesc Bytes → Bytes → Prop} {step : BoxDesc Bytes → Bytes → BoxDesc Bytes}
    {sub : UInt8} (h1 : ∀ o d, ok o d → AttestFits o sub d) (h2 : ∀ o d, attestStep o (sub, d) = step o d)
    (rnd : Rnd) (l : List Bytes) : ∀ o, ChunksOk ok step o l →
    AttestFitsAll o (l.map (fun b => ⟨sub, b, rnd⟩)) ∧
      ((l.map (fun b => (⟨sub, b, rnd⟩ : SignCmd))).map (fun c => (c.sub, c.data))).foldl attestStep o =
        l.foldl step o := by
  induction l with
  | nil => intro o _; exact ⟨trivial, rfl⟩
  | cons c l ih =>
    intro o h
    obtain ⟨g1, g2, g3⟩ := h
    obtain ⟨i1, i2⟩ := ih _ g3
    simp only [List.map_cons, List.foldl_cons, AttestFitsAll, h2]
    exact ⟨⟨g1, h1 _ _ g2, i1⟩, i2⟩

/-- The box of a coin, as described to the device. -/
def Spec.Coin.desc (c : Coin) : BoxDesc Bytes :=
  ⟨c.value, c.tree.length, c.height, c.tokens.length, c.regs.length, some (.raw c.tree), c.tokens, c.regs⟩

theorem coin_header {c : Coin} (h : c.Within) (rnd : Rnd) :
    attestHeader (c.request rnd).data =
      ⟨c.value, c.tree.length, c.height, c.tokens.length, c.regs.length, none, [], []⟩ ∧
    field (c.request rnd).data 32 2 = c.index ∧ (c.request rnd).data.take 32 = c.txId ∧
    (c.request rnd).data.length = 55 := by
  have L := h.txId
  have f0 : field (c.request rnd).data 32 2 = c.index := by
    rw [field_of (pre := c.txId) (a := num 2 c.index)
      (post := num 8 c.value ++ num 4 c.tree.length ++ num 4 c.height ++ num 1 c.tokens.length ++
        num 4 c.regs.length) (by simp [Coin.request]) L (num_length _ _),
      be_num _ _ (by simpa using h.index)]
  have f1 : field (c.request rnd).data 34 8 = c.value := by
    rw [field_of (pre := c.txId ++ num 2 c.index) (a := num 8 c.value)
      (post := num 4 c.tree.length ++ num 4 c.height ++ num 1 c.tokens.length ++
        num 4 c.regs.length) (by simp [Coin.request]) (by simp [L, num_length]) (num_length _ _),
      be_num _ _ (by simpa using h.value)]
  have f2 : field (c.request rnd).data 42 4 = c.tree.length := by
    rw [field_of (pre := c.txId ++ num 2 c.index ++ num 8 c.value) (a := num 4 c.tree.length)
      (post := num 4 c.height ++ num 1 c.tokens.length ++
        num 4 c.regs.length) (by simp [Coin.request]) (by simp [L, num_length]) (num_length _ _),
      be_num _ _ (by have := h.tree; omega)]
  have f3 : field (c.request rnd).data 46 4 = c.height := by
    rw [field_of (pre := c.txId ++ num 2 c.index ++ num 8 c.value ++ num 4 c.tree.length)
      (a := num 4 c.height) (post := num 1 c.tokens.length ++
        num 4 c.regs.length) (by simp [Coin.request]) (by simp [L, num_length]) (num_length _ _),
      be_num _ _ (by simpa using h.height)]
  have f4 : field (c.request rnd).data 50 1 = c.tokens.length := by
    rw [field_of (pre := c.txId ++ num 2 c.index ++ num 8 c.value ++ num 4 c.tree.length ++
      num 4 c.height) (a := num 1 c.tokens.length) (post := num 4 c.regs.length)
      (by simp [Coin.request]) (by simp [L, num_length]) (num_length _ _),
      be_num _ _ (by have := h.count; omega)]
  have f5 : field (c.request rnd).data 51 4 = c.regs.length := by
    rw [field_of (pre := c.txId ++ num 2 c.index ++ num 8 c.value ++ num 4 c.tree.length ++
      num 4 c.height ++ num 1 c.tokens.length) (a := num 4 c.regs.length) (post := [])
      (by simp [Coin.request]) (by simp [L, num_length]) (num_length _ _),
      be_num _ _ (by have := h.regs; omega)]
  refine ⟨?_, f0, ?_, ?_⟩
  · unfold attestHeader
    rw [f1, f2, f3, f4, f5]
  · simp only [Coin.request, List.append_assoc]
    exact List.take_left' L
  · simp [Coin.request, L, num_length]

/-- The commands of a box fit and describe it. -/
theorem coin_fits {c : Coin} (h : c.Within) (rnd : Rnd) :
    AttestFitsAll (attestHeader (c.request rnd).data) (c.cmds rnd) ∧
      ((c.cmds rnd).map (fun c => (c.sub, c.data))).foldl attestStep
        (attestHeader (c.request rnd).data) = c.desc ∧ c.desc.complete = true := by
  rw [(coin_header h rnd).1]
  obtain ⟨t1, t2⟩ := tree_all (α := Bytes) c.tree ⟨c.value, c.tree.length, c.height, c.tokens.length,
    c.regs.length, none, [], []⟩ rfl rfl
  obtain ⟨a1, a2⟩ := attest_chunks (ok := TreeOk) (step := BoxDesc.addTree) (sub := 0x02) (fun o d h => h) (fun o d => rfl) rnd _ _ t1
  rw [t2] at a2
  obtain ⟨u1, u2⟩ := tokens_all c.tokens ⟨c.value, c.tree.length, c.height, c.tokens.length,
    c.regs.length, some (.raw c.tree), [], []⟩ (by simp [BoxDesc.scriptDone]) (by simp) h.tokens
    h.distinct
  obtain ⟨b1, b2⟩ := attest_chunks (ok := TokensOk) (step := BoxDesc.addToks) (sub := 0x03) (fun o d h => h) (fun o d => rfl) rnd _ _ u1
  rw [u2] at b2
  obtain ⟨v1, v2⟩ := regs_all c.regs (⟨c.value, c.tree.length, c.height, c.tokens.length,
    c.regs.length, some (.raw c.tree), c.tokens, []⟩ : BoxDesc Bytes) (by simp [BoxDesc.scriptDone])
    rfl (by simp)
  obtain ⟨d1, d2⟩ := attest_chunks (ok := RegsOk) (step := BoxDesc.addRegs) (sub := 0x04) (fun o d h => h) (fun o d => rfl) rnd _ _ v1
  rw [v2] at d2
  have hmap : (groups 6 c.tokens).map (fun l => (⟨0x03, l.flatMap (fun t => t.1 ++ num 8 t.2), rnd⟩ :
      SignCmd)) = ((groups 6 c.tokens).map (·.flatMap (fun t => t.1 ++ num 8 t.2))).map
        (fun b => ⟨0x03, b, rnd⟩) := by
    rw [List.map_map]; rfl
  unfold Coin.cmds
  rw [hmap]
  refine ⟨?_, ?_, ?_⟩
  · rw [attestFitsAll_append, attestFitsAll_append]
    refine ⟨⟨a1, ?_⟩, ?_⟩
    · rw [a2]; exact b1
    · rw [List.map_append, List.foldl_append, a2]
      rw [b2]
      exact d1
  · rw [List.map_append, List.map_append, List.foldl_append, List.foldl_append, a2]
    rw [b2]
    exact d2
  · simp [Coin.desc, BoxDesc.complete, BoxDesc.scriptDone]

/-- The frames of a session that describes a coin are those of the coin. -/
theorem coin_frame {env : Env} {key : Bytes} {c : Coin} (h : c.Within) {rnd : Rnd} {S : AttestSess}
    (h1 : S.start = c.request rnd) (h2 : S.box = c.desc) (i : Nat) :
    S.frame env key i = c.frame env key i := by
  obtain ⟨_, e1, e2, _⟩ := coin_header h rnd
  have hid : S.boxId env = c.id env := by
    unfold AttestSess.boxId Coin.id
    congr 1
    unfold fullBoxBytes
    rw [h1, h2, e1, e2]
    simp [boxBytes, Coin.desc, scriptBytes, Coin.bytes]
  unfold AttestSess.frame Coin.frame
  rw [hid, h2]
  rfl

end Ergo
