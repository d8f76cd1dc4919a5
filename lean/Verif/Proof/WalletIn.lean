import Verif.Proof.WalletBox
/-!
# The commands that send the inputs of a transaction
-/
namespace Ergo
open Spec

variable {env : Env} {key : Bytes}

theorem fitsAll_append (a b : List SignCmd) : ∀ D : TxDesc, FitsAll env key D (a ++ b) ↔
    FitsAll env key D a ∧ FitsAll env key (D.after a) b := by
  induction a with
  | nil => intro D; simp [FitsAll, TxDesc.after]
  | cons c a ih =>
    intro D
    simp only [List.cons_append, FitsAll, ih, TxDesc.after, List.foldl_cons, and_assoc]

theorem after_append (D : TxDesc) (a b : List SignCmd) : D.after (a ++ b) = (D.after a).after b := by
  simp [TxDesc.after]

theorem sign_chunks {σ : Type} {ok : σ → Bytes → Prop} {step : σ → Bytes → σ} {sub : UInt8}
    (put : σ → TxDesc) (hsub : 0x10 ≤ sub ∧ sub ≤ 0x1A)
    (h1 : ∀ s d, ok s d → Fits env key (put s) sub d)
    (h2 : ∀ s d, (put s).step (.cmd sub d) = put (step s d)) (rnd : Rnd) (l : List Bytes) :
    ∀ s, ChunksOk ok step s l → FitsAll env key (put s) (l.map (fun b => ⟨sub, b, rnd⟩)) ∧
      (put s).after (l.map (fun b => ⟨sub, b, rnd⟩)) = put (l.foldl step s) := by
  induction l with
  | nil => intro s _; exact ⟨trivial, rfl⟩
  | cons c l ih =>
    intro s h
    obtain ⟨g1, g2, g3⟩ := h
    obtain ⟨i1, i2⟩ := ih _ g3
    refine ⟨⟨hsub, g1, h1 _ _ g2, ?_⟩, ?_⟩
    · rw [h2]; exact i1
    · rw [List.foldl_cons, ← i2, ← h2]; rfl

/-! ## Lists of ids -/

/-- A command with ids fits. -/
def TableIdsOk (n : Nat) (t : List Bytes) (data : Bytes) : Prop :=
  t.length < n ∧ data.length % 32 = 0 ∧ t.length + data.length / 32 ≤ n

theorem ids_all (l : List Bytes) : ∀ (n : Nat) (t : List Bytes), t.length + l.length = n →
    (∀ b ∈ l, b.length = 32) →
    ChunksOk (TableIdsOk n) (fun t d => t ++ pieces 32 d) t ((groups 7 l).map List.flatten) ∧
      ((groups 7 l).map List.flatten).foldl (fun t d => t ++ pieces 32 d) t = t ++ l := by
  induction l using groups_ind (n := 7) (by decide) with
  | h0 =>
    intro n t _ _
    rw [groups_nil, List.append_nil]
    exact ⟨trivial, rfl⟩
  | h1 l hl ih =>
    intro n t hn hb
    have hp : 0 < l.length := List.length_pos_iff.2 hl
    rw [groups_cons (by decide) hl, List.map_cons, List.foldl_cons]
    obtain ⟨p1, p2⟩ := pieces_entries (w := 32) (by decide) (enc := id) (dec := id) (l.take 7)
      (fun b h => hb b (List.mem_of_mem_take h)) (fun _ _ => rfl)
    rw [List.map_id, List.flatMap_id] at p1
    rw [List.flatMap_id] at p2
    obtain ⟨i1, i2⟩ := ih n (t ++ l.take 7) (by
      simp only [List.length_append, List.length_take, List.length_drop]
      omega) (fun b h => hb b (List.mem_of_mem_drop h))
    refine ⟨⟨?_, ⟨by omega, ?_, ?_⟩, ?_⟩, ?_⟩
    · rw [p2, List.length_take]; omega
    · rw [p2]; omega
    · rw [p2, Nat.mul_div_cancel_left _ (by decide), List.length_take]; omega
    · show ChunksOk _ _ (t ++ pieces 32 (l.take 7).flatten) _
      rw [p1]; exact i1
    · rw [p1, i2]; simp

/-! ## Sums -/

theorem sum_le_sum' {β : Type} (l : List β) {f g : β → Nat} (h : ∀ x ∈ l, f x ≤ g x) :
    (l.map f).sum ≤ (l.map g).sum := by
  induction l with
  | nil => simp
  | cons x l ih =>
    simp only [List.map_cons, List.sum_cons]
    have := h x (by simp)
    have := ih (fun y hy => h y (by simp [hy]))
    omega

/-- Less in the inputs fits as well. -/
theorem sumsFit_mono {D E : TxDesc} (h : SumsFit E) (ht : D.table = E.table) (h1 : D.sumIn ≤ E.sumIn)
    (h2 : ∀ id, D.tokIn id ≤ E.tokIn id)
    (h3 : ∀ i ∈ D.inputs, ∀ t ∈ i.tokens, ∃ j ∈ E.inputs, t ∈ j.tokens) : SumsFit D := by
  refine ⟨by have := h.value; omega, fun id => by have := h.toks id; have := h2 id; omega, ?_⟩
  have hs : D.otherIds ⊆ E.otherIds := by
    intro id hid
    unfold TxDesc.otherIds at hid ⊢
    rw [List.mem_dedup, List.mem_filter, List.mem_flatMap] at hid ⊢
    obtain ⟨⟨i, hi, hm⟩, hn⟩ := hid
    obtain ⟨t, ht1, rfl⟩ := List.mem_map.1 hm
    obtain ⟨j, hj, htj⟩ := h3 i hi t ht1
    exact ⟨⟨j, hj, List.mem_map.2 ⟨t, htj, rfl⟩⟩, by rw [← ht]; exact hn⟩
  have hle : D.otherIds.length ≤ E.otherIds.length :=
    ((List.nodup_dedup _).subperm hs).length_le
  have := h.ids
  rw [ht]
  omega

/-- Fewer inputs fit as well. -/
theorem sumsFit_tail {D : TxDesc} {a b : List InDesc} (h : SumsFit { D with inputs := a ++ b }) :
    SumsFit { D with inputs := b } := by
  refine sumsFit_mono h rfl ?_ ?_ ?_
  · simp [TxDesc.sumIn]
  · intro id; simp [TxDesc.tokIn]
  · intro i hi t ht
    exact ⟨i, by simp only [List.mem_append]; exact .inr hi, ht⟩

/-- Fewer tokens of the newest input fit as well. -/
theorem sumsFit_prefix {D : TxDesc} {i j : InDesc} {is : List InDesc} (hv : i.value = j.value)
    (ht : ∃ r, j.tokens = i.tokens ++ r) (h : SumsFit { D with inputs := j :: is }) :
    SumsFit { D with inputs := i :: is } := by
  obtain ⟨r, hr⟩ := ht
  refine sumsFit_mono h rfl ?_ ?_ ?_
  · simp [TxDesc.sumIn, hv]
  · intro id; simp [TxDesc.tokIn, hr]
  · intro k hk t ht
    rcases List.mem_cons.1 hk with rfl | hk
    · exact ⟨j, by simp, by rw [hr]; simp [ht]⟩
    · exact ⟨k, by simp [hk], ht⟩

/-! ## Frames -/

theorem frameBody_length {boxId : Bytes} {value : Nat} {toks : List (Bytes × Nat)} {i : Nat}
    (hb : boxId.length = 32) (ht : ∀ t ∈ toks, t.1.length = 32) :
    (frameBytes boxId (UInt64.ofNat value) (toks64 toks) i).length =
      43 + 40 * (frameTokens i toks).length ∧
    ∀ rest, field (frameBytes boxId (UInt64.ofNat value) (toks64 toks) i ++ rest) 42 1 =
      (frameTokens i toks).length := by
  have hmap : frameTokens i (toks64 toks) = toks64 (frameTokens i toks) := by
    rw [frameTokens_eq, frameTokens_eq, toks64, toks64, List.map_take, List.map_drop]
  have hl64 : (toks64 (frameTokens i toks)).length = (frameTokens i toks).length := by
    simp [toks64]
  have hle4 := frameTokens_length i toks
  have l8 := writeU64be_length (UInt64.ofNat value)
  have hfl : ((toks64 (frameTokens i toks)).flatMap (fun t => t.1 ++ writeU64be t.2)).length =
      40 * (frameTokens i toks).length := by
    rw [flatMap_tokens_length _ (by
      intro t h
      simp only [toks64, List.mem_map] at h
      obtain ⟨a, ha, rfl⟩ := h
      exact ht a (frameTokens_mem ha))]
    simp [toks64]
  have e0 : frameBytes boxId (UInt64.ofNat value) (toks64 toks) i =
      boxId ++ [UInt8.ofNat (framesFor (toks64 toks).length), UInt8.ofNat i] ++
      writeU64be (UInt64.ofNat value) ++ [UInt8.ofNat (frameTokens i toks).length] ++
      (toks64 (frameTokens i toks)).flatMap (fun t => t.1 ++ writeU64be t.2) := by
    simp only [frameBytes, hmap, hl64, amountBytes_eq]
  refine ⟨?_, fun rest => ?_⟩
  · rw [e0]
    simp only [List.length_append, hfl, l8, hb, List.length_cons, List.length_nil]
  · rw [field_of (pre := boxId ++ [UInt8.ofNat (framesFor (toks64 toks).length), UInt8.ofNat i] ++
      writeU64be (UInt64.ofNat value)) (a := [UInt8.ofNat (frameTokens i toks).length])
      (post := (toks64 (frameTokens i toks)).flatMap (fun t => t.1 ++ writeU64be t.2) ++ rest)
      (by rw [e0]; simp only [List.append_assoc]) (by simp [hb, l8]) (by rfl), be_one,
      UInt8.toNat_ofNat']
    omega

/-- What the command with a frame tells. -/
structure FrameSays (env : Env) (key : Bytes) (c : Coin) (i : Nat) (ext data : Bytes) : Prop where
  id : data.take 32 = c.id env
  frames : field data 32 1 = framesFor c.tokens.length
  index : field data 33 1 = i
  value : field data 34 8 = c.value
  count : field data 42 1 = (frameTokens i c.tokens).length
  toks : frameToks data = frameTokens i c.tokens
  len : data.length = 59 + 40 * (frameTokens i c.tokens).length + ext.length
  tag : TagValid env key data
  ext : field data (frameLen data + 16) ext.length = be ext

theorem frame_says (hwf : env.WF) {c : Coin} (h : c.Within) {i : Nat} (hi : i < 256) (ext : Bytes) :
    FrameSays env key c i ext (c.frame env key i ++ ext) := by
  have hb : (c.id env).length = 32 := hwf.blake_len _
  have ht : ∀ t ∈ c.tokens, t.1.length = 32 := fun t h1 => (h.tokens t h1).1
  obtain ⟨body, hbody⟩ : ∃ b, b = frameBytes (c.id env) (UInt64.ofNat c.value) (toks64 c.tokens) i :=
    ⟨_, rfl⟩
  obtain ⟨l1, l2⟩ := frameBody_length (value := c.value) (i := i) hb ht
  rw [← hbody] at l1 l2
  have e : c.frame env key i ++ ext = body ++ ((env.hmac key body).take 16 ++ ext) := by
    unfold Coin.frame
    rw [← hbody, List.append_assoc]
  have h16 : ((env.hmac key body).take 16).length = 16 := by
    rw [List.length_take, hwf.hmac_len]; decide
  have hle4 := frameTokens_length i c.tokens
  obtain ⟨f1, f2, f3, f4, f5⟩ := frameBytes_says (data := c.frame env key i ++ ext) hb ht
    (fun t h1 => (h.tokens t h1).2) (by have := h.count; omega) hi h.value (by rw [e, hbody])
  have f6 : field (c.frame env key i ++ ext) 42 1 = (frameTokens i c.tokens).length := by
    rw [e]; exact l2 _
  have hfl : frameLen (c.frame env key i ++ ext) = body.length := by
    unfold frameLen
    rw [f6, l1, Nat.mod_eq_of_lt (by omega)]
  refine ⟨f1, f2, f3, f4, f6, f5, ?_, ?_, ?_⟩
  · rw [e]; simp only [List.length_append, l1, h16]; omega
  · unfold TagValid
    rw [hfl, e, List.drop_left, List.take_left, List.take_left' h16]
  · rw [hfl, e, ← List.append_assoc, field_of (pre := body ++ (env.hmac key body).take 16) (a := ext)
      (post := []) (by simp) (by simp [h16]) (by rfl)]

/-- The input after `k` frames. -/
def Spec.Spend.part (env : Env) (s : Spend) (k : Nat) : InDesc :=
  ⟨s.coin.id env, s.coin.value, framesFor s.coin.tokens.length, k, s.coin.tokens.take (4 * k),
    s.ext.length, []⟩

/-- The whole input. -/
def Spec.Spend.desc (env : Env) (s : Spend) : InDesc :=
  ⟨s.coin.id env, s.coin.value, framesFor s.coin.tokens.length, framesFor s.coin.tokens.length,
    s.coin.tokens, s.ext.length, s.ext⟩

/-- The command with frame number `k`. -/
def Spec.Spend.frameCmd (env : Env) (key : Bytes) (rnd : Rnd) (s : Spend) (k : Nat) : SignCmd :=
  ⟨0x12, s.coin.frame env key k ++ (if k = 0 then num 4 s.ext.length else []), rnd⟩

theorem framesFor_lt {c : Coin} (h : c.Within) : framesFor c.tokens.length < 256 ∧
    0 < framesFor c.tokens.length ∧ c.tokens.length ≤ 4 * framesFor c.tokens.length := by
  have := h.count
  unfold framesFor
  split <;> omega

theorem extSize_field (hwf : env.WF) {s : Spend} (h : s.coin.Within) (he : s.ext.length < 2 ^ 32) :
    let data := s.coin.frame env key 0 ++ num 4 s.ext.length
    field data (frameLen data + 16) 4 = s.ext.length := by
  intro data
  have hf := frame_says (key := key) hwf h (i := 0) (by decide) (num 4 s.ext.length)
  have := hf.ext
  rw [num_length, be_num _ _ (by omega)] at this
  exact this

/-- The first frame starts the input. -/
theorem frame_first (hwf : env.WF) {s : Spend} (h : s.coin.Within) (he : s.ext.length < 2 ^ 32)
    (D : TxDesc) (rnd : Rnd) :
    D.step (.cmd (s.frameCmd env key rnd 0).sub (s.frameCmd env key rnd 0).data) =
      { D with inputs := s.part env 1 :: D.inputs } := by
  have hf := frame_says (key := key) hwf h (i := 0) (by decide) (num 4 s.ext.length)
  show D.frame (s.coin.frame env key 0 ++ num 4 s.ext.length) = _
  unfold TxDesc.frame
  rw [if_pos hf.index]
  have hx : 43 + 40 * field (s.coin.frame env key 0 ++ num 4 s.ext.length) 42 1 % 256 + 16 =
    frameLen (s.coin.frame env key 0 ++ num 4 s.ext.length) + 16 := rfl
  rw [hx, extSize_field hwf h he, hf.id, hf.value, hf.frames, hf.toks, frameTokens_eq]
  rfl

/-- The other frames continue it. -/
theorem frame_more (hwf : env.WF) {s : Spend} (h : s.coin.Within) {k : Nat} (hk : 0 < k) (hk2 : k < 256)
    {D : TxDesc} {is : List InDesc} (rnd : Rnd) :
    ({ D with inputs := s.part env k :: is } : TxDesc).step
        (.cmd (s.frameCmd env key rnd k).sub (s.frameCmd env key rnd k).data) =
      { D with inputs := s.part env (k + 1) :: is } := by
  have hf := frame_says (key := key) hwf h hk2 []
  have e : (s.frameCmd env key rnd k).data = s.coin.frame env key k ++ [] := by
    unfold Spend.frameCmd
    rw [if_neg (by omega)]
  show TxDesc.frame _ (s.frameCmd env key rnd k).data = _
  rw [e]
  unfold TxDesc.frame
  rw [hf.index, if_neg (by omega), hf.toks, frameTokens_eq, Nat.mul_comm k 4]
  have : s.coin.tokens.take (4 * k) ++ (s.coin.tokens.drop (4 * k)).take 4 =
      s.coin.tokens.take (4 * (k + 1)) := by
    rw [← List.take_add]; congr 1
  simp only [TxDesc.onInput, Spend.part, this]

theorem range_succ_map {β : Type} (f : Nat → β) (n : Nat) :
    (List.range (n + 1)).map f = (List.range n).map f ++ [f n] := by
  rw [List.range_succ, List.map_append]; rfl

/-- What all frames up to `n` describe. -/
theorem frames_after (hwf : env.WF) {s : Spend} (h : s.coin.Within) (he : s.ext.length < 2 ^ 32)
    (D : TxDesc) (rnd : Rnd) (n : Nat) (hn : n < 256) :
    D.after ((List.range (n + 1)).map (s.frameCmd env key rnd)) =
      { D with inputs := s.part env (n + 1) :: D.inputs } := by
  induction n with
  | zero => exact frame_first hwf h he D rnd
  | succ n ih =>
    rw [range_succ_map, after_append, ih (by omega)]
    exact frame_more hwf h (by omega) hn rnd

theorem mod40 {x : Nat} (h : x ≤ 4) : 40 * x % 256 % 40 = 0 := by
  rw [Nat.mod_eq_of_lt (a := 40 * x) (by omega), Nat.mul_mod_right]

/-- When the first frame fits. -/
theorem frame_first_fits (hwf : env.WF) {s : Spend} (h : s.coin.Within) (he : s.ext.length < 2 ^ 32)
    (D : TxDesc) (rnd : Rnd) :
    (s.frameCmd env key rnd 0).data.length ≤ 255 ∧
    (FrameFits env key D (s.frameCmd env key rnd 0).data ↔
      D.table.length = D.nTok ∧ SumsFit { D with inputs := s.part env 1 :: D.inputs } ∧
      D.inputs.length < D.nIn ∧ (∀ i ∈ D.inputs, i.complete) ∧ s.ext.length ≠ 1 ∧
      s.ext.length ≤ 32768) := by
  have hf := frame_says (key := key) hwf h (i := 0) (by decide) (num 4 s.ext.length)
  have e : (s.frameCmd env key rnd 0).data = s.coin.frame env key 0 ++ num 4 s.ext.length := rfl
  have hle4 := frameTokens_length 0 s.coin.tokens
  have hstep : D.frame (s.coin.frame env key 0 ++ num 4 s.ext.length) = _ :=
    frame_first hwf h he D rnd
  obtain ⟨_, hpos, _⟩ := framesFor_lt h
  rw [e]
  refine ⟨by rw [hf.len, num_length]; omega, ?_⟩
  have hleast : leastLen 0x21 0x12 (s.coin.frame env key 0 ++ num 4 s.ext.length) =
      63 + 40 * (frameTokens 0 s.coin.tokens).length := by
    show 59 + 40 * field _ 42 1 % 256 + (if field _ 33 1 = 0 then 4 else 0) = _
    rw [hf.index, if_pos rfl, hf.count]
    omega
  unfold FrameFits
  rw [hstep, hleast, hf.index, if_pos rfl, hf.count, hf.frames, extSize_field hwf h he, hf.len,
    num_length]
  constructor
  · rintro ⟨_, _, _, h1, h2, h3, h4, _, h5⟩
    exact ⟨h1, h2, h3, h4, h5⟩
  · rintro ⟨h1, h2, h3, h4, h5⟩
    exact ⟨by omega, mod40 hle4, hf.tag, h1, h2, h3, h4, hpos, h5⟩

/-- When another frame fits. -/
theorem frame_more_fits (hwf : env.WF) {s : Spend} (h : s.coin.Within) {k : Nat} (hk : 0 < k)
    (hk2 : k < framesFor s.coin.tokens.length) {D : TxDesc} {is : List InDesc} (rnd : Rnd) :
    (s.frameCmd env key rnd k).data.length ≤ 255 ∧
    (FrameFits env key { D with inputs := s.part env k :: is } (s.frameCmd env key rnd k).data ↔
      D.table.length = D.nTok ∧ SumsFit { D with inputs := s.part env (k + 1) :: is }) := by
  obtain ⟨hlt, hpos, _⟩ := framesFor_lt h
  have hf := frame_says (key := key) hwf h (i := k) (by omega) []
  have e : (s.frameCmd env key rnd k).data = s.coin.frame env key k ++ [] := by
    unfold Spend.frameCmd
    rw [if_neg (by omega)]
  have hle4 := frameTokens_length k s.coin.tokens
  have hstep : TxDesc.frame { D with inputs := s.part env k :: is } (s.frameCmd env key rnd k).data = _ :=
    frame_more hwf h hk (by omega) rnd
  rw [e] at hstep ⊢
  refine ⟨by rw [hf.len, List.length_nil]; omega, ?_⟩
  have hleast : leastLen 0x21 0x12 (s.coin.frame env key k ++ []) =
      59 + 40 * (frameTokens k s.coin.tokens).length := by
    show 59 + 40 * field _ 42 1 % 256 + (if field _ 33 1 = 0 then 4 else 0) = _
    rw [hf.index, if_neg (by omega), hf.count]
    omega
  unfold FrameFits
  rw [hstep, hleast, hf.index, if_neg (by omega), hf.count, hf.len, hf.id, List.length_nil]
  constructor
  · rintro ⟨_, _, _, h1, h2, _⟩
    exact ⟨h1, h2⟩
  · rintro ⟨h1, h2⟩
    exact ⟨by omega, mod40 hle4, hf.tag, h1, h2, _, _, rfl, rfl, hk2, rfl⟩

/-- When all frames up to `n` fit. -/
theorem frames_fit (hwf : env.WF) {s : Spend} (h : s.coin.Within) (he : s.ext.length < 2 ^ 32)
    {D : TxDesc} (hD : 0 < D.nIn) (rnd : Rnd) (n : Nat) (hn : n < framesFor s.coin.tokens.length) :
    FitsAll env key D ((List.range (n + 1)).map (s.frameCmd env key rnd)) ↔
      D.table.length = D.nTok ∧ SumsFit { D with inputs := s.part env (n + 1) :: D.inputs } ∧
      D.inputs.length < D.nIn ∧ (∀ i ∈ D.inputs, i.complete) ∧ s.ext.length ≠ 1 ∧
      s.ext.length ≤ 32768 := by
  obtain ⟨hlt, _, _⟩ := framesFor_lt h
  have hfits : ∀ D : TxDesc, ∀ c : SignCmd, c.sub = 0x12 → 0 < D.nIn →
      (FitsAll env key D [c] ↔ c.data.length ≤ 255 ∧ FrameFits env key D c.data) := by
    rintro D ⟨sub, data, rnd⟩ hs hD
    simp only at hs
    subst hs
    constructor
    · rintro ⟨_, h1, ⟨_, h2⟩, _⟩
      exact ⟨h1, h2⟩
    · rintro ⟨h1, h2⟩
      exact ⟨⟨(by decide : (0x10 : UInt8) ≤ 0x12), (by decide : (0x12 : UInt8) ≤ 0x1A)⟩, h1, ⟨hD, h2⟩, trivial⟩
  induction n with
  | zero =>
    obtain ⟨f1, f2⟩ := frame_first_fits (key := key) hwf h he D rnd
    show FitsAll env key D [s.frameCmd env key rnd 0] ↔ _
    rw [hfits D _ rfl hD, f2]
    exact ⟨fun g => g.2, fun g => ⟨f1, g⟩⟩
  | succ n ih =>
    obtain ⟨f1, f2⟩ := frame_more_fits (key := key) hwf h (k := n + 1) (by omega) hn (D := D)
      (is := D.inputs) rnd
    have ih' := ih (by omega)
    rw [range_succ_map, fitsAll_append]
    refine (and_congr_left' ih').trans ?_
    rw [frames_after hwf h he D rnd n (by omega), hfits _ _ rfl (by exact hD), f2]
    constructor
    · rintro ⟨⟨g1, _, g3, g4, g5⟩, _, _, g6⟩
      exact ⟨g1, g6, g3, g4, g5⟩
    · rintro ⟨g1, g2, g3, g4, g5⟩
      refine ⟨⟨g1, sumsFit_prefix (j := s.part env (n + 1 + 1)) rfl ?_ g2, g3, g4, g5⟩, f1, g1, g2⟩
      refine ⟨(s.coin.tokens.drop (4 * (n + 1))).take 4, ?_⟩
      show s.coin.tokens.take (4 * (n + 1 + 1)) = s.coin.tokens.take (4 * (n + 1)) ++ _
      rw [← List.take_add]; congr 1

/-! ## Context extension -/

/-- A chunk of the context extension fits. -/
def ExtOk (i : InDesc) (data : Bytes) : Prop :=
  i.got = i.frames ∧ i.ext.length < i.extSize ∧ i.ext.length + data.length ≤ i.extSize

/-- More context extension. -/
def Spec.InDesc.addExt (i : InDesc) (data : Bytes) : InDesc := { i with ext := i.ext ++ data }

theorem ext_all (b : Bytes) : ∀ i : InDesc, i.got = i.frames → i.ext.length + b.length = i.extSize →
    ChunksOk ExtOk InDesc.addExt i (groups 255 b) ∧
      (groups 255 b).foldl InDesc.addExt i = { i with ext := i.ext ++ b } := by
  induction b using groups_ind (n := 255) (by decide) with
  | h0 =>
    intro i _ _
    rw [groups_nil, List.append_nil]
    exact ⟨trivial, rfl⟩
  | h1 b hb ih =>
    intro i hg hl
    have hp : 0 < b.length := List.length_pos_iff.2 hb
    rw [groups_cons (by decide) hb]
    obtain ⟨i1, i2⟩ := ih (i.addExt (b.take 255)) hg (by
      simp only [InDesc.addExt, List.length_append, List.length_take, List.length_drop]
      omega)
    refine ⟨⟨by rw [List.length_take]; omega, ⟨hg, by omega, ?_⟩, i1⟩, ?_⟩
    · rw [List.length_take]; omega
    · rw [List.foldl_cons, i2]
      simp [InDesc.addExt]

theorem sumsFit_ext {D : TxDesc} {i : InDesc} {is : List InDesc} (b : Bytes) :
    SumsFit { D with inputs := { i with ext := b } :: is } ↔ SumsFit { D with inputs := i :: is } := by
  constructor
  · exact sumsFit_prefix rfl ⟨[], by simp⟩
  · exact sumsFit_prefix rfl ⟨[], by simp⟩

/-- When the commands of an input fit, and what they describe. -/
theorem spend_fits (hwf : env.WF) {s : Spend} (h : s.coin.Within) (he : s.ext.length < 2 ^ 32)
    {D : TxDesc} (hD : 0 < D.nIn) (rnd : Rnd) :
    (FitsAll env key D (s.cmds env key rnd) ↔
      D.table.length = D.nTok ∧ SumsFit { D with inputs := s.desc env :: D.inputs } ∧
      D.inputs.length < D.nIn ∧ (∀ i ∈ D.inputs, i.complete) ∧ s.ext.length ≠ 1 ∧
      s.ext.length ≤ 32768) ∧
    D.after (s.cmds env key rnd) = { D with inputs := s.desc env :: D.inputs } := by
  obtain ⟨hlt, hpos, hall⟩ := framesFor_lt h
  obtain ⟨n, hn⟩ : ∃ n, framesFor s.coin.tokens.length = n + 1 := ⟨_, (Nat.succ_pred_eq_of_pos hpos).symm⟩
  have e : s.cmds env key rnd = (List.range (n + 1)).map (s.frameCmd env key rnd) ++
      (groups 255 s.ext).map (fun b => ⟨0x13, b, rnd⟩) := by
    unfold Spend.cmds
    rw [hn]
    rfl
  have hpart : s.part env (n + 1) = { s.desc env with ext := [] } := by
    unfold Spend.part Spend.desc
    rw [hn, List.take_of_length_le (by omega)]
  obtain ⟨x1, x2⟩ := ext_all s.ext (s.part env (n + 1)) (by simp [Spend.part, hn]) (by simp [Spend.part])
  obtain ⟨y1, y2⟩ := sign_chunks (env := env) (key := key) (sub := 0x13) (ok := ExtOk) (step := InDesc.addExt)
    (put := fun i => { D with inputs := i :: D.inputs }) (by decide)
    (fun i d h => ⟨hD, _, _, rfl, h⟩) (fun i d => rfl) rnd _ _ x1
  have hfin : (groups 255 s.ext).foldl InDesc.addExt (s.part env (n + 1)) = s.desc env := by
    rw [x2, hpart]; rfl
  rw [hfin] at y2
  rw [e]
  refine ⟨?_, ?_⟩
  · rw [fitsAll_append, frames_fit hwf h he hD rnd n (by omega), frames_after hwf h he D rnd n (by omega),
      hpart, sumsFit_ext]
    rw [hpart] at y1
    exact ⟨fun g => g.1, fun g => ⟨g, y1⟩⟩
  · rw [after_append, frames_after hwf h he D rnd n (by omega)]
    exact y2

/-- The commands of all inputs fit. -/
theorem spends_fit (hwf : env.WF) (rnd : Rnd) (ss : List Spend) : ∀ D : TxDesc, 0 < D.nIn →
    D.table.length = D.nTok → (∀ i ∈ D.inputs, i.complete) → D.inputs.length + ss.length ≤ D.nIn →
    (∀ s ∈ ss, s.coin.Within ∧ s.ext.length ≠ 1 ∧ s.ext.length ≤ 32768) →
    SumsFit { D with inputs := (ss.map (Spend.desc env)).reverse ++ D.inputs } →
    FitsAll env key D (ss.flatMap (Spend.cmds env key rnd)) ∧
      D.after (ss.flatMap (Spend.cmds env key rnd)) =
        { D with inputs := (ss.map (Spend.desc env)).reverse ++ D.inputs } := by
  induction ss with
  | nil => intro D _ _ _ _ _ _; exact ⟨trivial, rfl⟩
  | cons s ss ih =>
    intro D hD ht hc hl hs hsum
    obtain ⟨h1, h2, h3⟩ := hs s (by simp)
    obtain ⟨f1, f2⟩ := spend_fits (key := key) hwf h1 (by omega) hD rnd
    have hsum' : SumsFit { D with inputs := (ss.map (Spend.desc env)).reverse ++
        (s.desc env :: D.inputs) } := by simpa using hsum
    simp only [List.length_cons] at hl
    obtain ⟨g1, g2⟩ := ih { D with inputs := s.desc env :: D.inputs } hD ht (by
      intro i hi
      rcases List.mem_cons.1 hi with rfl | hi
      · simp [InDesc.complete, Spend.desc]
      · exact hc i hi) (by simp only [List.length_cons]; omega) (fun s h => hs s (by simp [h])) hsum'
    rw [List.flatMap_cons, fitsAll_append, after_append, f2]
    refine ⟨⟨f1.2 ⟨ht, sumsFit_tail hsum', by omega, hc, h2, h3⟩, g1⟩, ?_⟩
    rw [g2]; simp

end Ergo
