import Verif.Proof.Frame
import Verif.Proof.Toy
import Verif.Model.Device
/-!
# C10, C11, C42: attested input frames
-/
namespace Ergo
open Spec

/-! ## C10 -/

/-- C10: the number of frames announced when the box is complete. -/
theorem C10_announced (env : Env) (x y : AttestCtx) (data : Bytes)
    (h : x.checkFinished env = .ok y data) (hf : x.st.c.state = .finished) :
    data = [UInt8.ofNat (framesFor x.st.s.length)] ∧ y.state = .finished ∧ y.st.s = x.st.s := by
  unfold AttestCtx.checkFinished at h
  rw [if_neg (by simp [hf])] at h
  simp only [BoxSt.idHash, hf, ne_eq, not_true_eq_false, if_false, framesCount_eq,
    AttestRes.ok.injEq] at h
  obtain ⟨rfl, rfl⟩ := h
  exact ⟨rfl, rfl, rfl⟩

/-- C10: frame `i` of a finished attestation: exactly the specified bytes, then 16 tag bytes; the
reply fits an APDU; an index outside `0 … frames-1` is refused. -/
theorem C10_frame (env : Env) (hwf : env.WF) (key : Bytes) (x : AttestCtx) (i : UInt8)
    (hx : x.state = .finished) (hb : x.boxId.length = 32) (ht : ∀ t ∈ x.st.s, t.1.length = 32) :
    (i.toNat < framesFor x.st.s.length →
      x.getFrame env key [i] = .ok x
        (frameBytes x.boxId x.st.c.value x.st.s i.toNat ++
          (env.hmac key (frameBytes x.boxId x.st.c.value x.st.s i.toNat)).take 16) ∧
      (frameBytes x.boxId x.st.c.value x.st.s i.toNat ++
          (env.hmac key (frameBytes x.boxId x.st.c.value x.st.s i.toNat)).take 16).length ≤ 255) ∧
    (framesFor x.st.s.length ≤ i.toNat → x.getFrame env key [i] = .err Sw.badFrameIndex) := by
  constructor
  · intro hi
    have hl := frameBytes_length x.boxId x.st.c.value x.st.s i.toNat hb ht
    have h4 := frameTokens_length i.toNat x.st.s
    refine ⟨?_, ?_⟩
    · unfold AttestCtx.getFrame
      rw [if_neg (by simp [hx])]
      simp only [bufU8, ne_eq, not_true_eq_false, if_false, framesCount_eq]
      rw [if_neg (by omega)]
      simp only [frameBody_eq]
    · simp only [List.length_append, hl, List.length_take, hwf.hmac_len]
      omega
  · intro hi
    unfold AttestCtx.getFrame
    rw [if_neg (by simp [hx])]
    simp only [bufU8, ne_eq, not_true_eq_false, if_false, framesCount_eq]
    rw [if_pos (by omega)]

/-- C10: the tokens of all frames, in order, are the tokens of the box. -/
theorem C10_concat {α : Type} : ∀ l : List α,
    (List.range (framesFor l.length)).flatMap (fun i => frameTokens i l) = l
  | [] => by simp [framesFor, frameTokens]
  | [a] => by simp [framesFor, frameTokens, List.range, List.range.loop]
  | [a, b] => by simp [framesFor, frameTokens, List.range, List.range.loop]
  | [a, b, c] => by simp [framesFor, frameTokens, List.range, List.range.loop]
  | [a, b, c, d] => by simp [framesFor, frameTokens, List.range, List.range.loop]
  | a :: b :: c :: d :: e :: l => by
    have ih := C10_concat (e :: l)
    have h : framesFor (a :: b :: c :: d :: e :: l).length = framesFor (e :: l).length + 1 := by
      simp only [framesFor, List.length_cons]
      rw [if_neg (by omega), if_neg (by omega)]
      omega
    rw [h, List.range_succ_eq_map, List.flatMap_cons, List.flatMap_map]
    have h0 : frameTokens 0 (a :: b :: c :: d :: e :: l) = [a, b, c, d] := rfl
    have hs : ∀ i, frameTokens (i + 1) (a :: b :: c :: d :: e :: l) = frameTokens i (e :: l) :=
      fun _ => rfl
    simp only [h0, hs, Nat.succ_eq_add_one]
    rw [ih]
    rfl

/-- An attestation of a box with 5 tokens. -/
def exAttest : AttestCtx :=
  { boxId := List.replicate 32 0xAB
    st := ⟨⟨.hashFinalized, 1000, 0, 0, 0, 0, .tree⟩, [], (List.range 5).map
      (fun i => (List.replicate 32 (UInt8.ofNat i), UInt64.ofNat (i + 1)))⟩
    token := 0, index := 0, session := 1, state := .finished }

example : exAttest.state = .finished ∧ exAttest.boxId.length = 32 ∧
    (∀ t ∈ exAttest.st.s, t.1.length = 32) ∧ framesFor exAttest.st.s.length = 2 ∧
    (frameTokens 1 exAttest.st.s) = [(List.replicate 32 4, 5)] := by decide +kernel

/-! ## C42 -/

/-- C42: the length of the authenticated part is 0 (refused) or leaves room for the whole tag
inside the payload. -/
theorem C42_length (d : Bytes) :
    frameDataLen d = 0 ∨ (frameDataLen d).toNat + 16 ≤ d.length := by
  unfold frameDataLen
  simp only
  split
  · left; rfl
  · split
    · left; rfl
    · right; omega

/-- C42: if a frame is parsed from a payload of at most 255 bytes then all its fields lie in the
authenticated bytes, which are exactly the header and the tokens (no wrap-around), the tag is the 16
bytes that follow, and the extension size is behind the tag. -/
theorem C42_parse (d : Bytes) (f : Frame) (hd : d.length ≤ 255) (h : frameParse d = some f) :
    (frameDataLen d).toNat = 43 + f.tokens.length ∧
    ∃ tag rest n, d = d.take (frameDataLen d).toNat ++ tag ++ rest ∧ tag.length = 16 ∧
      d.take (frameDataLen d).toNat =
        f.boxId ++ [f.count, f.index] ++ writeU64be f.value ++ [n] ++ f.tokens ∧
      f.boxId.length = 32 ∧ f.tokens.length = 40 * n.toNat % 256 ∧
      (f.index = 0 → ∃ e r, f.ext = some e ∧ rest = writeU32be e ++ r) := by
  obtain ⟨n, rest, hd', hb, ht, hr, hext, _⟩ := frameParse_some h
  have hmul : (n * 40).toNat = n.toNat * 40 % 256 := by rw [UInt8.toNat_mul]; rfl
  have hlen : d.length = 43 + f.tokens.length + rest.length := by
    rw [hd']
    simp only [List.length_append, hb, writeU64be_length, List.length_cons, List.length_nil]
    omega
  have hn : d.getD 42 0 = n := by
    rw [hd', List.getD_eq_getElem?_getD,
      List.getElem?_append_right (by omega), hb, List.getElem?_append_right (by simp),
      List.getElem?_append_right (by simp [writeU64be_length])]
    simp [writeU64be_length]
  have hsmall : f.tokens.length + 43 < 256 := by omega
  have hdl : (frameDataLen d).toNat = 43 + f.tokens.length := by
    unfold frameDataLen
    have e : (d.getD 42 0 * 40 + 43).toNat = 43 + f.tokens.length := by
      rw [hn, UInt8.toNat_add, ← ht]; show (_ + 43) % 256 = _; omega
    simp only
    rw [if_neg (by omega), if_neg (by rw [e]; omega), e]
  have e : d = (f.boxId ++ [f.count, f.index] ++ writeU64be f.value ++ [n] ++ f.tokens) ++ rest := by
    rw [hd']; simp
  have el : (f.boxId ++ [f.count, f.index] ++ writeU64be f.value ++ [n] ++ f.tokens).length =
      43 + f.tokens.length := by
    simp only [List.length_append, hb, writeU64be_length, List.length_cons, List.length_nil]
  have etake : d.take (43 + f.tokens.length) =
      f.boxId ++ [f.count, f.index] ++ writeU64be f.value ++ [n] ++ f.tokens := by
    conv_lhs => rw [e]
    rw [List.take_left' el]
  refine ⟨hdl, rest.take 16, rest.drop 16, n, ?_, ?_, ?_, hb, ?_, hext⟩
  · rw [hdl, etake, List.append_assoc, List.take_append_drop]
    exact e
  · simp only [List.length_take]; omega
  · rw [hdl, etake]
  · rw [ht, hmul, Nat.mul_comm]

/-- C42, use in the signing session: a frame that is accepted (in any state) carries a tag equal to
the truncated HMAC of exactly the header and tokens that are then used. -/
theorem C42_authenticated (env : Env) (key d : Bytes) (p q : P2pk) (hd : d.length ≤ 255)
    (h : opFrame env key p d = .ok q) :
    ∃ f tag rest n, frameParse d = some f ∧
      d = (f.boxId ++ [f.count, f.index] ++ writeU64be f.value ++ [n] ++ f.tokens) ++ tag ++ rest ∧
      tag.length = 16 ∧
      tag = (env.hmac key
        (f.boxId ++ [f.count, f.index] ++ writeU64be f.value ++ [n] ++ f.tokens)).take 16 := by
  unfold opFrame at h
  simp only at h
  split at h
  · simp at h
  · split at h
    · simp at h
    · rename_i hmac
      cases hp : frameParse d with
      | none => rw [hp] at h; simp at h
      | some f =>
        obtain ⟨hl, tag, rest, n, e1, e2, e3, _, _⟩ := C42_parse d f hd hp
        refine ⟨f, tag, rest, n, rfl, by rw [← e3]; exact e1, e2, ?_⟩
        rw [← e3]
        have := not_not.1 hmac
        rw [this]
        have e4 : d.drop (frameDataLen d).toNat = tag ++ rest := by
          have hle : (frameDataLen d).toNat ≤ d.length := by
            rcases C42_length d with h0 | h0
            · rw [h0]; simp
            · omega
          generalize (frameDataLen d).toNat = L at *
          have := congrArg (List.drop L) e1
          rw [List.append_assoc, List.drop_left' (by simp only [List.length_take]; omega)] at this
          exact this
        rw [e4, List.take_left' e2]

/-- A frame with 2 tokens, its tag and an extension size. -/
def exFrame : Bytes :=
  List.replicate 32 1 ++ [1, 0] ++ writeU64be 77 ++ [2] ++
    (List.replicate 32 5 ++ writeU64be 10) ++ (List.replicate 32 6 ++ writeU64be 20) ++
    List.replicate 16 9 ++ writeU32be 3

example : exFrame.length ≤ 255 ∧ frameDataLen exFrame = 123 ∧
    frameParse exFrame = some ⟨List.replicate 32 1, 1, 0, 77,
      (List.replicate 32 5 ++ writeU64be 10) ++ (List.replicate 32 6 ++ writeU64be 20),
      some 3⟩ := by decide +kernel

/-! ## C11 -/

/-- C11: a frame built by the device, followed by its tag (any 16 bytes) and for frame 0 by an
extension size, is parsed to exactly the data it was built from. -/
theorem C11_parse (boxId : Bytes) (value : UInt64) (tokens : List (Bytes × UInt64)) (i : UInt8)
    (tag rest : Bytes) (ext : UInt32) (hb : boxId.length = 32) (ht : ∀ t ∈ tokens, t.1.length = 32)
    (htag : tag.length = 16) :
    frameParse (frameBytes boxId value tokens i.toNat ++ tag ++
        (if i = 0 then writeU32be ext ++ rest else rest)) =
      some ⟨boxId, UInt8.ofNat (framesFor tokens.length), i, value,
        (frameTokens i.toNat tokens).flatMap (fun t => t.1 ++ amountBytes t.2),
        if i = 0 then some ext else none⟩ ∧
    (frameDataLen (frameBytes boxId value tokens i.toNat ++ tag ++
        (if i = 0 then writeU32be ext ++ rest else rest))).toNat =
      (frameBytes boxId value tokens i.toNat).length := by
  have hi : UInt8.ofNat i.toNat = i := by rw [← UInt8.toNat_inj]; simp
  have h4 := frameTokens_length i.toNat tokens
  have hl := flatMap_tokens_length (frameTokens i.toNat tokens) (fun t h => ht t (frameTokens_mem h))
  have hfl := frameBytes_length boxId value tokens i.toNat hb ht
  generalize hR : (if i = 0 then writeU32be ext ++ rest else rest) = R
  have hshape : frameBytes boxId value tokens i.toNat ++ tag ++ R =
      boxId ++ (UInt8.ofNat (framesFor tokens.length) :: i :: (writeU64be value ++
        (UInt8.ofNat (frameTokens i.toNat tokens).length ::
          ((frameTokens i.toNat tokens).flatMap (fun t => t.1 ++ writeU64be t.2) ++ (tag ++ R))))) := by
    simp [frameBytes, hi, amountBytes_eq]
  have hn : (UInt8.ofNat (frameTokens i.toNat tokens).length * 40).toNat =
      40 * (frameTokens i.toNat tokens).length := by
    rw [UInt8.toNat_mul, UInt8.toNat_ofNat']
    show _ % _ * 40 % 256 = _
    omega
  constructor
  · rw [hshape]
    unfold frameParse
    rw [bufBytes_append' (n := idLen) _ hb]
    simp only [bufU8, bufU64_write, hn]
    rw [if_neg (by simp only [List.length_append, hl, htag]; omega), List.take_left' hl]
    have hd : ((frameTokens i.toNat tokens).flatMap (fun t => t.1 ++ writeU64be t.2) ++
        (tag ++ R)).drop (40 * (frameTokens i.toNat tokens).length + 16) = R := by
      rw [← List.append_assoc]
      apply List.drop_left'
      simp only [List.length_append, hl, htag]
    rw [hd]
    simp only [amountBytes_eq]
    by_cases h0 : i = 0
    · rw [if_pos h0] at hR
      simp only [← hR, bufU32_write, h0, if_true]
    · simp only [h0, if_false]
  · have hget : (frameBytes boxId value tokens i.toNat ++ tag ++ R).getD 42 0 =
        UInt8.ofNat (frameTokens i.toNat tokens).length := by
      rw [hshape, List.getD_eq_getElem?_getD, List.getElem?_append_right (by omega), hb]
      rfl
    unfold frameDataLen
    have e : (UInt8.ofNat (frameTokens i.toNat tokens).length * 40 + 43).toNat =
        43 + 40 * (frameTokens i.toNat tokens).length := by
      rw [UInt8.toNat_add, hn]; show (_ + 43) % 256 = _; omega
    simp only [hget]
    rw [if_neg (by simp only [List.length_append, hfl, htag]; omega),
      if_neg (by simp only [List.length_append, hfl, htag, e]; omega), e, hfl]

/-- C11: fed back to a signing session with the same session key, a device-made frame passes the
authenticity check and is processed with exactly the data it was built from. -/
theorem C11_accepted (env : Env) (hwf : env.WF) (key : Bytes) (p : P2pk) (boxId : Bytes)
    (value : UInt64) (tokens : List (Bytes × UInt64)) (i : UInt8) (rest : Bytes) (ext : UInt32)
    (hb : boxId.length = 32) (ht : ∀ t ∈ tokens, t.1.length = 32) :
    opFrame env key p (frameBytes boxId value tokens i.toNat ++
        (env.hmac key (frameBytes boxId value tokens i.toNat)).take 16 ++
        (if i = 0 then writeU32be ext ++ rest else rest)) =
      (let toks := (frameTokens i.toNat tokens).flatMap (fun t => t.1 ++ amountBytes t.2)
       if i = 0 then
         match p.addInput boxId value (UInt8.ofNat (framesFor tokens.length)) ext with
         | .ok p => p.addInputTokens boxId i toks
         | r => r
       else p.addInputTokens boxId i toks) := by
  have htag : ((env.hmac key (frameBytes boxId value tokens i.toNat)).take 16).length = 16 := by
    simp [hwf.hmac_len]
  obtain ⟨h1, h2⟩ := C11_parse boxId value tokens i
    ((env.hmac key (frameBytes boxId value tokens i.toNat)).take 16) rest ext hb ht htag
  have hfl := frameBytes_length boxId value tokens i.toNat hb ht
  unfold opFrame
  simp only [h1, h2]
  rw [if_neg (by omega), if_neg]
  · by_cases h0 : i = 0
    · simp only [h0, if_true]
      rfl
    · simp only [h0, if_false]
  · rw [not_not, List.append_assoc, List.take_left' rfl, List.drop_left' rfl, List.take_left' htag]

example : (List.replicate 32 (1 : UInt8)).length = 32 ∧
    frameParse (frameBytes (List.replicate 32 1) 77
      [(List.replicate 32 5, 10), (List.replicate 32 6, 20)] 0 ++ List.replicate 16 9 ++
      writeU32be 3) = frameParse exFrame := by decide +kernel

end Ergo
