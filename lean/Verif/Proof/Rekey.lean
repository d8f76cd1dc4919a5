import Verif.Spec.Mac
import Verif.Proof.Inv
import Verif.Proof.Accepted
/-!
# The same step with another session key and another authentication function
-/
namespace Ergo
open Spec

/-- An environment that differs in the authentication function only. -/
abbrev Env.mac (env : Env) (H : Bytes → Bytes → Bytes) : Env := { env with hmac := H }

theorem sameButMac_eq {env env' : Env} (h : SameButMac env env') : env' = env.mac env'.hmac := by
  obtain ⟨b, hm, d, p, m, n, v⟩ := env
  obtain ⟨b', hm', d', p', m', n', v'⟩ := env'
  obtain ⟨e1, e2, e3, e4, e5, e6⟩ := h
  simp only at e1 e2 e3 e4 e5 e6
  subst e1 e2 e3 e4 e5 e6
  rfl

/-- The device with another session key. -/
abbrev Device.rekey (d : Device) (k : Bytes) : Device := { d with sessionKey := k }
/-- The same for the result of a step. -/
def rekeyR (k : Bytes) (r : Device × Reply) : Device × Reply := (r.1.rekey k, r.2)

theorem rekeyR_ite {k : Bytes} {c : Prop} [Decidable c] {a a' b b' : Device × Reply} (h1 : a' = rekeyR k a)
    (h2 : b' = rekeyR k b) : (if c then a' else b') = rekeyR k (if c then a else b) := by
  by_cases hc : c
  · rw [if_pos hc, if_pos hc]; exact h1
  · rw [if_neg hc, if_neg hc]; exact h2

variable {env : Env} {H : Bytes → Bytes → Bytes} {k : Bytes}

theorem genPublic_mac (path : List UInt32) : (env.mac H).genPublic path = env.genPublic path := rfl
theorem address_mac (n : UInt8) (pub : Bytes) :
    addressFromPubkey (env.mac H) n pub = addressFromPubkey env n pub := rfl
theorem p2pkInit_mac (path : List UInt32) (n : UInt8) (keys : Nat → Bytes) :
    p2pkInit (env.mac H) path n keys = p2pkInit env path n keys := by
  have e : ∀ fuel i s, schnorrInitLoop (env.mac H) s keys fuel i = schnorrInitLoop env s keys fuel i := by
    intro fuel
    induction fuel with
    | zero => intros; rfl
    | succ n ih =>
      intro i s
      rw [schnorrInitLoop, schnorrInitLoop, ih]
      rfl
  unfold p2pkInit schnorrInit
  simp only [e]
  rfl
theorem sendResponse_mac (p : P2pk) : p.sendResponse (env.mac H) = p.sendResponse env := rfl

theorem extPubKey_rekey (d : Device) (data : Bytes) (t : Bool) :
    (d.rekey k).extPubKey (env.mac H) data t = rekeyR k (d.extPubKey env data t) := by
  unfold Device.extPubKey
  refine rekeyR_ite rfl ?_
  simp only
  cases parsePathToken data t with
  | error e => rfl
  | ok x =>
    obtain ⟨path, token⟩ := x
    refine rekeyR_ite rfl ?_
    rw [genPublic_mac]
    cases env.genPublic path with
    | none => rfl
    | some x =>
      refine rekeyR_ite rfl ?_
      cases pathFormat path bip32StrLen with
      | none => rfl
      | some t => rfl

theorem showAddress_rekey (d : Device) (s : Bool) (token : UInt32) (path : List UInt32) (raw : Bytes) :
    (d.rekey k).showAddress s token path raw = rekeyR k (d.showAddress s token path raw) := by
  unfold Device.showAddress
  refine rekeyR_ite rfl ?_
  cases pathFormat path bip32StrLen with
  | none => rfl
  | some t =>
    refine rekeyR_ite rfl ?_
    cases base58Encode raw addressStrLen with
    | none => rfl
    | some a => exact rekeyR_ite rfl rfl

theorem deriveAddress_rekey (d : Device) (data : Bytes) (a t : Bool) :
    (d.rekey k).deriveAddress (env.mac H) data a t = rekeyR k (d.deriveAddress env data a t) := by
  unfold Device.deriveAddress
  refine rekeyR_ite rfl ?_
  simp only
  cases bufU8 data with
  | none => rfl
  | some x =>
    simp only
    cases parsePathToken x.2 t with
    | error e => rfl
    | ok y =>
      obtain ⟨path, token⟩ := y
      refine rekeyR_ite rfl ?_
      rw [genPublic_mac]
      cases env.genPublic path with
      | none => rfl
      | some z =>
        simp only [address_mac]
        cases addressFromPubkey env x.1 z.1 with
        | none => rfl
        | some raw => exact rekeyR_ite rfl (showAddress_rekey (d.setCommand .deriveAddress) _ _ _ _)

theorem attestStart_rekey (d : Device) (data : Bytes) (t : Bool) (rnd : Rnd) :
    (d.rekey k).attestStart data t rnd = rekeyR k (d.attestStart data t rnd) := by
  unfold Device.attestStart
  simp only
  cases attestInit data t 0 with
  | error e => rfl
  | ok x =>
    simp only
    cases newSession 0 rnd.u8s with
    | none => rfl
    | some s => exact rekeyR_ite rfl rfl

theorem attestResult_rekey (d : Device) (r : AttestRes) :
    (d.rekey k).attestResult r = rekeyR k (d.attestResult r) := by
  cases r <;> rfl

/-- Requests other than for a frame. -/
theorem attestInput_rekey (d : Device) (sub p2 : UInt8) (data : Bytes) (rnd : Rnd) (hs : sub ≠ 0x05) :
    (d.rekey k).attestInput (env.mac H) sub p2 data rnd = rekeyR k (d.attestInput env sub p2 data rnd) := by
  unfold Device.attestInput
  refine rekeyR_ite rfl (rekeyR_ite (rekeyR_ite rfl (attestStart_rekey ..)) ?_)
  by_cases hc : sub = 0x02 ∨ sub = 0x03 ∨ sub = 0x04 ∨ sub = 0x05
  case neg => rw [if_neg hc, if_neg hc]; rfl
  rw [if_pos hc, if_pos hc]
  unfold Device.attestSub
  refine rekeyR_ite rfl ?_
  simp only
  cases d.ctx with
  | attest x =>
    refine rekeyR_ite rfl ?_
    by_cases h2 : sub = 0x02
    · rw [if_pos h2, if_pos h2]; exact attestResult_rekey d (x.addTree env data)
    rw [if_neg h2, if_neg h2]
    by_cases h3 : sub = 0x03
    · rw [if_pos h3, if_pos h3]; exact attestResult_rekey d (x.addTokens env data)
    rw [if_neg h3, if_neg h3]
    by_cases h4 : sub = 0x04
    · rw [if_pos h4, if_pos h4]; exact attestResult_rekey d (x.addRegisters env data)
    · exact absurd (by tauto) hs
  | _ => rfl

/-- Requests for a frame: the bytes are the same, the tag is that of the key. -/
theorem getFrame_rekey (d : Device) (p2 : UInt8) (data : Bytes) (rnd : Rnd) :
    (d.rekey k).attestInput (env.mac H) 0x05 p2 data rnd = rekeyR k (d.attestInput env 0x05 p2 data rnd) ∨
    ∃ body, (d.attestInput env 0x05 p2 data rnd).2 = .sw 0x9000 (body ++ (env.hmac d.sessionKey body).take 16) ∧
      ((d.rekey k).attestInput (env.mac H) 0x05 p2 data rnd).2 = .sw 0x9000 (body ++ (H k body).take 16) ∧
      ((d.rekey k).attestInput (env.mac H) 0x05 p2 data rnd).1 =
        (d.attestInput env 0x05 p2 data rnd).1.rekey k := by
  unfold Device.attestInput
  by_cases hb : d.busy
  · left
    simp only [hb, if_true]; rfl
  have hb' : ¬ (d.rekey k).busy := hb
  rw [if_neg hb, if_neg hb', if_neg (show ¬ (0x05 : UInt8) = 0x01 by decide),
    if_neg (show ¬ (0x05 : UInt8) = 0x01 by decide), if_pos (by decide), if_pos (by decide)]
  unfold Device.attestSub
  by_cases hc : d.command ≠ .attestInput
  · left
    rw [if_pos hc, if_pos (show (d.rekey k).command ≠ .attestInput from hc)]; rfl
  rw [if_neg hc, if_neg (show ¬ (d.rekey k).command ≠ .attestInput from hc)]
  simp only
  cases hx : d.ctx with
  | attest x =>
    simp only
    by_cases hse : p2 ≠ x.session
    · left; rw [if_pos hse, if_pos hse]; rfl
    rw [if_neg hse, if_neg hse]
    simp only [show ¬ (0x05 : UInt8) = 0x02 by decide, show ¬ (0x05 : UInt8) = 0x03 by decide,
      show ¬ (0x05 : UInt8) = 0x04 by decide, if_false]
    unfold AttestCtx.getFrame
    by_cases h1 : x.state ≠ .finished
    · left; rw [if_pos h1, if_pos h1]; rfl
    rw [if_neg h1, if_neg h1]
    cases hd : bufU8 data with
    | none => left; rfl
    | some y =>
      obtain ⟨i, r⟩ := y
      simp only
      by_cases h2 : r ≠ []
      · left; rw [if_pos h2, if_pos h2]; rfl
      rw [if_neg h2, if_neg h2]
      by_cases h3 : i.toNat ≥ framesCount x.st.s.length
      · left; rw [if_pos h3, if_pos h3]; rfl
      rw [if_neg h3, if_neg h3]
      right
      exact ⟨_, rfl, rfl, rfl⟩
  | _ => left; rfl

theorem signResult_rekey (d : Device) (x : SignCtx) (r : OpRes) :
    (d.rekey k).signResult x r = rekeyR k (d.signResult x r) := by
  cases r <;> rfl

theorem signShow_rekey (d : Device) (x : SignCtx) (r : OpRes) :
    (d.rekey k).signShow x r = rekeyR k (d.signShow x r) := by
  cases r with
  | ok p =>
    simp only [Device.signShow]
    cases p.shouldShow with
    | none => rfl
    | some b =>
      cases b with
      | false => rfl
      | true =>
        simp only
        cases p.u with
        | transaction t =>
          simp only
          cases t.out with
          | none => rfl
          | some o => rfl
        | _ => rfl
  | _ => rfl

theorem signConfirm_rekey (d : Device) (x : SignCtx) :
    (d.rekey k).signConfirm x = rekeyR k (d.signConfirm x) := by
  unfold Device.signConfirm
  exact rekeyR_ite rfl rfl

theorem signStart_rekey (d : Device) (data : Bytes) (t : Bool) (rnd : Rnd) :
    (d.rekey k).signStart (env.mac H) data t rnd = rekeyR k (d.signStart env data t rnd) := by
  unfold Device.signStart
  simp only
  cases parseSignInit data t with
  | error e => rfl
  | ok x =>
    obtain ⟨network, path, token⟩ := x
    simp only [p2pkInit_mac]
    cases p2pkInit env path network rnd.keys with
    | err e => rfl
    | ub => rfl
    | ok p =>
      simp only
      cases newSession 0 rnd.u8s with
      | none => rfl
      | some s =>
        simp only
        cases pathFormat path bip32StrLen with
        | none => rfl
        | some t => rfl

/-- Signing commands: the session key matters for the check of a frame only. -/
theorem signTransaction_rekey (d : Device) (sub p2 : UInt8) (data data' : Bytes) (rnd : Rnd)
    (h : sub ≠ 0x12 ∧ data' = data ∨ sub = 0x12 ∧
      ∀ p, opFrame (env.mac H) k p data' = opFrame env d.sessionKey p data) :
    (d.rekey k).signTransaction (env.mac H) sub p2 data' rnd =
      rekeyR k (d.signTransaction env sub p2 data rnd) := by
  unfold Device.signTransaction
  refine rekeyR_ite rfl ?_
  by_cases h1 : sub = 0x01
  · rw [if_pos h1, if_pos h1]
    rcases h with ⟨_, rfl⟩ | ⟨h, _⟩
    · exact rekeyR_ite rfl (signStart_rekey ..)
    · rw [h] at h1; exact absurd h1 (by decide)
  rw [if_neg h1, if_neg h1]
  refine rekeyR_ite ?_ rfl
  unfold Device.signSub
  refine rekeyR_ite rfl ?_
  simp only
  cases d.ctx with
  | sign x =>
    refine rekeyR_ite rfl (rekeyR_ite rfl ?_)
    rcases h with ⟨h, rfl⟩ | ⟨rfl, h⟩
    · refine rekeyR_ite (signResult_rekey ..) (rekeyR_ite (signResult_rekey ..) ?_)
      rw [if_neg h, if_neg h]
      exact rekeyR_ite (signResult_rekey ..) <| rekeyR_ite (signResult_rekey ..) <|
        rekeyR_ite (signResult_rekey ..) <| rekeyR_ite (signShow_rekey d x (x.p.addOutputTree env data')) <|
        rekeyR_ite (signShow_rekey d x (opFee env x.p data')) <|
        rekeyR_ite (signShow_rekey d x (opChange env x.p data')) <|
        rekeyR_ite (signShow_rekey d x (x.p.addOutputTokens env data')) <|
        rekeyR_ite (signShow_rekey d x (x.p.addOutputRegisters env data')) (signConfirm_rekey d x)
    · rw [if_neg (by decide), if_neg (by decide), if_pos rfl, if_neg (by decide), if_neg (by decide),
        if_pos rfl]
      rw [show opFrame (env.mac H) (d.rekey k).sessionKey x.p data' = _ from h x.p]
      exact signResult_rekey ..
  | _ => rfl

theorem act_rekey (d : Device) (cb : Callback) (ok : Bool) :
    (d.rekey k).act (env.mac H) cb ok = rekeyR k (d.act env cb ok) := by
  unfold Device.act
  simp only
  cases hc : d.ctx with
  | zeroed => cases cb <;> rfl
  | attest x => cases cb <;> first | rfl | exact rekeyR_ite rfl rfl
  | derive x => cases cb <;> first | rfl | exact rekeyR_ite rfl rfl
  | extPub x => cases cb <;> first | rfl | exact rekeyR_ite rfl rfl
  | sign x =>
    cases cb with
    | signInit =>
      simp only [Device.actSignInit]
      cases x.p.u with
      | uiApprove t => exact rekeyR_ite rfl rfl
      | _ => rfl
    | signOutput =>
      simp only [Device.actSignOutput]
      cases x.p.u with
      | transaction t =>
        simp only
        cases t.out with
        | none => rfl
        | some o =>
          refine rekeyR_ite ?_ rfl
          split <;> rfl
      | _ => rfl
    | signTx =>
      simp only [Device.actSignTx]
      refine rekeyR_ite ?_ rfl
      simp only [sendResponse_mac]
      cases x.p.sendResponse env <;> rfl
    | _ => rfl

theorem show_rekey (nanoS : Bool) (d : Device) (cb : Callback) (n : Nat) :
    (d.rekey k).show (env.mac H) nanoS cb n = d.show env nanoS cb n := rfl

theorem page_rekey (nanoS : Bool) (d : Device) : (d.rekey k).page (env.mac H) nanoS = d.page env nanoS := rfl

theorem move_rekey (nanoS : Bool) (d : Device) (s : Screen) (m : Move) :
    (d.rekey k).move (env.mac H) nanoS s m = rekeyR k (d.move env nanoS s m) := by
  unfold Device.move
  simp only [show_rekey]
  cases m.draw with
  | none => rfl
  | some n =>
    simp only
    cases d.show env nanoS s.cb n <;> rfl

theorem both_rekey (d : Device) (s : Screen) :
    (d.rekey k).both (env.mac H) s = rekeyR k (d.both env s) := by
  unfold Device.both
  cases s.flow.here <;> first | exact act_rekey .. | rfl

theorem frameParse_retag {body tag tag' rest : Bytes} (hb : body.length = 43 + 40 * field body 42 1)
    (ht : tag.length = 16) (ht' : tag'.length = 16) (hl : (body ++ tag ++ rest).length ≤ 255) :
    frameDataLen (body ++ tag' ++ rest) = frameDataLen (body ++ tag ++ rest) ∧
      frameParse (body ++ tag' ++ rest) = frameParse (body ++ tag ++ rest) ∧
      ((frameDataLen (body ++ tag ++ rest)).toNat = body.length) := by
  have hL : body.length ≤ 255 := by simp only [List.length_append] at hl; omega
  obtain ⟨id, q, rfl, hid, hq⟩ : ∃ id q : Bytes, body = id ++ q ∧ id.length = 32 ∧ 11 ≤ q.length :=
    ⟨body.take 32, body.drop 32, (List.take_append_drop ..).symm, by simp; omega, by simp; omega⟩
  match q, hq with
  | c :: i :: b0 :: b1 :: b2 :: b3 :: b4 :: b5 :: b6 :: b7 :: n :: toks, _ =>
  have hf : field (id ++ c :: i :: b0 :: b1 :: b2 :: b3 :: b4 :: b5 :: b6 :: b7 :: n :: toks) 42 1 = n.toNat := by
    rw [field_of (d := id ++ c :: i :: b0 :: b1 :: b2 :: b3 :: b4 :: b5 :: b6 :: b7 :: n :: toks)
      (pre := id ++ [c, i, b0, b1, b2, b3, b4, b5, b6, b7]) (a := [n]) (post := toks)
      (by simp) (by simp [hid]) (by rfl), be_one]
  rw [hf] at hb
  have hn : (n * 40).toNat = 40 * n.toNat ∧ (n * 40 + 43).toNat = 43 + 40 * n.toNat := by
    have : 43 + 40 * n.toNat ≤ 255 := hb ▸ hL
    simp only [UInt8.toNat_add, UInt8.toNat_mul, UInt8.toNat_ofNat]
    omega
  have htk : toks.length = 40 * n.toNat := by
    simp only [List.length_append, List.length_cons, hid] at hb; omega
  have key : ∀ tag : Bytes, tag.length = 16 →
      let d := id ++ c :: i :: b0 :: b1 :: b2 :: b3 :: b4 :: b5 :: b6 :: b7 :: n :: toks ++ tag ++ rest
      frameDataLen d = n * 40 + 43 ∧
      frameParse d = (if i = 0 then
          match bufU32 rest with
          | none => none
          | some (ext, _) => some ⟨id, c, i, readU64be b0 b1 b2 b3 b4 b5 b6 b7, toks, some ext⟩
        else some ⟨id, c, i, readU64be b0 b1 b2 b3 b4 b5 b6 b7, toks, none⟩) := by
    intro tag ht
    simp only [List.append_assoc, List.cons_append]
    constructor
    · unfold frameDataLen
      have e : (id ++ c :: i :: b0 :: b1 :: b2 :: b3 :: b4 :: b5 :: b6 :: b7 :: n :: (toks ++ (tag ++ rest))).getD 42 0 = n := by
        simp [List.getD, List.getElem?_append, hid]
      simp only [e, hn.2, List.length_append, List.length_cons, hid, ht, htk]
      rw [if_neg (by omega), if_neg (by omega)]
    · unfold frameParse
      have e1 : bufBytes idLen (id ++ c :: i :: b0 :: b1 :: b2 :: b3 :: b4 :: b5 :: b6 :: b7 :: n :: (toks ++ (tag ++ rest))) =
          some (id, c :: i :: b0 :: b1 :: b2 :: b3 :: b4 :: b5 :: b6 :: b7 :: n :: (toks ++ (tag ++ rest))) := by
        unfold bufBytes
        rw [if_neg (by simp [hid, idLen]), List.take_left' (by rw [hid]; rfl), List.drop_left' (by rw [hid]; rfl)]
      simp only [e1, bufU8, bufU64, hn.1]
      rw [if_neg (by simp only [List.length_append, htk, ht]; omega), List.take_left' htk,
        show (toks ++ (tag ++ rest)).drop (40 * n.toNat + 16) = rest by
          rw [← List.append_assoc, List.drop_left' (by simp only [List.length_append, htk, ht])]]
      rfl
  obtain ⟨k1, k2⟩ := key tag ht
  obtain ⟨k3, k4⟩ := key tag' ht'
  rw [k1, k2, k3, k4]
  exact ⟨rfl, rfl, by rw [hn.2, hb]⟩

/-- The length the device computes is the position of the tag, if there are enough data. -/
theorem frameDataLen_tagAt {data : Bytes} (h : (frameDataLen data).toNat ≠ 0) :
    (frameDataLen data).toNat = tagAt data := by
  unfold frameDataLen at h ⊢
  split at h
  · simp at h
  rename_i h1
  rw [if_neg h1]
  simp only at h ⊢
  split at h
  · simp at h
  rename_i h2
  rw [if_neg h2]
  have e : field data 42 1 = (data.getD 42 0).toNat := by
    unfold field
    rw [List.drop_eq_getElem_cons (show 42 < data.length by omega), List.take_succ_cons, List.take_zero, be_one]
    simp [List.getD, show 42 < data.length by omega]
  unfold tagAt
  rw [e]
  simp only [UInt8.toNat_add, UInt8.toNat_mul, UInt8.toNat_ofNat]
  omega

/-- The same frame is accepted or refused in the same way. -/
theorem opFrame_same {key' data data' : Bytes} {key : Bytes} (hl : data.length ≤ 255)
    (h : SameFrame env key (env.mac H) key' data data') (p : P2pk) :
    opFrame (env.mac H) key' p data' = opFrame env key p data := by
  have fin : frameDataLen data' = frameDataLen data → frameParse data' = frameParse data →
      (TagOk env key data ↔ TagOk (env.mac H) key' data') →
      opFrame (env.mac H) key' p data' = opFrame env key p data := by
    intro h1 h2 h3
    unfold opFrame
    simp only [h1, h2]
    by_cases h0 : (frameDataLen data).toNat = 0
    · rw [if_pos h0, if_pos h0]
    rw [if_neg h0, if_neg h0]
    have e := frameDataLen_tagAt h0
    have e' := frameDataLen_tagAt (data := data') (h1 ▸ h0)
    rw [h1] at e'
    unfold TagOk at h3
    rw [← e, ← e'] at h3
    by_cases ht : (data.drop (frameDataLen data).toNat).take 16 =
        (env.hmac key (data.take (frameDataLen data).toNat)).take 16
    · have ht' := h3.1 ht
      rw [if_neg (not_not.2 ht.symm), if_neg (not_not.2 ht'.symm)]
    · have ht' := fun z => ht (h3.2 z)
      rw [if_pos (fun z => ht' z.symm), if_pos (fun z => ht z.symm)]
  cases h with
  | same h => exact fin rfl rfl h
  | retag hb ht ht' h =>
    obtain ⟨h1, h2, _⟩ := frameParse_retag hb ht ht' hl
    exact fin h1 h2 h

theorem sameFrame_length {key key' data data' : Bytes} {env' : Env} (h : SameFrame env key env' key' data data') :
    data'.length = data.length := by
  cases h with
  | same h => rfl
  | retag hb ht ht' h => simp only [List.length_append, ht, ht']

/-- One step of two devices that differ in the session key and the authentication function. -/
theorem step_rekey (nanoS : Bool) (d : Device) {e e' : Event}
    (h : SameButTag env d.sessionKey (env.mac H) k e e') :
    ((d.rekey k).step (env.mac H) nanoS e').1 = (d.step env nanoS e).1.rekey k ∧
      (((d.rekey k).step (env.mac H) nanoS e').2 = (d.step env nanoS e).2 ∨
        (∃ cla p2 data rnd, e = .apdu cla 0x20 0x05 p2 data rnd) ∧
        ∃ body, (d.step env nanoS e).2 = .sw 0x9000 (body ++ (env.hmac d.sessionKey body).take 16) ∧
          ((d.rekey k).step (env.mac H) nanoS e').2 = .sw 0x9000 (body ++ (H k body).take 16)) := by
  have fin : ∀ e' : Event, (d.rekey k).step (env.mac H) nanoS e' = rekeyR k (d.step env nanoS e) →
      ((d.rekey k).step (env.mac H) nanoS e').1 = (d.step env nanoS e).1.rekey k ∧
      (((d.rekey k).step (env.mac H) nanoS e').2 = (d.step env nanoS e).2 ∨
        (∃ cla p2 data rnd, e = .apdu cla 0x20 0x05 p2 data rnd) ∧
        ∃ body, (d.step env nanoS e).2 = .sw 0x9000 (body ++ (env.hmac d.sessionKey body).take 16) ∧
          ((d.rekey k).step (env.mac H) nanoS e').2 = .sw 0x9000 (body ++ (H k body).take 16)) := by
    intro e' h; rw [h]; exact ⟨rfl, .inl rfl⟩
  cases h with
  | @other cla ins p1 p2 data rnd h =>
    by_cases hg : cla = 0xE0 ∧ ins = 0x20 ∧ p1 = 0x05 ∧ p2 ≠ 0 ∧ data.length ≤ 255
    · obtain ⟨rfl, rfl, rfl, h2, hl⟩ := hg
      have e1 : ∀ (env : Env) (d : Device), d.step env nanoS (.apdu 0xE0 0x20 0x05 p2 data rnd) =
          d.attestInput env 0x05 p2 data rnd := by
        intro env d
        simp only [Device.step, if_neg (show ¬ data.length > 255 by omega), Device.dispatch]
        simp [h2]
      rcases getFrame_rekey (env := env) (H := H) (k := k) d p2 data rnd with h1 | ⟨body, h1, h3, h4⟩
      · exact fin _ (by rw [e1, e1]; exact h1)
      · rw [e1, e1]
        exact ⟨h4, .inr ⟨⟨_, _, _, _, rfl⟩, body, h1, h3⟩⟩
    · refine fin _ ?_
      simp only [Device.step]
      by_cases hl : data.length > 255
      · rw [if_pos hl, if_pos hl]; rfl
      rw [if_neg hl, if_neg hl]
      unfold Device.dispatch
      by_cases hcla : cla ≠ 0xE0
      · rw [if_pos hcla, if_pos hcla]; rfl
      rw [if_neg hcla, if_neg hcla]
      refine rekeyR_ite (rekeyR_ite rfl rfl) <| rekeyR_ite (rekeyR_ite rfl rfl) <|
        rekeyR_ite (rekeyR_ite rfl (extPubKey_rekey ..)) <|
        rekeyR_ite (rekeyR_ite rfl (deriveAddress_rekey ..)) ?_
      by_cases h20 : ins = 0x20
      · rw [if_pos h20, if_pos h20]
        by_cases h0 : p1 = 0 ∨ p2 = 0
        · rw [if_pos h0, if_pos h0]; rfl
        rw [if_neg h0, if_neg h0]
        refine attestInput_rekey d p1 p2 data rnd ?_
        rintro rfl
        exact hg ⟨not_not.1 hcla, h20, rfl, fun e => h0 (.inr e), by omega⟩
      rw [if_neg h20, if_neg h20]
      by_cases h21 : ins = 0x21
      · rw [if_pos h21, if_pos h21]
        refine rekeyR_ite rfl (signTransaction_rekey d p1 p2 data data rnd (.inl ⟨?_, rfl⟩))
        exact fun e => h ⟨h21, e⟩
      rw [if_neg h21, if_neg h21]
      rfl
  | @frame cla p2 data data' rnd h =>
    refine fin _ ?_
    simp only [Device.step, sameFrame_length h]
    by_cases hl : data.length > 255
    · rw [if_pos hl, if_pos hl]; rfl
    rw [if_neg hl, if_neg hl]
    unfold Device.dispatch
    refine rekeyR_ite rfl ?_
    simp only [show ¬ (0x21 : UInt8) = 0x01 by decide, show ¬ (0x21 : UInt8) = 0x02 by decide,
      show ¬ (0x21 : UInt8) = 0x10 by decide, show ¬ (0x21 : UInt8) = 0x11 by decide,
      show ¬ (0x21 : UInt8) = 0x20 by decide, if_false, if_true]
    exact rekeyR_ite rfl (signTransaction_rekey d 0x12 p2 data data' rnd
      (.inr ⟨rfl, fun p => opFrame_same (by omega) h p⟩))
  | left =>
    refine fin _ ?_
    simp only [Device.step]
    cases d.screen with
    | none => rfl
    | some s => exact move_rekey nanoS d s _
  | right =>
    refine fin _ ?_
    simp only [Device.step]
    cases d.screen with
    | none => rfl
    | some s => exact move_rekey nanoS d s _
  | both =>
    refine fin _ ?_
    simp only [Device.step]
    cases d.screen with
    | none => rfl
    | some s => exact both_rekey d s

end Ergo
