import Verif.Spec.MacFaults
import Verif.Proof.Rekey
import Verif.Proof.FailingDevice
/-!
# One event with a failing authentication function
-/
namespace Ergo
open Spec

variable {env : Env} {H : Bytes → Bytes → Bytes}

/-- Length and content of a frame do not depend on its tag, also with a count of tokens whose length
does not fit into a byte. -/
theorem frameParse_wrap {body tag tag' rest : Bytes} (hb : body.length = 43 + 40 * field body 42 1 % 256)
    (ht : tag.length = 16) (ht' : tag'.length = 16) (hl : (body ++ tag ++ rest).length ≤ 255) :
    frameDataLen (body ++ tag' ++ rest) = frameDataLen (body ++ tag ++ rest) ∧
      frameParse (body ++ tag' ++ rest) = frameParse (body ++ tag ++ rest) ∧
      ((frameDataLen (body ++ tag ++ rest)).toNat = body.length) := by
  have hL : body.length ≤ 255 := by simp only [List.length_append] at hl; omega
  obtain ⟨id, q, rfl, hid, hq⟩ : ∃ id q : Bytes, body = id ++ q ∧ id.length = 32 ∧ 11 ≤ q.length :=
    ⟨body.take 32, body.drop 32, (List.take_append_drop ..).symm, by simp; omega, by simp; omega⟩
  match q, hq with
  | c :: i :: b0 :: b1 :: b2 :: b3 :: b4 :: b5 :: b6 :: b7 :: n :: toks, _ =>
  have hf : field (id ++ c :: i :: b0 :: b1 :: b2 :: b3 :: b4 :: b5 :: b6 :: b7 :: n :: toks) 42 1 = n.toNat := by
    rw [field_of (d := id ++ c :: i :: b0 :: b1 :: b2 :: b3 :: b4 :: b5 :: b6 :: b7 :: n :: toks)
      (pre := id ++ [c, i, b0, b1, b2, b3, b4, b5, b6, b7]) (a := [n]) (post := toks)
      (by simp) (by simp [hid]) (by rfl), be_one]
  rw [hf] at hb
  obtain ⟨m, hm⟩ : ∃ m, m = 40 * n.toNat % 256 := ⟨_, rfl⟩
  rw [← hm] at hb
  have hn : (n * 40).toNat = m ∧ (n * 40 + 43).toNat = 43 + m := by
    have : 43 + m ≤ 255 := hb ▸ hL
    simp only [UInt8.toNat_add, UInt8.toNat_mul, UInt8.toNat_ofNat]
    omega
  have htk : toks.length = m := by
    simp only [List.length_append, List.length_cons, hid] at hb; omega
  have key : ∀ tag : Bytes, tag.length = 16 →
      let d := id ++ c :: i :: b0 :: b1 :: b2 :: b3 :: b4 :: b5 :: b6 :: b7 :: n :: toks ++ tag ++ rest
      frameDataLen d = n * 40 + 43 ∧
      frameParse d = (if i = 0 then
          match bufU32 rest with
          | none => none
          | some (ext, _) => some ⟨id, c, i, readU64be b0 b1 b2 b3 b4 b5 b6 b7, toks, some ext⟩
        else some ⟨id, c, i, readU64be b0 b1 b2 b3 b4 b5 b6 b7, toks, none⟩) := by
    intro tag ht
    simp only [List.append_assoc, List.cons_append]
    constructor
    · unfold frameDataLen
      have e : (id ++ c :: i :: b0 :: b1 :: b2 :: b3 :: b4 :: b5 :: b6 :: b7 :: n :: (toks ++ (tag ++ rest))).getD 42 0 = n := by
        simp [List.getD, List.getElem?_append, hid]
      simp only [e, hn.2, List.length_append, List.length_cons, hid, ht, htk]
      rw [if_neg (by omega), if_neg (by omega)]
    · unfold frameParse
      have e1 : bufBytes idLen (id ++ c :: i :: b0 :: b1 :: b2 :: b3 :: b4 :: b5 :: b6 :: b7 :: n :: (toks ++ (tag ++ rest))) =
          some (id, c :: i :: b0 :: b1 :: b2 :: b3 :: b4 :: b5 :: b6 :: b7 :: n :: (toks ++ (tag ++ rest))) := by
        unfold bufBytes
        rw [if_neg (by simp [hid, idLen]), List.take_left' (by rw [hid]; rfl), List.drop_left' (by rw [hid]; rfl)]
      simp only [e1, bufU8, bufU64, hn.1]
      rw [if_neg (by simp only [List.length_append, htk, ht]; omega), List.take_left' htk,
        show (toks ++ (tag ++ rest)).drop (m + 16) = rest by
          rw [← List.append_assoc, List.drop_left' (by simp only [List.length_append, htk, ht])]]
      rfl
  obtain ⟨k1, k2⟩ := key tag ht
  obtain ⟨k3, k4⟩ := key tag' ht'
  rw [k1, k2, k3, k4]
  exact ⟨rfl, rfl, by rw [hn.2, hb]⟩

theorem other_tag (t : Bytes) : ∃ t' : Bytes, t'.length = 16 ∧ t' ≠ t := by
  by_cases h : t = List.replicate 16 0
  · exact ⟨List.replicate 16 1, rfl, by rw [h]; decide⟩
  · exact ⟨List.replicate 16 0, rfl, fun e => h e.symm⟩

/-- A frame that cannot be read: its length does not fit into a byte. -/
theorem frameParse_long {data : Bytes} (hl : data.length ≤ 255) (h43 : 59 ≤ data.length)
    (hn : 256 ≤ 43 + 40 * (data.getD 42 0).toNat % 256) : frameParse data = none := by
  obtain ⟨id, q, rfl, hid, hq⟩ : ∃ id q : Bytes, data = id ++ q ∧ id.length = 32 ∧ 11 ≤ q.length :=
    ⟨data.take 32, data.drop 32, (List.take_append_drop ..).symm, by simp; omega, by simp; omega⟩
  match q, hq with
  | c :: i :: b0 :: b1 :: b2 :: b3 :: b4 :: b5 :: b6 :: b7 :: n :: toks, _ =>
  have e : (id ++ c :: i :: b0 :: b1 :: b2 :: b3 :: b4 :: b5 :: b6 :: b7 :: n :: toks).getD 42 0 = n := by
    simp [List.getD, List.getElem?_append, hid]
  rw [e] at hn
  unfold frameParse
  have e1 : bufBytes idLen (id ++ c :: i :: b0 :: b1 :: b2 :: b3 :: b4 :: b5 :: b6 :: b7 :: n :: toks) =
      some (id, c :: i :: b0 :: b1 :: b2 :: b3 :: b4 :: b5 :: b6 :: b7 :: n :: toks) := by
    unfold bufBytes
    rw [if_neg (by simp [hid, idLen]), List.take_left' (by rw [hid]; rfl), List.drop_left' (by rw [hid]; rfl)]
  simp only [e1, bufU8, bufU64]
  rw [if_pos]
  simp only [List.length_append, List.length_cons, hid] at hl
  have : (n * 40).toNat = 40 * n.toNat % 256 := by
    simp only [UInt8.toNat_mul, UInt8.toNat_ofNat]; omega
  omega

/-- A frame checked with a failing function: as a frame with another tag checked with the working one,
or it is refused by both. -/
theorem opFrame_garbled (hwf : env.WF) (key : Bytes) {data : Bytes} (hl : data.length ≤ 255) :
    (∃ body tag tag' rest, data = body ++ tag ++ rest ∧ tag.length = 16 ∧ tag'.length = 16 ∧
      body.length = 43 + 40 * field body 42 1 % 256 ∧
      ∀ p, opFrame (env.mac H) key p data = opFrame env key p (body ++ tag' ++ rest)) ∨
    ∀ (H' : Bytes → Bytes → Bytes) p, opFrame (env.mac H') key p data = .err Sw.notEnoughData ∨
      opFrame (env.mac H') key p data = .err Sw.badFrameSignature := by
  by_cases h59 : data.length < 59
  · refine .inr fun H' p => .inl ?_
    unfold opFrame frameDataLen
    simp [h59]
  by_cases hz : (frameDataLen data).toNat = 0
  · refine .inr fun H' p => .inl ?_
    unfold opFrame
    simp [hz]
  have hd : frameDataLen data = data.getD 42 0 * 40 + 43 ∧
      (data.getD 42 0 * 40 + 43).toNat + 16 ≤ data.length := by
    unfold frameDataLen at hz ⊢
    rw [if_neg h59] at hz ⊢
    dsimp only at hz ⊢
    split at hz
    · exact absurd rfl hz
    · rename_i h
      rw [if_neg h]
      exact ⟨rfl, by omega⟩
  obtain ⟨m, hm⟩ : ∃ m, m = 40 * (data.getD 42 0).toNat % 256 := ⟨_, rfl⟩
  by_cases hw : 256 ≤ 43 + m
  · refine .inr fun H' p => ?_
    have hp := frameParse_long hl (by omega) (hm ▸ hw)
    unfold opFrame
    simp only [hz, if_false, hp]
    split
    · exact .inr rfl
    · exact .inl rfl
  left
  have hlen : (data.getD 42 0 * 40 + 43).toNat = 43 + m := by
    simp only [UInt8.toNat_add, UInt8.toNat_mul, UInt8.toNat_ofNat]
    omega
  rw [hlen] at hd
  obtain ⟨h1, h2⟩ := hd
  have hbl : (data.take (43 + m)).length = 43 + m := by simp; omega
  have htl : ((data.drop (43 + m)).take 16).length = 16 := by simp; omega
  have hdata : data = data.take (43 + m) ++ (data.drop (43 + m)).take 16 ++ (data.drop (43 + m)).drop 16 := by
    rw [List.append_assoc, List.take_append_drop, List.take_append_drop]
  have hfield : field (data.take (43 + m)) 42 1 = (data.getD 42 0).toNat := by
    unfold field
    rw [List.drop_eq_getElem_cons (show 42 < (data.take (43 + m)).length by omega), List.take_succ_cons,
      List.take_zero, be_one]
    simp [List.getD, show 42 < data.length by omega]
  have hb : (data.take (43 + m)).length = 43 + 40 * field (data.take (43 + m)) 42 1 % 256 := by
    rw [hfield, hbl, hm]
  obtain ⟨body, hbody⟩ : ∃ body, body = data.take (43 + m) := ⟨_, rfl⟩
  obtain ⟨tag, htag⟩ : ∃ tag, tag = (data.drop (43 + m)).take 16 := ⟨_, rfl⟩
  obtain ⟨rest, hrest⟩ : ∃ rest, rest = (data.drop (43 + m)).drop 16 := ⟨_, rfl⟩
  rw [← hbody] at hb
  rw [← htag] at htl
  rw [← hbody, ← htag, ← hrest] at hdata
  have right : ((env.hmac key body).take 16).length = 16 := by
    rw [List.length_take, hwf.hmac_len]; rfl
  -- the tag of the other frame
  obtain ⟨tag', ht', hiff⟩ : ∃ tag' : Bytes, tag'.length = 16 ∧
      ((H key body).take 16 = tag ↔ (env.hmac key body).take 16 = tag') := by
    by_cases hq : (H key body).take 16 = tag
    · exact ⟨_, right, by simp [hq]⟩
    · obtain ⟨t', h3, h4⟩ := other_tag ((env.hmac key body).take 16)
      exact ⟨t', h3, by simp only [hq, false_iff]; exact fun e => h4 e.symm⟩
  refine ⟨body, tag, tag', rest, hdata, htl, ht', hb, fun p => ?_⟩
  subst hdata
  obtain ⟨w1, w2, w3⟩ := frameParse_wrap (tag := tag) (tag' := tag') (rest := rest) hb htl ht' hl
  unfold opFrame
  rw [w1, w2]
  dsimp only
  rw [w3]
  have t1 : (body ++ tag ++ rest).take body.length = body := by
    rw [List.append_assoc, List.take_left]
  have t2 : (body ++ tag' ++ rest).take body.length = body := by
    rw [List.append_assoc, List.take_left]
  have t3 : ((body ++ tag ++ rest).drop body.length).take 16 = tag := by
    rw [List.append_assoc, List.drop_left, List.take_left' htl]
  have t4 : ((body ++ tag' ++ rest).drop body.length).take 16 = tag' := by
    rw [List.append_assoc, List.drop_left, List.take_left' ht']
  rw [t1, t2, t3, t4]
  by_cases hq : (H key body).take 16 = tag
  · have hq' := hiff.1 hq
    simp only [hq, hq', ne_eq, not_true_eq_false, if_false]
  · have hq' : ¬ (env.hmac key body).take 16 = tag' := fun e => hq (hiff.2 e)
    simp only [ne_eq, hq, hq', not_false_eq_true, if_true]

theorem err_ne {out : Bytes} (sw : UInt16) (h : sw ≠ 0x9000) : status sw ≠ .sw 0x9000 out := by
  intro hc
  simp only [status, Reply.sw.injEq] at hc
  exact h hc.1

/-- A frame command is answered in a way that does not depend on the frame, or the frame is checked. -/
theorem frame_form (nanoS : Bool) (d : Device) (cla p2 : UInt8) {data data' : Bytes} (rnd : Rnd)
    (hl : data'.length = data.length) :
    (∃ r : Device × Reply, (∀ out, r.2 ≠ .sw 0x9000 out) ∧ ∀ env : Env, d.step env nanoS (.apdu cla 0x21 0x12 p2 data rnd) = r ∧
      d.step env nanoS (.apdu cla 0x21 0x12 p2 data' rnd) = r) ∨
    data.length ≤ 255 ∧ ∃ x, ∀ env : Env,
      d.step env nanoS (.apdu cla 0x21 0x12 p2 data rnd) =
        d.signResult x (opFrame env d.sessionKey x.p data) ∧
      d.step env nanoS (.apdu cla 0x21 0x12 p2 data' rnd) =
        d.signResult x (opFrame env d.sessionKey x.p data') := by
  by_cases h1 : data.length > 255
  · refine .inl ⟨_, ?_, fun env => ⟨by simp only [Device.step, if_pos h1]; rfl,
      by simp only [Device.step, hl, if_pos h1]⟩⟩
    exact fun _ => err_ne _ (by decide)
  have key : ∀ (env : Env) (b : Bytes), b.length = data.length →
      d.step env nanoS (.apdu cla 0x21 0x12 p2 b rnd) =
      if cla ≠ 0xE0 then (d, status Sw.claNotSupported)
      else if p2 = 0 then (d, status Sw.wrongP1P2)
      else if d.busy then (d, status Sw.busy) else d.signSub env 0x12 p2 b := by
    intro env b hb
    simp only [Device.step, hb, if_neg h1, Device.dispatch, Device.signTransaction,
      show ¬ (0x21 : UInt8) = 0x01 by decide, show ¬ (0x21 : UInt8) = 0x02 by decide,
      show ¬ (0x21 : UInt8) = 0x10 by decide, show ¬ (0x21 : UInt8) = 0x11 by decide,
      show ¬ (0x21 : UInt8) = 0x20 by decide, show ¬ (0x12 : UInt8) = 0 by decide,
      show ¬ (0x12 : UInt8) = 0x01 by decide,
      show ((0x10 : UInt8) ≤ 0x12 ∧ (0x12 : UInt8) ≤ 0x1A) ∨ (0x12 : UInt8) = 0x20 by decide,
      if_false, if_true, false_or]
  by_cases h2 : cla ≠ 0xE0
  · refine .inl ⟨_, ?_, fun env => ⟨by rw [key env data rfl, if_pos h2], by rw [key env data' hl, if_pos h2]⟩⟩
    exact fun _ => err_ne _ (by decide)
  by_cases h3 : p2 = 0
  · refine .inl ⟨_, ?_, fun env => ⟨by rw [key env data rfl, if_neg h2, if_pos h3],
      by rw [key env data' hl, if_neg h2, if_pos h3]⟩⟩
    exact fun _ => err_ne _ (by decide)
  by_cases h4 : d.busy = true
  · refine .inl ⟨_, ?_, fun env => ⟨by rw [key env data rfl, if_neg h2, if_neg h3, if_pos h4],
      by rw [key env data' hl, if_neg h2, if_neg h3, if_pos h4]⟩⟩
    exact fun _ => err_ne _ (by decide)
  have key2 : ∀ (env : Env) (b : Bytes), b.length = data.length →
      d.step env nanoS (.apdu cla 0x21 0x12 p2 b rnd) = d.signSub env 0x12 p2 b := by
    intro env b hb
    rw [key env b hb, if_neg h2, if_neg h3, if_neg h4]
  by_cases h5 : d.command ≠ .signTransaction
  · refine .inl ⟨_, ?_, fun env => ⟨by rw [key2 env data rfl]; unfold Device.signSub; rw [if_pos h5],
      by rw [key2 env data' hl]; unfold Device.signSub; rw [if_pos h5]⟩⟩
    exact fun _ => err_ne _ (by decide)
  cases hc : d.ctx with
  | sign x =>
    have key3 : ∀ (env : Env) (b : Bytes), b.length = data.length →
        d.step env nanoS (.apdu cla 0x21 0x12 p2 b rnd) =
        if p2 ≠ x.session then d.abort Sw.badSessionId
        else if ¬ x.approved then d.abort Sw.badState
        else d.signResult x (opFrame env d.sessionKey x.p b) := by
      intro env b hb
      rw [key2 env b hb]
      unfold Device.signSub
      rw [if_neg h5, hc]
      rfl
    by_cases h6 : p2 ≠ x.session
    · refine .inl ⟨_, ?_, fun env => ⟨by rw [key3 env data rfl, if_pos h6],
        by rw [key3 env data' hl, if_pos h6]⟩⟩
      exact fun _ => err_ne _ (by decide)
    by_cases h7 : ¬ x.approved = true
    · refine .inl ⟨_, ?_, fun env => ⟨by rw [key3 env data rfl, if_neg h6, if_pos h7],
        by rw [key3 env data' hl, if_neg h6, if_pos h7]⟩⟩
      exact fun _ => err_ne _ (by decide)
    · exact .inr ⟨by omega, x, fun env => ⟨by rw [key3 env data rfl, if_neg h6, if_neg h7],
        by rw [key3 env data' hl, if_neg h6, if_neg h7]⟩⟩
  | _ =>
    refine .inl ⟨(d, .ub), by simp, fun env => ⟨?_, ?_⟩⟩
    · rw [key2 env data rfl]; unfold Device.signSub; rw [if_neg h5, hc]
    · rw [key2 env data' hl]; unfold Device.signSub; rw [if_neg h5, hc]

theorem step_sessionKey (nanoS : Bool) (d : Device) (e : Event) :
    (d.step env nanoS e).1.sessionKey = d.sessionKey := by
  obtain ⟨d', r, he, ht⟩ := step_cases env nanoS d e
  rw [he]
  cases ht <;> rfl

/-- Any other event: only the tag of a released frame depends on the function. -/
theorem mac_other (nanoS : Bool) (d : Device) {e : Event}
    (he : ∀ cla p2 data rnd, e ≠ .apdu cla 0x21 0x12 p2 data rnd) :
    (d.step (env.mac H) nanoS e).1 = (d.step env nanoS e).1 ∧
      ((d.step (env.mac H) nanoS e).2 = (d.step env nanoS e).2 ∨
        (∃ cla p2 data rnd, e = .apdu cla 0x20 0x05 p2 data rnd) ∧
        ∃ body, (d.step env nanoS e).2 = .sw 0x9000 (body ++ (env.hmac d.sessionKey body).take 16) ∧
          (d.step (env.mac H) nanoS e).2 = .sw 0x9000 (body ++ (H d.sessionKey body).take 16)) := by
  have hs : SameButTag env d.sessionKey (env.mac H) d.sessionKey e e := by
    cases e with
    | apdu cla ins p1 p2 data rnd =>
      refine .other ?_
      rintro ⟨rfl, rfl⟩
      exact he _ _ _ _ rfl
    | left => exact .left
    | right => exact .right
    | both => exact .both
  have h := step_rekey (k := d.sessionKey) (H := H) (env := env) nanoS d hs
  have hk : (d.step env nanoS e).1.sessionKey = d.sessionKey → (d.step env nanoS e).1.rekey d.sessionKey =
      (d.step env nanoS e).1 := by
    intro h
    rw [← h]
  obtain ⟨h1, h2⟩ := h
  have hd : (d.rekey d.sessionKey) = d := rfl
  rw [hd] at h1 h2
  refine ⟨?_, h2⟩
  rw [h1]
  exact hk (step_sessionKey ..)

end Ergo
