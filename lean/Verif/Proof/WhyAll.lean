import Verif.Proof.WhyAttest
import Verif.Proof.LiveIff
import Mathlib.Tactic.Tauto
/-!
# The status word of a refused command: all commands
-/
namespace Ergo
open Spec

theorem asks_busy {env : Env} {key : Bytes} {g : Ghost} {d : Device} (h : Inv env key g d)
    (ha : d.asks ≠ none) : d.busy = true := by
  have := h.busy
  cases hs : d.screen with
  | none => exact absurd (by unfold Device.asks; rw [hs]) ha
  | some s => rw [hs] at this; exact this

/-- The reply to a command of an attestation. -/
theorem why_attestSub {env : Env} {nanoS : Bool} {key : Bytes} {tr : List Obs} {d : Device}
    (h : Runs env nanoS key tr d) (ha : d.asks = none) (a : Request) (hl : a.data.length ≤ 255)
    (hi : a.ins = 0x20) (hp1 : a.p1 ≠ 0) (hp2 : a.p2 ≠ 0) (hp : a.p1 ≠ 1) :
    Answers a.rnd (contDemands env key tr a) (d.attestInput env a.p1 a.p2 a.data a.rnd).2 := by
  have hb := idle_notBusy h.inv ha
  have hst : d.step env nanoS (.apdu 0xE0 0x20 a.p1 a.p2 a.data a.rnd) =
      d.attestInput env a.p1 a.p2 a.data a.rnd := by
    have hl' : ¬ 255 < a.data.length := by omega
    simp [Device.step, Device.dispatch, hp1, hp2, hl']
  unfold contDemands
  rw [if_pos hi]
  refine .cons (by decide) (fun hn => ?_) (fun h1 => ?_)
  · unfold Device.attestInput
    rw [hb, if_neg (by simp), if_neg hp, if_neg]
    · rfl
    · simpa [attestCont, or_assoc] using hn
  have hsub : a.p1 = 2 ∨ a.p1 = 3 ∨ a.p1 = 4 ∨ a.p1 = 5 := by
    simpa [attestCont, or_assoc] using h1
  have e1 : d.attestInput env a.p1 a.p2 a.data a.rnd = d.attestSub env a.p1 a.p2 a.data := by
    unfold Device.attestInput
    rw [hb, if_neg (by simp), if_neg hp, if_pos hsub]
  refine .cons (by decide) (fun hn => ?_) (fun h2 => ?_)
  · rw [e1]
    unfold Device.attestSub
    rw [if_pos]
    · rfl
    · intro hc
      obtain ⟨S, hS, hL⟩ := (command_attest h ha).1 hc
      exact hn ⟨by rw [hS]; rfl, hL⟩
  obtain ⟨S, hS⟩ := Option.isSome_iff_exists.1 h2.1
  rw [hS]
  refine .cons (by decide) (fun hn => ?_) (fun h3 => ?_)
  · obtain ⟨_, hc, _, _, x, hx, hB, _⟩ := ready_attest h hS h2.2
    rw [e1]
    unfold Device.attestSub
    rw [if_neg (by simpa using hc), hx]
    simp only
    rw [if_pos]
    · rfl
    · intro he
      refine hn (fun S' hS' => ?_)
      cases hS'
      rw [he, hB.id]
  · have hid : a.p2 = S.id := h3 S rfl
    rw [← hst, hid]
    exact why_attestCont h hS h2.2 hl hsub a.rnd

/-- The reply to a command of a signing session. -/
theorem why_signSub {env : Env} {nanoS : Bool} {key : Bytes} {tr : List Obs} {d : Device}
    (h : Runs env nanoS key tr d) (ha : d.asks = none) (a : Request) (hl : a.data.length ≤ 255)
    (hi : a.ins = 0x21) (hp1 : a.p1 ≠ 0) (hp2 : a.p2 ≠ 0) (hp : a.p1 ≠ 1) :
    Answers a.rnd (contDemands env key tr a) (d.signTransaction env a.p1 a.p2 a.data a.rnd).2 := by
  have hb := idle_notBusy h.inv ha
  have hst : d.step env nanoS (.apdu 0xE0 0x21 a.p1 a.p2 a.data a.rnd) =
      d.signTransaction env a.p1 a.p2 a.data a.rnd := by
    have hl' : ¬ 255 < a.data.length := by omega
    simp [Device.step, Device.dispatch, hp1, hp2, hl']
  unfold contDemands
  rw [if_neg (by rw [hi]; decide)]
  refine .cons (by decide) (fun hn => ?_) (fun h1 => ?_)
  · unfold Device.signTransaction
    rw [hb, if_neg (by simp), if_neg hp, if_neg]
    · rfl
    · simpa [signCont] using hn
  have hsub : 0x10 ≤ a.p1 ∧ a.p1 ≤ 0x1A ∨ a.p1 = 0x20 := by
    simpa [signCont] using h1
  have e1 : d.signTransaction env a.p1 a.p2 a.data a.rnd = d.signSub env a.p1 a.p2 a.data := by
    unfold Device.signTransaction
    rw [hb, if_neg (by simp), if_neg hp, if_pos hsub]
  refine .cons (by decide) (fun hn => ?_) (fun h2 => ?_)
  · rw [e1]
    unfold Device.signSub
    rw [if_pos]
    · rfl
    · intro hc
      obtain ⟨S, hS, hL⟩ := (command_sign h ha).1 hc
      exact hn ⟨by rw [hS]; rfl, hL⟩
  obtain ⟨S, hS⟩ := Option.isSome_iff_exists.1 h2.1
  rw [hS]
  refine .cons (by decide) (fun hn => ?_) (fun h3 => ?_)
  · obtain ⟨_, hc, _, x, hx, _, hid, _⟩ := ready_sign h hS h2.2 ha
    rw [e1]
    unfold Device.signSub
    rw [if_neg (by simpa using hc), hx]
    simp only
    rw [if_pos]
    · rfl
    · intro he
      refine hn (fun S' hS' => ?_)
      cases hS'
      rw [he, hid]
  · have hid : a.p2 = S.id := h3 S rfl
    rw [← hst, hid]
    rcases sign_why h hS h2.2 ha hl hsub a.rnd rfl with ⟨g1, g2⟩ | g
    · refine .inl ⟨g1, ?_⟩
      rcases g2 with g2 | g2
      · exact .inl ⟨_, g2⟩
      · exact .inr (.inl g2)
    · exact .inr g

theorem oneTwo (p : UInt8) : (p = 0 ∨ p > 2) ↔ ¬ (p = 1 ∨ p = 2) := by
  have h0 : p = 0 ↔ p.toNat = 0 := UInt8.toNat_inj.symm
  have h1 : p = 1 ↔ p.toNat = 1 := UInt8.toNat_inj.symm
  have h2 : p = 2 ↔ p.toNat = 2 := UInt8.toNat_inj.symm
  have h3 : p > 2 ↔ 2 < p.toNat := UInt8.lt_iff_toNat_lt
  rw [h0, h1, h2, h3]
  omega

/-- The reply to any command. -/
theorem why_all {env : Env} {nanoS : Bool} (hwf : env.WF) {key : Bytes} {tr : List Obs} {d : Device}
    (h : Runs env nanoS key tr d) (cla : UInt8) (a : Request) :
    Answers a.rnd (allDemands env key tr d.asks cla a)
      (d.step env nanoS (.apdu cla a.ins a.p1 a.p2 a.data a.rnd)).2 := by
  have hI := h.inv
  unfold allDemands
  simp only [List.cons_append, List.nil_append]
  simp only [Device.step, Device.dispatch]
  refine .cons (by decide) (fun hn => ?_) (fun hl => ?_)
  · rw [if_pos (show a.data.length > 255 by omega)]; rfl
  rw [if_neg (show ¬ a.data.length > 255 by omega)]
  refine .cons (by decide) (fun hn => ?_) (fun hcla => ?_)
  · rw [if_pos (show cla ≠ 0xE0 from hn)]; rfl
  rw [if_neg (show ¬ cla ≠ 0xE0 from not_not.2 hcla)]
  refine .cons (by decide) (fun hn => ?_) (fun hins => ?_)
  · simp only [List.mem_cons, List.not_mem_nil, or_false, not_or] at hn
    obtain ⟨n1, n2, n3, n4, n5, n6⟩ := hn
    rw [if_neg n1, if_neg n2, if_neg n3, if_neg n4, if_neg n5, if_neg n6]; rfl
  have hbz : d.asks ≠ none → d.busy = true := asks_busy hI
  have happ : (know tr).app = d.connectedApp := hI.app.symm
  simp only [List.mem_cons, List.not_mem_nil, or_false] at hins
  obtain ⟨ins, p1, p2, data, rnd⟩ := a
  simp only at *
  rcases hins with rfl | rfl | rfl | rfl | rfl | rfl
  · rw [if_pos (show (0x01 : UInt8) = 0x01 ∨ (0x01 : UInt8) = 0x02 by decide),
      if_pos (show (0x01 : UInt8) = 0x01 from rfl)]
    refine .cons (by decide) (fun hn => ?_) (fun hp => .nil (.inl ?_))
    · rw [if_pos]
      · rfl
      · simpa [paramsOk, imp_iff_not_or] using hn
    · rw [if_neg]
      · exact ⟨_, rfl⟩
      · simpa [paramsOk] using hp
  · rw [if_pos (show (0x02 : UInt8) = 0x01 ∨ (0x02 : UInt8) = 0x02 by decide),
      if_neg (show ¬ (0x02 : UInt8) = 0x01 by decide), if_pos (show (0x02 : UInt8) = 0x02 from rfl)]
    refine .cons (by decide) (fun hn => ?_) (fun hp => .nil (.inl ?_))
    · rw [if_pos]
      · rfl
      · simpa [paramsOk, imp_iff_not_or] using hn
    · rw [if_neg]
      · exact ⟨_, rfl⟩
      · simpa [paramsOk] using hp
  · rw [if_neg (show ¬ ((0x10 : UInt8) = 0x01 ∨ (0x10 : UInt8) = 0x02) by decide),
      if_neg (show ¬ (0x10 : UInt8) = 0x01 by decide), if_neg (show ¬ (0x10 : UInt8) = 0x02 by decide),
      if_pos (show (0x10 : UInt8) = 0x10 from rfl)]
    have hiff : (p1 = 0 ∨ p1 > 2 ∨ p2 > 0) ↔ ¬ paramsOk 0x10 p1 p2 = true := by
      have g1 := oneTwo p1
      have g2 : p2 > 0 ↔ ¬ p2 = 0 := UInt8.pos_iff_ne_zero
      simp only [paramsOk, show ¬ ((0x10 : UInt8) = 0x01 ∨ (0x10 : UInt8) = 0x02) by decide, if_false,
        if_true, decide_eq_true_eq]
      tauto
    refine .cons (by decide) (fun hn => ?_) (fun hp => ?_)
    · rw [if_pos (hiff.2 hn)]; rfl
    rw [if_neg (fun hh => hiff.1 hh hp)]
    refine .cons (by decide) (fun hn => ?_) (fun ha => ?_)
    · unfold Device.extPubKey
      rw [hbz hn]; rfl
    rw [if_pos (show (0x10 : UInt8) = 0x10 ∨ (0x10 : UInt8) = 0x11 ∨ p1 = 1 from .inl rfl), happ]
    exact why_epk (idle_notBusy hI ha) ⟨0x10, p1, p2, data, rnd⟩ rfl
  · rw [if_neg (show ¬ ((0x11 : UInt8) = 0x01 ∨ (0x11 : UInt8) = 0x02) by decide),
      if_neg (show ¬ (0x11 : UInt8) = 0x01 by decide), if_neg (show ¬ (0x11 : UInt8) = 0x02 by decide),
      if_neg (show ¬ (0x11 : UInt8) = 0x10 by decide), if_pos (show (0x11 : UInt8) = 0x11 from rfl)]
    have hiff : (p1 = 0 ∨ p1 > 2 ∨ p2 = 0 ∨ p2 > 2) ↔ ¬ paramsOk 0x11 p1 p2 = true := by
      have g1 := oneTwo p1
      have g2 := oneTwo p2
      simp only [paramsOk, show ¬ ((0x11 : UInt8) = 0x01 ∨ (0x11 : UInt8) = 0x02) by decide,
        show ¬ (0x11 : UInt8) = 0x10 by decide, if_false, if_true, decide_eq_true_eq]
      tauto
    refine .cons (by decide) (fun hn => ?_) (fun hp => ?_)
    · rw [if_pos (hiff.2 hn)]; rfl
    rw [if_neg (fun hh => hiff.1 hh hp)]
    refine .cons (by decide) (fun hn => ?_) (fun ha => ?_)
    · unfold Device.deriveAddress
      rw [hbz hn]; rfl
    rw [if_pos (show (0x11 : UInt8) = 0x10 ∨ (0x11 : UInt8) = 0x11 ∨ p1 = 1 from .inr (.inl rfl)), happ]
    refine why_address hwf (idle_notBusy hI ha) ⟨0x11, p1, p2, data, rnd⟩ rfl ?_
    have : (p1 = 1 ∨ p1 = 2) ∧ (p2 = 1 ∨ p2 = 2) := by simpa [paramsOk] using hp
    exact this.1
  · rw [if_neg (show ¬ ((0x20 : UInt8) = 0x01 ∨ (0x20 : UInt8) = 0x02) by decide),
      if_neg (show ¬ (0x20 : UInt8) = 0x01 by decide), if_neg (show ¬ (0x20 : UInt8) = 0x02 by decide),
      if_neg (show ¬ (0x20 : UInt8) = 0x10 by decide), if_neg (show ¬ (0x20 : UInt8) = 0x11 by decide),
      if_pos (show (0x20 : UInt8) = 0x20 from rfl)]
    have hiff : (p1 = 0 ∨ p2 = 0) ↔ ¬ paramsOk 0x20 p1 p2 = true := by
      simp [paramsOk, imp_iff_not_or]
    refine .cons (by decide) (fun hn => ?_) (fun hp => ?_)
    · rw [if_pos (hiff.2 hn)]; rfl
    have hp' : p1 ≠ 0 ∧ p2 ≠ 0 := by simpa [paramsOk] using hp
    rw [if_neg (fun hh => hiff.1 hh hp)]
    refine .cons (by decide) (fun hn => ?_) (fun ha => ?_)
    · unfold Device.attestInput
      rw [hbz hn]; rfl
    by_cases h1 : p1 = 1
    · rw [if_pos (show (0x20 : UInt8) = 0x10 ∨ (0x20 : UInt8) = 0x11 ∨ p1 = 1 from .inr (.inr h1)), happ]
      exact why_attestStart (idle_notBusy hI ha) ⟨0x20, p1, p2, data, rnd⟩ rfl h1
    · rw [if_neg (show ¬ ((0x20 : UInt8) = 0x10 ∨ (0x20 : UInt8) = 0x11 ∨ p1 = 1) by simpa using h1)]
      exact why_attestSub h ha ⟨0x20, p1, p2, data, rnd⟩ hl rfl hp'.1 hp'.2 h1
  · rw [if_neg (show ¬ ((0x21 : UInt8) = 0x01 ∨ (0x21 : UInt8) = 0x02) by decide),
      if_neg (show ¬ (0x21 : UInt8) = 0x01 by decide), if_neg (show ¬ (0x21 : UInt8) = 0x02 by decide),
      if_neg (show ¬ (0x21 : UInt8) = 0x10 by decide), if_neg (show ¬ (0x21 : UInt8) = 0x11 by decide),
      if_neg (show ¬ (0x21 : UInt8) = 0x20 by decide), if_pos (show (0x21 : UInt8) = 0x21 from rfl)]
    have hiff : (p1 = 0 ∨ p2 = 0) ↔ ¬ paramsOk 0x21 p1 p2 = true := by
      simp [paramsOk, imp_iff_not_or]
    refine .cons (by decide) (fun hn => ?_) (fun hp => ?_)
    · rw [if_pos (hiff.2 hn)]; rfl
    have hp' : p1 ≠ 0 ∧ p2 ≠ 0 := by simpa [paramsOk] using hp
    rw [if_neg (fun hh => hiff.1 hh hp)]
    refine .cons (by decide) (fun hn => ?_) (fun ha => ?_)
    · unfold Device.signTransaction
      rw [hbz hn]; rfl
    by_cases h1 : p1 = 1
    · rw [if_pos (show (0x21 : UInt8) = 0x10 ∨ (0x21 : UInt8) = 0x11 ∨ p1 = 1 from .inr (.inr h1)), happ]
      exact why_signStart (idle_notBusy hI ha) ⟨0x21, p1, p2, data, rnd⟩ rfl h1
    · rw [if_neg (show ¬ ((0x21 : UInt8) = 0x10 ∨ (0x21 : UInt8) = 0x11 ∨ p1 = 1) by simpa using h1)]
      exact why_signSub h ha ⟨0x21, p1, p2, data, rnd⟩ hl rfl hp'.1 hp'.2 h1

end Ergo
