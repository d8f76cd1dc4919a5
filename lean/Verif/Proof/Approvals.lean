import Verif.Spec.Approvals
import Verif.Proof.Lives
import Verif.Proof.MacFaults
import Verif.Props.Forge
/-!
# A guess costs an approval: one power cycle, with what comes after it

`C m` is what the tag of the body `m` may still be after what was seen; in all these worlds the device has come to the
same state `d`.
-/
namespace Ergo
open Spec

variable {env : Env} {nanoS : Bool} {key : Bytes} {B : Finset Bytes} {σ : List Obs → Option Event}
  {Γ : Type} [Fintype Γ] {L : List Obs → Finset Γ} {r : Nat}

theorem refusedIn_cons (o : Obs) (tr : List Obs) :
    refusedIn (o :: tr) = refusedIn tr + if tagRefused o then 1 else 0 := by
  unfold refusedIn
  by_cases h : tagRefused o <;> simp [h]

theorem refusedIn_le (a b : List Obs) : refusedIn b ≤ refusedIn (a ++ b) := by
  unfold refusedIn
  rw [List.filter_append, List.length_append]
  omega

theorem approvalsIn_cons (o : Obs) (tr : List Obs) :
    approvalsIn (o :: tr) = approvalsIn tr + if approvesSigning o then 1 else 0 := by
  unfold approvalsIn
  by_cases h : approvesSigning o <;> simp [h]

theorem approvalsIn_le (a b : List Obs) : approvalsIn b ≤ approvalsIn (a ++ b) := by
  unfold approvalsIn
  rw [List.filter_append, List.length_append]
  omega

/-- A frame is refused for its tag in an approved session only. -/
theorem refused_open {tr : List Obs} {d : Device} (h : Runs env nanoS key tr d) {e : Event}
    (hr : tagRefused (d.observe env nanoS e) = true) : (know tr).sign.isSome = true := by
  unfold tagRefused at hr
  split at hr
  · rename_i code out hrep
    simp only [Bool.and_eq_true, decide_eq_true_eq] at hr
    obtain ⟨hi, rfl⟩ := hr
    unfold isFrame at hi
    split at hi
    · rename_i cla ins p1 p2 data rnd he
      simp only [decide_eq_true_eq] at hi
      obtain ⟨rfl, rfl⟩ := hi
      have he : e = _ := he
      subst he
      have hrep : (d.step env nanoS (.apdu cla 0x21 0x12 p2 data rnd)).2 = .sw 0xE018 out := hrep
      have hI := h.inv
      simp only [Device.step, Device.dispatch, Device.signTransaction, Device.signSub] at hrep
      by_cases hl : data.length > 255
      · simp [hl, status] at hrep
        exact absurd hrep.1 (by decide)
      by_cases hc : cla ≠ 0xE0
      · simp [hl, hc, status, Sw.claNotSupported] at hrep
      by_cases hp : p2 = 0
      · simp [hl, hc, hp, status] at hrep
        exact absurd hrep.1 (by decide)
      by_cases hb : d.busy = true
      · simp [hl, hc, hp, hb, status] at hrep
        exact absurd hrep.1 (by decide)
      have hs : d.screen = none := by
        have := hI.busy
        cases hs : d.screen with
        | none => rfl
        | some s => rw [hs] at this; exact absurd this hb
      have hid := hI.idle hs
      by_cases hcmd : d.command = .signTransaction
      · unfold Idle at hid
        rw [hcmd] at hid
        obtain ⟨x, S, _, hS, _⟩ := hid
        rw [hS]
        rfl
      · simp [hl, hc, hp, hb, hcmd, Device.abort, status] at hrep
        exact absurd hrep.1 (by decide)
    · simp at hi
  · simp at hr

/-- A signing session begins with an approval only, and a refused frame ends it. -/
theorem refused_le {tr : List Obs} {d : Device} (h : Runs env nanoS key tr d) :
    refusedIn tr + (if (know tr).sign.isSome then 1 else 0) ≤ approvalsIn tr := by
  induction h with
  | boot => decide
  | @step tr d e h hh hu ih =>
    rw [refusedIn_cons, approvalsIn_cons]
    set o := d.observe env nanoS e with ho
    by_cases hr : tagRefused o = true
    · have := refused_open h hr
      rw [if_pos this] at ih
      have hn : (know (o :: tr)).sign = none := by
        unfold tagRefused at hr
        split at hr
        · rename_i code out hrep
          simp only [Bool.and_eq_true, decide_eq_true_eq] at hr
          obtain ⟨hi, rfl⟩ := hr
          unfold isFrame at hi
          split at hi
          · rename_i he
            simp [know, Ghost.next, he, hrep, harmless, Ghost.close]
          · simp at hi
        · simp at hr
      rw [hn, if_pos hr]
      simp
      omega
    · rw [if_neg hr]
      have key : (know (o :: tr)).sign.isSome = true → (know tr).sign.isSome = true ∨ approvesSigning o = true := by
        intro hs
        simp only [know, Ghost.next] at hs
        split at hs
        · left
          unfold Ghost.onWait at hs
          revert hs
          split
          · split <;> simp [Ghost.log]
          · simp [Ghost.close]
        · left
          revert hs
          split
          · unfold Ghost.onOk
            repeat' split
            all_goals simp [Ghost.log, Ghost.close]
          · split <;> simp [Ghost.close]
        · rename_i code out he hrep
          revert hs
          split
          · rename_i hc
            unfold Ghost.onApprove
            split
            · intro hs; left; simpa [Ghost.log] using hs
            · simp [Ghost.close]
            · rename_i ha
              intro _
              right
              simp [approvesSigning, he, hrep, ha, hc]
            · intro hs; exact .inl hs
            · intro hs; exact .inl hs
          · simp [Ghost.close]
        · simp [Ghost.close] at hs
        · simp [Ghost.close] at hs
        · exact .inl hs
      by_cases hs : (know (o :: tr)).sign.isSome = true
      · rw [if_pos hs]
        rcases key hs with h1 | h1
        · rw [if_pos h1] at ih
          omega
        · rw [if_pos h1]
          split at ih <;> omega
      · rw [if_neg hs]
        split at ih <;> omega

/-- Within `n` further events a frame is accepted that the device has not sent, or the power cycle ends and the rest of
the life is lucky. -/
def Steals (env : Env) (nanoS : Bool) (key : Bytes) (σ : List Obs → Option Event) (L : List Obs → Finset Γ) (r : Nat)
    (tr : List Obs) (n : Nat) (p : (B → Tag) × Γ) : Prop :=
  ∃ tr2 d, tr2.length ≤ n ∧ Runs (withTags env key p.1) nanoS key (tr2 ++ tr) d ∧ Plays σ (tr2 ++ tr) ∧
    ((∃ (m : B) (a : List Obs) (o : Obs) (b : List Obs), tr2 = a ++ o :: b ∧ FrameAccepted m o ∧
      ¬ FrameSent m (b ++ tr) ∧ refusedIn (b ++ tr) + 1 ≤ r) ∨
      CycleEnds (withTags env key p.1) nanoS σ (tr2 ++ tr) d ∧ p.2 ∈ L (tr2 ++ tr))

omit [Fintype Γ] in
theorem Steals.here {tr : List Obs} {p : (B → Tag) × Γ} {n : Nat} (h : Steals env nanoS key σ L r tr n p) {d : Device}
    (hd : Runs (withTags env key p.1) nanoS key tr d) :
    (CycleEnds (withTags env key p.1) nanoS σ tr d ∧ p.2 ∈ L tr) ∨
    ∃ n', n = n' + 1 ∧ ∃ e, σ tr = some e ∧ (d.step (withTags env key p.1) nanoS e).2 ≠ .hang ∧
      (d.step (withTags env key p.1) nanoS e).2 ≠ .ub ∧
      ((∃ m : B, FrameAccepted m (d.observe (withTags env key p.1) nanoS e) ∧ ¬ FrameSent m tr) ∨
        Steals env nanoS key σ L r (d.observe (withTags env key p.1) nanoS e :: tr) n' p) := by
  obtain ⟨tr2, d2, h1, h2, h3, h5⟩ := h
  rcases List.eq_nil_or_concat tr2 with rfl | ⟨l, x, rfl⟩
  · left
    have h2 : Runs _ _ _ tr d2 := h2
    obtain ⟨_, rfl⟩ := plays_det hd h2 h3 h3 rfl
    rcases h5 with ⟨m, a, o, b, e, _⟩ | ⟨h5, h6⟩
    · simp at e
    · exact ⟨h5, h6⟩
  · right
    have e : l.concat x ++ tr = l ++ x :: tr := by simp
    rw [e] at h2 h3 h5
    rw [List.length_concat] at h1
    obtain ⟨n', rfl⟩ : ∃ n', n = n' + 1 := ⟨n - 1, by omega⟩
    have hp := plays_tail h3
    obtain ⟨d1, hd1⟩ := h2.tail
    cases hd1 with
    | @step _ d0 e0 g1 g2 g3 =>
    obtain ⟨_, rfl⟩ := plays_det hd g1 hp.2 hp.2 rfl
    refine ⟨n', rfl, e0, hp.1, g2, g3, ?_⟩
    rcases h5 with ⟨m, a, o, b, e', h6, h7⟩ | h5
    · rcases List.eq_nil_or_concat b with rfl | ⟨b, y, rfl⟩
      · left
        rw [List.concat_eq_append] at e'
        obtain ⟨_, e''⟩ := List.append_inj' e' rfl
        cases e''
        exact ⟨m, h6, by simpa using h7.1⟩
      · right
        have e2 : l.concat (d.observe (withTags env key p.1) nanoS e0) = (a ++ o :: b).concat y := by rw [e']; simp
        rw [List.concat_eq_append, List.concat_eq_append] at e2
        obtain ⟨e3, e4⟩ := List.append_inj' e2 rfl
        cases e4
        exact ⟨l, d2, by omega, h2, h3, .inl ⟨m, a, o, b, e3, h6, by simpa using h7⟩⟩
    · right
      exact ⟨l, d2, by omega, h2, h3, .inr h5⟩

/-- Whoever steals has an approval left. -/
theorem Steals.left {tr : List Obs} {p : (B → Tag) × Γ} {n : Nat} (h : Steals env nanoS key σ L r tr n p)
    (hL : ∀ tr, 2 ^ 128 * (L tr).card ≤ (r - refusedIn tr) * Fintype.card Γ) : refusedIn tr + 1 ≤ r := by
  obtain ⟨tr2, d2, _, _, _, ⟨m, a, o, b, rfl, _, _, h⟩ | ⟨_, h⟩⟩ := h
  · exact le_trans (Nat.add_le_add_right (refusedIn_le b tr) 1) h
  · have h1 := hL (tr2 ++ tr)
    have h2 : 0 < (L (tr2 ++ tr)).card := Finset.card_pos.2 ⟨_, h⟩
    have h3 := refusedIn_le tr2 tr
    by_contra hc
    have : r - refusedIn (tr2 ++ tr) = 0 := by omega
    rw [this, Nat.zero_mul] at h1
    omega

open Classical in
/-- The worlds and later draws that steal. -/
noncomputable def thieves (env : Env) (nanoS : Bool) (key : Bytes) (σ : List Obs → Option Event)
    (L : List Obs → Finset Γ) (r : Nat) (tr : List Obs) (n : Nat) (C : B → Finset Tag) : Finset ((B → Tag) × Γ) :=
  (Fintype.piFinset C ×ˢ (Finset.univ : Finset Γ)).filter (Steals env nanoS key σ L r tr n)

theorem mem_thieves {tr : List Obs} {n : Nat} {C : B → Finset Tag} {p : (B → Tag) × Γ} :
    p ∈ thieves env nanoS key σ L r tr n C ↔ p.1 ∈ Fintype.piFinset C ∧ Steals env nanoS key σ L r tr n p := by
  classical
  unfold thieves
  rw [Finset.mem_filter, Finset.mem_product]
  simp

theorem thieves_le {tr : List Obs} {n : Nat} {C : B → Finset Tag} :
    (thieves env nanoS key σ L r tr n C).card ≤ (Fintype.piFinset C).card * Fintype.card Γ := by
  classical
  unfold thieves
  refine (Finset.card_le_card (Finset.filter_subset _ _)).trans ?_
  rw [Finset.card_product, Finset.card_univ]

/-- What holds in all worlds that are still possible. -/
structure Alike (env : Env) (nanoS : Bool) (key : Bytes) (σ : List Obs → Option Event) (tr : List Obs) (d : Device)
    (C : B → Finset Tag) (M : Nat) : Prop where
  runs : ∀ f ∈ Fintype.piFinset C, Runs (withTags env key f) nanoS key tr d
  plays : Plays σ tr
  sent : ∀ m : B, FrameSent m tr → ∀ f ∈ Fintype.piFinset C, ∀ f' ∈ Fintype.piFinset C, f m = f' m
  size : ∀ m : B, ¬ FrameSent m tr → M ≤ (C m).card

/-- A power cycle that ends here. -/
theorem steal_end {tr : List Obs} {d : Device} {C : B → Finset Tag} {M n : Nat} (hM : M ≤ 2 ^ 128)
    (hL : ∀ tr, 2 ^ 128 * (L tr).card ≤ (r - refusedIn tr) * Fintype.card Γ)
    (hruns : ∀ f ∈ Fintype.piFinset C, Runs (withTags env key f) nanoS key tr d)
    (h : ∀ f ∈ Fintype.piFinset C, CycleEnds (withTags env key f) nanoS σ tr d) :
    M * (thieves env nanoS key σ L r tr n C).card ≤ (r - refusedIn tr) * ((Fintype.piFinset C).card * Fintype.card Γ) := by
  have hsub : thieves env nanoS key σ L r tr n C ⊆ Fintype.piFinset C ×ˢ L tr := by
    intro p hp
    obtain ⟨h1, h2⟩ := mem_thieves.1 hp
    refine Finset.mem_product.2 ⟨h1, ?_⟩
    rcases h2.here (hruns _ h1) with ⟨_, h3⟩ | ⟨_, _, e, h3, h4, h5, _⟩
    · exact h3
    · rcases h _ h1 with h6 | ⟨e', h6, h7⟩
      · rw [h3] at h6; cases h6
      · obtain rfl : e = e' := Option.some.inj (h3.symm.trans h6)
        exact (h7.elim h4 h5).elim
  have hc := Finset.card_le_card hsub
  rw [Finset.card_product] at hc
  calc M * _ ≤ 2 ^ 128 * ((Fintype.piFinset C).card * (L tr).card) := Nat.mul_le_mul hM hc
    _ = (Fintype.piFinset C).card * (2 ^ 128 * (L tr).card) := by ring
    _ ≤ (Fintype.piFinset C).card * ((r - refusedIn tr) * Fintype.card Γ) := Nat.mul_le_mul_left _ (hL tr)
    _ = _ := by ring

/-- An event with the same effect in all worlds, that is no theft. -/
theorem steal_next {n : Nat} {tr : List Obs} {d d' : Device} {C : B → Finset Tag} {M : Nat} (hM : M ≤ 2 ^ 128)
    (hL : ∀ tr, 2 ^ 128 * (L tr).card ≤ (r - refusedIn tr) * Fintype.card Γ)
    (ih : ∀ (tr : List Obs) (d : Device), Alike env nanoS key σ tr d C M →
      M * (thieves env nanoS key σ L r tr n C).card ≤ (r - refusedIn tr) * ((Fintype.piFinset C).card * Fintype.card Γ))
    (hruns : ∀ f ∈ Fintype.piFinset C, Runs (withTags env key f) nanoS key tr d) (hplays : Plays σ tr)
    (hsent : ∀ m : B, FrameSent m tr → ∀ f ∈ Fintype.piFinset C, ∀ f' ∈ Fintype.piFinset C, f m = f' m)
    {e : Event} (hσ : σ tr = some e) {rep : Reply}
    (hu : ∀ f ∈ Fintype.piFinset C, d.step (withTags env key f) nanoS e = (d', rep))
    (hacc : ∀ m : B, FrameAccepted m ⟨d.asks, d.here, e, rep⟩ → FrameSent m tr)
    (hnew : ∀ m : B, FrameSent m [⟨d.asks, d.here, e, rep⟩] → ∀ f ∈ Fintype.piFinset C, ∀ f' ∈ Fintype.piFinset C,
      f m = f' m)
    (hsize : ∀ m : B, ¬ FrameSent m (⟨d.asks, d.here, e, rep⟩ :: tr) → M ≤ (C m).card) :
    M * (thieves env nanoS key σ L r tr (n + 1) C).card ≤
      (r - (refusedIn tr + if tagRefused ⟨d.asks, d.here, e, rep⟩ then 1 else 0)) *
        ((Fintype.piFinset C).card * Fintype.card Γ) := by
  by_cases hrep : rep = .hang ∨ rep = .ub
  · have : tagRefused ⟨d.asks, d.here, e, rep⟩ = false := by
      rcases hrep with rfl | rfl <;> rfl
    rw [this]
    refine steal_end hM hL hruns fun f hf => .inr ⟨e, hσ, ?_⟩
    rw [hu f hf]
    exact hrep
  · push Not at hrep
    rw [← refusedIn_cons]
    refine le_trans (Nat.mul_le_mul_left M (Finset.card_le_card ?_)) (ih _ d' ⟨?_, ⟨hσ, hplays⟩, ?_, hsize⟩)
    · intro p hp
      obtain ⟨h1, h2⟩ := mem_thieves.1 hp
      have hob : d.observe (withTags env key p.1) nanoS e = ⟨d.asks, d.here, e, rep⟩ := by
        unfold Device.observe
        rw [hu _ h1]
      rcases h2.here (hruns _ h1) with ⟨h3 | ⟨e', h3, h4⟩, _⟩ | ⟨n', hn, e', h3, _, _, h4⟩
      · rw [hσ] at h3; cases h3
      · obtain rfl : e = e' := Option.some.inj (hσ.symm.trans h3)
        rw [hu _ h1] at h4
        exact (h4.elim hrep.1 hrep.2).elim
      · obtain rfl : e = e' := Option.some.inj (hσ.symm.trans h3)
        obtain rfl : n = n' := by omega
        rw [hob] at h4
        rcases h4 with ⟨m, h4, h5⟩ | h4
        · exact absurd (hacc m h4) h5
        · exact mem_thieves.2 ⟨h1, h4⟩
    · intro f hf
      have h1 := hu f hf
      have h2 := Runs.step e (hruns f hf) (by rw [h1]; exact hrep.1) (by rw [h1]; exact hrep.2)
      unfold Device.observe at h2
      rw [h1] at h2
      exact h2
    · intro m hm
      rcases sent_cons.1 hm with hm | hm
      · exact hnew m hm
      · exact hsent m hm

/-- One event in two worlds where it is a right guess in both or in neither. -/
theorem step_worlds {f f' : B → Tag} {d : Device} (hk : d.sessionKey = key) {e : Event}
    (h : ∀ m : B, presents m ⟨none, none, e, .wait⟩ = some (tagBytes (f m)) ↔
      presents m ⟨none, none, e, .wait⟩ = some (tagBytes (f' m))) :
    (d.step (withTags env key f') nanoS e).1 = (d.step (withTags env key f) nanoS e).1 ∧
      ((d.step (withTags env key f') nanoS e).2 = (d.step (withTags env key f) nanoS e).2 ∨
        (∃ cla p2 data rnd, e = .apdu cla 0x20 0x05 p2 data rnd) ∧ ∃ m : B,
          (d.step (withTags env key f) nanoS e).2 = .sw 0x9000 (m ++ tagBytes (f m)) ∧
          (d.step (withTags env key f') nanoS e).2 = .sw 0x9000 (m ++ tagBytes (f' m))) := by
  have hs := sameButMac_eq (env := withTags env key f) (env' := withTags env key f') ⟨rfl, rfl, rfl, rfl, rfl, rfl⟩
  have hsame : SameButTag (withTags env key f) d.sessionKey (withTags env key f') key e e := by
    cases hev : e with
    | left => exact .left
    | right => exact .right
    | both => exact .both
    | apdu cla ins p1 p2 data rnd =>
      by_cases hc : ins = 0x21 ∧ p1 = 0x12
      · obtain ⟨rfl, rfl⟩ := hc
        refine .frame (.same ?_)
        unfold TagOk
        rw [hk]
        by_cases hb : data.take (tagAt data) ∈ B
        · have e' := presents_eq (o := ⟨none, none, e, .wait⟩) hev (rfl : data.take (tagAt data) = _)
          have h' := h ⟨_, hb⟩
          have e1 := withTags_in (env := env) (key := key) f ⟨_, hb⟩
          have e2 := withTags_in (env := env) (key := key) f' ⟨_, hb⟩
          simp only at e1 e2 h'
          rw [e'] at h'
          rw [e1, e2]
          simpa using h'
        · rw [withTags_out _ hb, withTags_out _ hb]
      · exact .other hc
  rw [hs] at hsame
  have := step_rekey nanoS d hsame
  rw [← hs] at this
  have hr : ∀ d : Device, d.sessionKey = key → d.rekey key = d := by
    rintro d rfl
    rfl
  rw [hr d hk, hr _ (by rw [step_sessionKey, hk])] at this
  refine ⟨this.1, ?_⟩
  rcases this.2 with h | ⟨h, b, h3, h4⟩
  · exact .inl h
  · rw [hk] at h3
    by_cases hb : b ∈ B
    · right
      have e1 := withTags_in (env := env) (key := key) f ⟨_, hb⟩
      have e2 := withTags_in (env := env) (key := key) f' ⟨_, hb⟩
      simp only at e1 e2
      rw [e1] at h3
      rw [e2] at h4
      exact ⟨h, ⟨b, hb⟩, h3, h4⟩
    · left
      rw [withTags_out _ hb] at h3
      have h4 : _ = Reply.sw 0x9000 (b ++ ((withTags env key f').hmac key b).take 16) := h4
      rw [withTags_out _ hb] at h4
      rw [h3, h4]

/-- A frame with a wrong tag is refused for it, or not even looked at. -/
theorem frame_looked {f : B → Tag} {d : Device} (hk : d.sessionKey = key) {m : B} {τ : Bytes} {e : Event}
    (hp : presents m ⟨none, none, e, .wait⟩ = some τ) (hne : τ ≠ tagBytes (f m)) :
    (d.step (withTags env key f) nanoS e).2 = .sw 0xE018 [] ∨
      ∀ f' : B → Tag, d.step (withTags env key f') nanoS e = d.step (withTags env key f) nanoS e := by
  obtain ⟨cla, p2, data, rnd, he, hb, rfl⟩ := presents_some hp
  have he : e = _ := he
  subst he
  simp only [Device.step, Device.dispatch, Device.signTransaction, Device.signSub]
  by_cases hl : data.length > 255
  · right; intro f'; simp [hl]
  by_cases hc : cla ≠ 0xE0
  · right; intro f'; simp [hl, hc]
  by_cases h2 : p2 = 0
  · right; intro f'; simp [hl, hc, h2]
  by_cases hbz : d.busy = true
  · right; intro f'; simp [hl, hc, h2, hbz]
  by_cases hcmd : d.command ≠ .signTransaction
  · right; intro f'; simp [hl, hc, h2, hbz, hcmd]
  cases hx : d.ctx with
  | sign x =>
    by_cases hse : p2 ≠ x.session
    · right; intro f'; simp [hl, hc, h2, hbz, hcmd, hse]
    by_cases ha : x.approved = true
    · by_cases hz : (frameDataLen data).toNat = 0
      · right; intro f'; simp [hl, hc, h2, hbz, hcmd, hse, ha, opFrame, hz]
      · left
        have e1 := withTags_in (env := env) (key := key) f m
        have hta := frameDataLen_tagAt hz
        have : opFrame (withTags env key f) d.sessionKey x.p data = .err Sw.badFrameSignature := by
          unfold opFrame
          rw [if_neg hz, if_pos]
          rw [hta, hb, hk, e1]
          exact fun h => hne h.symm
        simp [hl, hc, h2, hbz, hcmd, hse, ha, this, Device.signResult, Device.abort, status, Sw.badFrameSignature]
    · right; intro f'; simp [hl, hc, h2, hbz, hcmd, hse, ha]
  | _ => right; intro f'; simp [hl, hc, h2, hbz, hcmd]

/-- A frame that is accepted in a world carries the right tag of that world. -/
theorem stolen_tag {f : B → Tag} {tr : List Obs} {d : Device} (h : Runs (withTags env key f) nanoS key tr d) {e : Event}
    {m : B} (ha : FrameAccepted m ⟨d.asks, d.here, e, (d.step (withTags env key f) nanoS e).2⟩) :
    presents m ⟨none, none, e, .wait⟩ = some (tagBytes (f m)) := by
  obtain ⟨out, hr⟩ := ha.2
  have hr : (d.step (withTags env key f) nanoS e).2 = .sw 0x9000 out := hr
  have := accepted_tag (Runs.step e h (by rw [hr]; simp) (by rw [hr]; simp)) ha
  rw [withTags_in f m] at this
  exact this.1

/-- One power cycle and what comes after it. -/
theorem steal_all (hL : ∀ tr, 2 ^ 128 * (L tr).card ≤ (r - refusedIn tr) * Fintype.card Γ) :
    ∀ (n : Nat) (tr : List Obs) (d : Device) (C : B → Finset Tag) (M : Nat), Alike env nanoS key σ tr d C M →
    M ≤ 2 ^ 128 → M * (thieves env nanoS key σ L r tr n C).card ≤
      (r - refusedIn tr) * ((Fintype.piFinset C).card * Fintype.card Γ)
  | 0, tr, d, C, M, hA, hM1 => by
    rcases hσ : σ tr with _ | e
    · exact steal_end hM1 hL hA.runs fun f hf => .inl hσ
    have hsub : thieves env nanoS key σ L r tr 0 C ⊆ Fintype.piFinset C ×ˢ L tr := by
      intro p hp
      obtain ⟨h1, h2⟩ := mem_thieves.1 hp
      rcases h2.here (hA.runs _ h1) with ⟨_, h3⟩ | ⟨_, h3, _⟩
      · exact Finset.mem_product.2 ⟨h1, h3⟩
      · simp at h3
    have hc := Finset.card_le_card hsub
    rw [Finset.card_product] at hc
    calc M * _ ≤ 2 ^ 128 * ((Fintype.piFinset C).card * (L tr).card) := Nat.mul_le_mul hM1 hc
      _ = (Fintype.piFinset C).card * (2 ^ 128 * (L tr).card) := by ring
      _ ≤ (Fintype.piFinset C).card * ((r - refusedIn tr) * Fintype.card Γ) := Nat.mul_le_mul_left _ (hL tr)
      _ = _ := by ring
  | n + 1, tr, d, C, M, hA, hM1 => by
    classical
    rcases hσ : σ tr with _ | e
    · exact steal_end hM1 hL hA.runs fun f hf => .inl hσ
    have ih := steal_all hL n
    rcases (thieves env nanoS key σ L r tr (n + 1) C).eq_empty_or_nonempty with h0 | ⟨p0, hp0⟩
    · rw [h0]; simp
    obtain ⟨hC0, hw0⟩ := mem_thieves.1 hp0
    have hpos := hw0.left hL
    have hkey := (hA.runs _ hC0).inv.key
    have hweak : ∀ (b : Bool) (K : Nat), (r - (refusedIn tr + if b then 1 else 0)) * K ≤ (r - refusedIn tr) * K :=
      fun b K => Nat.mul_le_mul_right _ (Nat.sub_le_sub_left (Nat.le_add_right _ _) _)
    by_cases hi : isFrame ⟨none, none, e, .wait⟩ = true
    · have hns : ∀ (m : Bytes) (rep : Reply), ¬ FrameSent m [⟨d.asks, d.here, e, rep⟩] := fun m rep =>
        not_sent_frame (by rw [← hi]; rfl)
      have hng : ∀ cla p2 data rnd, e ≠ .apdu cla 0x20 0x05 p2 data rnd := by
        rintro cla p2 data rnd rfl
        simp [isFrame] at hi
      have hsz : ∀ (C' : B → Finset Tag) (M' : Nat) (rep : Reply), (∀ m : B, ¬ FrameSent m tr → M' ≤ (C' m).card) →
          ∀ m : B, ¬ FrameSent m (⟨d.asks, d.here, e, rep⟩ :: tr) → M' ≤ (C' m).card :=
        fun C' M' rep h m hm => h m fun hs => hm (sent_cons.2 (.inr hs))
      by_cases hg : ∃ (m : B) (v : Tag), presents m ⟨none, none, e, .wait⟩ = some (tagBytes v) ∧ ¬ FrameSent m tr ∧
          v ∈ C m
      · obtain ⟨m, v, hp, hs, hv⟩ := hg
        by_cases hq : ∃ f ∈ Fintype.piFinset C, f m ≠ v ∧ (d.step (withTags env key f) nanoS e).2 ≠ .sw 0xE018 []
        · -- nobody looks at the tag
          obtain ⟨f0, hf0, hne, hrep⟩ := hq
          have hne' : tagBytes v ≠ tagBytes (f0 m) := fun h => hne (tagBytes_inj h).symm
          have hu := (frame_looked (nanoS := nanoS) (env := env) hkey hp hne').resolve_left hrep
          refine le_trans (steal_next hM1 hL (fun tr d h => ih tr d C M h hM1) hA.runs hA.plays hA.sent hσ
            (fun f _ => hu f) ?_ (fun m' hm' => absurd hm' (hns m' _)) (hsz C M _ hA.size)) (hweak _ _)
          intro m' hm'
          have h1 := stolen_tag (hA.runs f0 hf0) hm'
          obtain ⟨e1, e2⟩ := presents_unique h1 hp rfl
          have e1 : m' = m := Subtype.ext e1
          subst e1
          exact absurd e2.symm hne'
        · -- a guess
          push Not at hq
          have hsub := Finset.erase_subset v (C m)
          set C1 := Function.update C m ((C m).erase v) with hC1
          have hk1 : ∀ M', M' ≤ M → (∀ m' : B, ¬ FrameSent m' tr → M' ≤ (C1 m').card) →
              M' * (thieves env nanoS key σ L r tr (n + 1) C1).card ≤
                (r - (refusedIn tr + 1)) * ((Fintype.piFinset C1).card * Fintype.card Γ) := by
            intro M' hMM hM'
            rcases (Fintype.piFinset C1).eq_empty_or_nonempty with hz | ⟨f1, hf1⟩
            · have := thieves_le (env := env) (nanoS := nanoS) (key := key) (σ := σ) (L := L) (r := r) (tr := tr)
                (n := n + 1) (C := C1)
              rw [hz] at this ⊢
              simp at this ⊢
              rw [this]
              simp
            have hwrong : ∀ f ∈ Fintype.piFinset C1, f m ≠ v := fun f hf =>
              (Finset.mem_erase.1 (pi_update_mem hsub hf)).1
            have hnp : ∀ f ∈ Fintype.piFinset C1, ∀ m' : B,
                presents m' ⟨none, none, e, .wait⟩ ≠ some (tagBytes (f m')) := by
              intro f hf m' hm'
              obtain ⟨e1, e2⟩ := presents_unique hm' hp rfl
              have e1 : m' = m := Subtype.ext e1
              subst e1
              exact hwrong f hf (tagBytes_inj e2)
            have hrf : ∀ f ∈ Fintype.piFinset C1, (d.step (withTags env key f) nanoS e).2 = .sw 0xE018 [] :=
              fun f hf => hq f (pi_update_sub hsub hf) (hwrong f hf)
            have hu : ∀ f ∈ Fintype.piFinset C1, d.step (withTags env key f) nanoS e =
                ((d.step (withTags env key f1) nanoS e).1, .sw 0xE018 []) := by
              intro f hf
              have := (step_worlds (nanoS := nanoS) (env := env) hkey (f := f1) (f' := f) (e := e) fun m' =>
                iff_of_false (hnp f1 hf1 m') (hnp f hf m')).1
              exact Prod.ext this (hrf f hf)
            have htr : tagRefused ⟨d.asks, d.here, e, .sw 0xE018 []⟩ = true := by
              have : isFrame ⟨d.asks, d.here, e, .sw 0xE018 []⟩ = true := by rw [← hi]; rfl
              unfold tagRefused
              simp [this]
            have := steal_next (hMM.trans hM1) hL (fun tr d h => ih tr d C1 M' h (hMM.trans hM1))
              (fun f hf => hA.runs f (pi_update_sub hsub hf)) hA.plays
              (fun m' hm' f hf f' hf' => hA.sent m' hm' f (pi_update_sub hsub hf) f' (pi_update_sub hsub hf')) hσ hu
              (fun m' hm' => by
                obtain ⟨_, out, ho⟩ := hm'
                simp at ho) (fun m' hm' => absurd hm' (hns m' _)) (hsz C1 M' _ hM')
            rwa [htr, if_pos rfl] at this
          have hcard : (thieves env nanoS key σ L r tr (n + 1) C).card ≤
              (Fintype.piFinset (Function.update C m {v})).card * Fintype.card Γ +
                (thieves env nanoS key σ L r tr (n + 1) C1).card := by
            have : thieves env nanoS key σ L r tr (n + 1) C ⊆
                (Fintype.piFinset (Function.update C m {v}) ×ˢ (Finset.univ : Finset Γ)) ∪
                  thieves env nanoS key σ L r tr (n + 1) C1 := by
              intro p hp
              obtain ⟨h1, h2⟩ := mem_thieves.1 hp
              rw [Finset.mem_union]
              by_cases he : p.1 m = v
              · left
                rw [Fintype.piFinset_update_singleton_eq_filter_piFinset_eq C m hv]
                exact Finset.mem_product.2 ⟨Finset.mem_filter.2 ⟨h1, he⟩, Finset.mem_univ _⟩
              · right
                refine mem_thieves.2 ⟨?_, h2⟩
                rw [hC1, Fintype.piFinset_update_eq_filter_piFinset_mem C m hsub]
                exact Finset.mem_filter.2 ⟨h1, Finset.mem_erase.2 ⟨he, Fintype.mem_piFinset.1 h1 m⟩⟩
            refine (Finset.card_le_card this).trans ((Finset.card_union_le _ _).trans ?_)
            rw [Finset.card_product, Finset.card_univ]
          have hfib := pi_fiber hv
          have hspl := pi_split hv
          rw [← hC1] at hspl
          have hk := hA.size m hs
          have hce : ((C m).erase v).card = (C m).card - 1 := Finset.card_erase_of_mem hv
          have hkpos : 0 < (C m).card := Finset.card_pos.2 ⟨v, hv⟩
          have hR : r - refusedIn tr = (r - (refusedIn tr + 1)) + 1 := by omega
          rw [hR]
          refine guess_bound hk hkpos hcard (p1 := (Fintype.piFinset C1).card * Fintype.card Γ) ?_ ?_ thieves_le ?_ ?_
          · rw [← hfib]; ring
          · rw [← hspl]; ring
          · intro hlt
            refine hk1 M le_rfl fun m' hm' => ?_
            by_cases e : m' = m
            · subst e
              rw [hC1, Function.update_self, hce]
              omega
            · rw [hC1, Function.update_of_ne e]
              exact hA.size m' hm'
          · intro hMk
            refine hk1 (M - 1) (Nat.sub_le _ _) fun m' hm' => ?_
            by_cases e : m' = m
            · subst e
              rw [hC1, Function.update_self, hce]
              omega
            · rw [hC1, Function.update_of_ne e]
              exact le_trans (Nat.sub_le _ _) (hA.size m' hm')
      · -- a frame that cannot be a right guess
        have hno : ∀ f ∈ Fintype.piFinset C, ∀ m : B, presents m ⟨none, none, e, .wait⟩ = some (tagBytes (f m)) →
            FrameSent m tr := by
          intro f hf m hp
          by_contra hs
          exact hg ⟨m, f m, hp, hs, Fintype.mem_piFinset.1 hf m⟩
        have hu : ∀ f ∈ Fintype.piFinset C, d.step (withTags env key f) nanoS e =
            ((d.step (withTags env key p0.1) nanoS e).1, (d.step (withTags env key p0.1) nanoS e).2) := by
          intro f hf
          have := step_worlds (nanoS := nanoS) (env := env) hkey (f := p0.1) (f' := f) (e := e) fun m => by
            by_cases hs : FrameSent m tr
            · rw [hA.sent m hs _ hC0 _ hf]
            · exact iff_of_false (fun h => hs (hno _ hC0 m h)) (fun h => hs (hno _ hf m h))
          refine Prod.ext this.1 (this.2.resolve_right ?_)
          rintro ⟨⟨cla, p2, data, rnd, he⟩, _⟩
          exact hng _ _ _ _ he
        refine le_trans (steal_next hM1 hL (fun tr d h => ih tr d C M h hM1) hA.runs hA.plays hA.sent hσ
          hu ?_ (fun m' hm' => absurd hm' (hns m' _)) (hsz C M _ hA.size)) (hweak _ _)
        exact fun m hm => hno _ hC0 m (stolen_tag (hA.runs _ hC0) hm)
    · -- no frame is presented
      have hnp : ∀ (m : B) (τ : Bytes), presents m ⟨none, none, e, .wait⟩ ≠ some τ := fun m τ hp =>
        hi (presents_frame hp)
      have hnacc : ∀ (m : B) (rep : Reply), ¬ FrameAccepted m ⟨d.asks, d.here, e, rep⟩ := by
        rintro m rep ⟨h, _⟩
        obtain ⟨τ, h⟩ := Option.isSome_iff_exists.1 h
        exact hnp m τ h
      have hst : ∀ f f' : B → Tag, _ := fun f f' =>
        step_worlds (nanoS := nanoS) (env := env) hkey (f := f) (f' := f') (e := e)
          fun m => iff_of_false (hnp m _) (hnp m _)
      by_cases hb : ∃ b : B, FrameSent b [⟨d.asks, d.here, e, (d.step (withTags env key p0.1) nanoS e).2⟩]
      · obtain ⟨b, hb⟩ := hb
        have hclass : ∀ v ∈ C b,
            M * ((thieves env nanoS key σ L r tr (n + 1) C).filter (fun p => p.1 b = v)).card ≤
              (r - refusedIn tr) * (((Fintype.piFinset C).filter (fun f => f b = v)).card * Fintype.card Γ) := by
          intro v hv
          have hsub : ({v} : Finset Tag) ⊆ C b := Finset.singleton_subset_iff.2 hv
          set C1 := Function.update C b {v} with hC1
          have hin : ∀ f ∈ Fintype.piFinset C1, f b = v := fun f hf => Finset.mem_singleton.1 (pi_update_mem hsub hf)
          have hmem : ∀ p ∈ (thieves env nanoS key σ L r tr (n + 1) C).filter (fun p => p.1 b = v),
              p ∈ thieves env nanoS key σ L r tr (n + 1) C1 := by
            intro p hp
            obtain ⟨h1, h2⟩ := Finset.mem_filter.1 hp
            refine mem_thieves.2 ⟨?_, (mem_thieves.1 h1).2⟩
            rw [hC1, Fintype.piFinset_update_singleton_eq_filter_piFinset_eq C b hv]
            exact Finset.mem_filter.2 ⟨(mem_thieves.1 h1).1, h2⟩
          rcases (Fintype.piFinset C1).eq_empty_or_nonempty with hz | ⟨f1, hf1⟩
          · have := thieves_le (env := env) (nanoS := nanoS) (key := key) (σ := σ) (L := L) (r := r) (tr := tr)
              (n := n + 1) (C := C1)
            rw [hz] at this
            simp at this
            have h0 : (thieves env nanoS key σ L r tr (n + 1) C).filter (fun p => p.1 b = v) = ∅ := by
              rw [Finset.eq_empty_iff_forall_notMem]
              intro p hp
              have := hmem p hp
              simp_all
            rw [h0]
            simp
          -- the body that is sent is the same in all worlds
          have hsb : ∀ f : B → Tag, ∀ m : B,
              FrameSent m [⟨d.asks, d.here, e, (d.step (withTags env key f) nanoS e).2⟩] ↔ m = b := by
            intro f m
            have hfb : FrameSent b [⟨d.asks, d.here, e, (d.step (withTags env key f) nanoS e).2⟩] := by
              rcases (hst p0.1 f).2 with h | ⟨hgf, m', h1, h2⟩
              · rw [h]; exact hb
              · have hm' : FrameSent m' [⟨d.asks, d.here, e, (d.step (withTags env key p0.1) nanoS e).2⟩] :=
                  ⟨_, List.mem_singleton.2 rfl, hgf, _, tagBytes_length _, h1⟩
                rw [sent_unique hb hm']
                exact ⟨_, List.mem_singleton.2 rfl, hgf, _, tagBytes_length _, h2⟩
            exact ⟨fun h => Subtype.ext (sent_unique h hfb), fun h => h ▸ hfb⟩
          have hu : ∀ f ∈ Fintype.piFinset C1, d.step (withTags env key f) nanoS e =
              ((d.step (withTags env key f1) nanoS e).1, (d.step (withTags env key f1) nanoS e).2) := by
            intro f hf
            have := hst f1 f
            refine Prod.ext this.1 ?_
            rcases this.2 with h | ⟨hgf, m', h1, h2⟩
            · exact h
            · have hm' : m' = b := (hsb f1 m').1 ⟨_, List.mem_singleton.2 rfl, hgf, _, tagBytes_length _, h1⟩
              subst hm'
              simp only
              rw [h1, h2, hin f hf, hin f1 hf1]
          have := steal_next hM1 hL (fun tr d h => ih tr d C1 M h hM1)
            (fun f hf => hA.runs f (pi_update_sub hsub hf)) hA.plays
            (fun m' hm' f hf f' hf' => hA.sent m' hm' f (pi_update_sub hsub hf) f' (pi_update_sub hsub hf')) hσ hu
            (fun m' hm' => absurd hm' (hnacc m' _))
            (fun m' hm' f hf f' hf' => by
              obtain rfl := (hsb f1 m').1 hm'
              rw [hin f hf, hin f' hf'])
            (fun m' hm' => by
              have e : m' ≠ b := by
                rintro rfl
                exact hm' (sent_cons.2 (.inl ((hsb f1 m').2 rfl)))
              rw [hC1, Function.update_of_ne e]
              exact hA.size m' fun hs => hm' (sent_cons.2 (.inr hs)))
          refine le_trans (Nat.mul_le_mul_left M (Finset.card_le_card hmem)) ((this.trans (hweak _ _)).trans (le_of_eq ?_))
          rw [hC1, Fintype.piFinset_update_singleton_eq_filter_piFinset_eq C b hv]
        have hmaps : ∀ f ∈ Fintype.piFinset C, f b ∈ C b := fun f hf => Fintype.mem_piFinset.1 hf b
        rw [Finset.card_eq_sum_card_fiberwise (f := fun p : (B → Tag) × Γ => p.1 b) (t := C b)
            (s := thieves env nanoS key σ L r tr (n + 1) C)
            (fun p hp => hmaps p.1 (mem_thieves.1 (Finset.mem_coe.1 hp)).1),
          Finset.card_eq_sum_card_fiberwise (f := fun f => f b) (t := C b) (s := Fintype.piFinset C)
            (fun f hf => hmaps f (Finset.mem_coe.1 hf)),
          Finset.mul_sum, Finset.sum_mul, Finset.mul_sum]
        exact Finset.sum_le_sum hclass
      · have hu : ∀ f ∈ Fintype.piFinset C, d.step (withTags env key f) nanoS e =
            ((d.step (withTags env key p0.1) nanoS e).1, (d.step (withTags env key p0.1) nanoS e).2) := by
          intro f hf
          have := hst p0.1 f
          refine Prod.ext this.1 (this.2.resolve_right ?_)
          rintro ⟨hgf, m', h1, _⟩
          exact hb ⟨m', _, List.mem_singleton.2 rfl, hgf, _, tagBytes_length _, h1⟩
        exact le_trans (steal_next hM1 hL (fun tr d h => ih tr d C M h hM1) hA.runs hA.plays hA.sent hσ hu
          (fun m' hm' => absurd hm' (hnacc m' _)) (fun m' hm' => absurd ⟨m', hm'⟩ hb)
          (fun m' hm' => hA.size m' fun hs => hm' (sent_cons.2 (.inr hs)))) (hweak _ _)

end Ergo
