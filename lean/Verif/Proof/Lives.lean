import Verif.Spec.Lives
import Verif.Proof.Forgery
import Verif.Props.Union
/-!
# Forging any frame in many power cycles: one power cycle, with what comes after it

`L tr` are the later draws for which the rest of the life is lucky when the power cycle ends after `tr`.
-/
namespace Ergo
open Spec

variable {env : Env} {nanoS : Bool} {key : Bytes} {B : Finset Bytes} {σ : List Obs → Option Event}
  {Γ : Type} [Fintype Γ] {L : List Obs → Finset Γ} {r : Nat}

theorem plays_tail {tr1 : List Obs} : ∀ {tr2 : List Obs}, Plays σ (tr2 ++ tr1) → Plays σ tr1
  | [], h => h
  | _ :: tr2, h => plays_tail (tr2 := tr2) h.2

theorem plays_det {tr : List Obs} {d : Device} (h : Runs env nanoS key tr d) :
    ∀ {tr' : List Obs} {d' : Device}, Runs env nanoS key tr' d' →
    Plays σ tr → Plays σ tr' → tr.length = tr'.length → tr = tr' ∧ d = d' := by
  induction h with
  | boot =>
    intro tr' d' h' _ _ hl
    cases h' with
    | boot => exact ⟨rfl, rfl⟩
    | step e _ _ _ => simp at hl
  | step e _ _ _ ih =>
    intro tr' d' h' f f' hl
    cases h' with
    | boot => simp at hl
    | step e' r' _ _ =>
      obtain ⟨rfl, rfl⟩ := ih r' f.2 f'.2 (by simpa using hl)
      have : e = e' := Option.some.inj (f.1.symm.trans f'.1)
      subst this
      exact ⟨rfl, rfl⟩

/-- A frame is always answered. -/
theorem frame_answered {tr : List Obs} {d : Device} (h : Runs env nanoS key tr d) {cla p2 : UInt8} {data : Bytes}
    {rnd : Rnd} : (d.step env nanoS (.apdu cla 0x21 0x12 p2 data rnd)).2 ≠ .hang ∧
      (d.step env nanoS (.apdu cla 0x21 0x12 p2 data rnd)).2 ≠ .ub := by
  refine ⟨fun hh => ?_, fun hu => by simpa using (C21_defined h _ hu).1⟩
  simp [Device.step, Device.dispatch, Device.signTransaction, Device.signSub, Device.signResult, Device.abort,
    status] at hh
  revert hh
  repeat' split
  all_goals simp

theorem framesIn_cons (o : Obs) (tr : List Obs) : framesIn (o :: tr) = (if isFrame o then 1 else 0) + framesIn tr := by
  unfold framesIn
  by_cases h : isFrame o <;> simp [h]
  omega

/-- Within `n` further events a right tag is presented for a body that was not sent, or the power cycle ends and the
rest of the life is lucky. -/
def Wins (env : Env) (nanoS : Bool) (key : Bytes) (σ : List Obs → Option Event) (L : List Obs → Finset Γ) (r : Nat)
    (tr : List Obs) (n : Nat) (p : (B → Tag) × Γ) : Prop :=
  ∃ tr2 d, tr2.length ≤ n ∧ Runs (withTags env key p.1) nanoS key (tr2 ++ tr) d ∧ Plays σ (tr2 ++ tr) ∧
    framesIn (tr2 ++ tr) ≤ r ∧ ((∃ (m : B) (a : List Obs) (o : Obs) (b : List Obs), tr2 = a ++ o :: b ∧
      presents m o = some (tagBytes (p.1 m)) ∧ ¬ FrameSent m (b ++ tr)) ∨
      CycleEnds (withTags env key p.1) nanoS σ (tr2 ++ tr) d ∧ p.2 ∈ L (tr2 ++ tr))

/-- It ends here. -/
def EndsHere (env : Env) (nanoS : Bool) (key : Bytes) (σ : List Obs → Option Event) (tr : List Obs)
    (f : B → Tag) : Prop :=
  ∃ d, Runs (withTags env key f) nanoS key tr d ∧ Plays σ tr ∧ CycleEnds (withTags env key f) nanoS σ tr d

omit [Fintype Γ] in
theorem Wins.here {tr : List Obs} {p : (B → Tag) × Γ} {n : Nat} (h : Wins env nanoS key σ L r tr n p) :
    (EndsHere env nanoS key σ tr p.1 ∧ p.2 ∈ L tr ∧ framesIn tr ≤ r) ∨
    ∃ n', n = n' + 1 ∧ ∃ o d, Runs (withTags env key p.1) nanoS key (o :: tr) d ∧ Plays σ (o :: tr) ∧
      framesIn (o :: tr) ≤ r ∧ ((∃ m : B, presents m o = some (tagBytes (p.1 m)) ∧ ¬ FrameSent m tr) ∨
        Wins env nanoS key σ L r (o :: tr) n' p) := by
  obtain ⟨tr2, d, h1, h2, h3, h4, h5⟩ := h
  rcases List.eq_nil_or_concat tr2 with rfl | ⟨l, x, rfl⟩
  · left
    rcases h5 with ⟨m, a, o, b, e, _⟩ | ⟨h5, h6⟩
    · simp at e
    · exact ⟨⟨d, h2, h3, h5⟩, h6, h4⟩
  · right
    have e : l.concat x ++ tr = l ++ x :: tr := by simp
    rw [e] at h2 h3 h4 h5
    rw [List.length_concat] at h1
    obtain ⟨n', rfl⟩ : ∃ n', n = n' + 1 := ⟨n - 1, by omega⟩
    obtain ⟨d1, hd⟩ := h2.tail
    have hfr : framesIn (x :: tr) ≤ r := by
      refine le_trans ?_ h4
      unfold framesIn
      rw [List.filter_append, List.length_append]
      omega
    refine ⟨n', rfl, x, d1, hd, plays_tail h3, hfr, ?_⟩
    rcases h5 with ⟨m, a, o, b, e', h6, h7⟩ | h5
    · rcases List.eq_nil_or_concat b with rfl | ⟨b, y, rfl⟩
      · left
        rw [List.concat_eq_append] at e'
        obtain ⟨_, e''⟩ := List.append_inj' e' rfl
        cases e''
        exact ⟨m, h6, by simpa using h7⟩
      · right
        have e2 : l.concat x = (a ++ o :: b).concat y := by rw [e']; simp
        rw [List.concat_eq_append, List.concat_eq_append] at e2
        obtain ⟨e3, e4⟩ := List.append_inj' e2 rfl
        cases e4
        exact ⟨l, d, by omega, h2, h3, h4, .inl ⟨m, a, o, b, e3, h6, by simpa using h7⟩⟩
    · right
      exact ⟨l, d, by omega, h2, h3, h4, .inr h5⟩

/-- In worlds that cannot be told apart the power cycle ends at the same time. -/
theorem ends_all {tr : List Obs} {f f' : B → Tag} (ha : AgreeOn tr f f') (h : EndsHere env nanoS key σ tr f)
    {o : Obs} {d' : Device} (h' : Runs (withTags env key f') nanoS key (o :: tr) d') (hp : Plays σ (o :: tr)) : False := by
  obtain ⟨d, h1, h2, h3⟩ := h
  rcases h3 with h3 | ⟨e, h3, h4⟩
  · rw [hp.1] at h3
    cases h3
  · obtain ⟨d1, g1, g2⟩ := couple_tags h1 ha
    cases h' with
    | @step _ d2 e' g3 g4 g5 =>
      have he : e' = e := Option.some.inj (hp.1.symm.trans h3)
      subst he
      obtain ⟨_, rfl⟩ := plays_det g1 g3 h2 h2 rfl
      by_cases hi : isFrame ⟨none, none, e', .wait⟩ = true
      · unfold isFrame at hi
        split at hi
        · rename_i cla ins p1 p2 data rnd he
          simp only [decide_eq_true_eq] at hi
          obtain ⟨rfl, rfl⟩ := hi
          have he : e' = _ := he
          subst he
          have := frame_answered h1 (cla := cla) (p2 := p2) (data := data) (rnd := rnd)
          rcases h4 with h4 | h4
          · exact this.1 h4
          · exact this.2 h4
        · simp at hi
      · have hs : SameButTag (withTags env key f) key (withTags env key f') key e' e' := by
          have : AgreeOn [⟨none, none, e', .wait⟩] f f' := by
            refine ⟨fun m x τ hx hp => ?_, fun m hm => ?_⟩
            · rw [List.mem_singleton] at hx
              subst hx
              exact absurd (presents_frame hp) hi
            · obtain ⟨x, hx, _, _, _, hr⟩ := hm
              rw [List.mem_singleton] at hx
              subst hx
              cases hr
          exact this.sameEvent (List.mem_singleton.2 rfl)
        obtain ⟨_, _, hr | ⟨_, b, hr, _⟩⟩ := g2 e' hs
        · have hr : (d1.step (withTags env key f') nanoS e').2 = (d.step (withTags env key f) nanoS e').2 := hr
          rw [hr] at g4 g5
          rcases h4 with h4 | h4
          · exact g4 h4
          · exact g5 h4
        · have hr : (d.step (withTags env key f) nanoS e').2 = _ := hr
          rw [hr] at h4
          simp at h4

open Classical in
/-- The worlds and later draws that win. -/
noncomputable def winners (env : Env) (nanoS : Bool) (key : Bytes) (σ : List Obs → Option Event)
    (L : List Obs → Finset Γ) (r : Nat) (tr : List Obs) (n : Nat) (C : B → Finset Tag) : Finset ((B → Tag) × Γ) :=
  (Fintype.piFinset C ×ˢ (Finset.univ : Finset Γ)).filter (Wins env nanoS key σ L r tr n)

theorem mem_winners {tr : List Obs} {n : Nat} {C : B → Finset Tag} {p : (B → Tag) × Γ} :
    p ∈ winners env nanoS key σ L r tr n C ↔ p.1 ∈ Fintype.piFinset C ∧ Wins env nanoS key σ L r tr n p := by
  classical
  unfold winners
  rw [Finset.mem_filter, Finset.mem_product]
  simp

/-- The bound for the tags that are still possible. -/
def WinBound (env : Env) (nanoS : Bool) (key : Bytes) (σ : List Obs → Option Event) (L : List Obs → Finset Γ) (r : Nat)
    (tr : List Obs) (n M : Nat) (C : B → Finset Tag) : Prop :=
  M * (winners env nanoS key σ L r tr n C).card ≤
    (r - framesIn tr) * ((Fintype.piFinset C).card * Fintype.card Γ)

/-- A power cycle that ends here. -/
theorem win_end {tr : List Obs} {C : B → Finset Tag} {M n : Nat} (hA : Agreeing tr C) (hM : M ≤ 2 ^ 128)
    (hL : ∀ tr, framesIn tr ≤ r → 2 ^ 128 * (L tr).card ≤ (r - framesIn tr) * Fintype.card Γ)
    (h : ∃ f ∈ Fintype.piFinset C, EndsHere env nanoS key σ tr f) : WinBound env nanoS key σ L r tr n M C := by
  obtain ⟨f0, hf0, h0⟩ := h
  unfold WinBound
  rcases (winners env nanoS key σ L r tr n C).eq_empty_or_nonempty with he | ⟨p0, hp0⟩
  · rw [he]; simp
  have hall : ∀ p ∈ winners env nanoS key σ L r tr n C, p.2 ∈ L tr ∧ framesIn tr ≤ r := by
    intro p hp
    obtain ⟨h1, h2⟩ := mem_winners.1 hp
    rcases h2.here with ⟨_, h3⟩ | ⟨_, _, o, d, h3, h4, _⟩
    · exact h3
    · exact (ends_all (hA f0 hf0 p.1 h1) h0 h3 h4).elim
  have hsub : winners env nanoS key σ L r tr n C ⊆ Fintype.piFinset C ×ˢ L tr := fun p hp =>
    Finset.mem_product.2 ⟨(mem_winners.1 hp).1, (hall p hp).1⟩
  have hc := Finset.card_le_card hsub
  rw [Finset.card_product] at hc
  have hl := hL tr (hall p0 hp0).2
  calc M * _ ≤ 2 ^ 128 * ((Fintype.piFinset C).card * (L tr).card) := Nat.mul_le_mul hM hc
    _ = (Fintype.piFinset C).card * (2 ^ 128 * (L tr).card) := by ring
    _ ≤ (Fintype.piFinset C).card * ((r - framesIn tr) * Fintype.card Γ) := Nat.mul_le_mul_left _ hl
    _ = _ := by ring

/-- An event after which the remaining worlds still cannot be told apart, and that is no right guess. -/
theorem win_next {n : Nat} {tr : List Obs} {C : B → Finset Tag} {M : Nat}
    (ih : ∀ (tr : List Obs), Agreeing tr C → (∀ m : B, ¬ FrameSent m tr → M ≤ (C m).card) →
      WinBound env nanoS key σ L r tr n M C)
    (hE : ∀ f ∈ Fintype.piFinset C, ¬ EndsHere env nanoS key σ tr f)
    (hN : ∀ f ∈ Fintype.piFinset C, ∀ o d, Runs (withTags env key f) nanoS key (o :: tr) d → σ tr = some o.event →
      (∀ f' ∈ Fintype.piFinset C, AgreeOn (o :: tr) f f') ∧
      (∀ m : B, presents m o = some (tagBytes (f m)) → FrameSent m tr) ∧
      ∀ m : B, ¬ FrameSent m (o :: tr) → M ≤ (C m).card) :
    ∀ e, σ tr = some e → M * (winners env nanoS key σ L r tr (n + 1) C).card ≤
      (r - (framesIn tr + if isFrame ⟨none, none, e, .wait⟩ then 1 else 0)) *
        ((Fintype.piFinset C).card * Fintype.card Γ) := by
  intro e hσ
  rcases (winners env nanoS key σ L r tr (n + 1) C).eq_empty_or_nonempty with h0 | ⟨p0, hp0⟩
  · rw [h0]; simp
  have hstep : ∀ p ∈ winners env nanoS key σ L r tr (n + 1) C, p.1 ∈ Fintype.piFinset C ∧
      ∃ o d, Runs (withTags env key p.1) nanoS key (o :: tr) d ∧ Plays σ (o :: tr) ∧
      Wins env nanoS key σ L r (o :: tr) n p := by
    intro p hp
    obtain ⟨h1, h2⟩ := mem_winners.1 hp
    refine ⟨h1, ?_⟩
    rcases h2.here with ⟨h3, _⟩ | ⟨n', e, o, d, h3, h4, _, h5⟩
    · exact absurd h3 (hE p.1 h1)
    · obtain rfl : n = n' := by omega
      rcases h5 with ⟨m, h5, h6⟩ | h5
      · exact absurd ((hN p.1 h1 o d h3 h4.1).2.1 m h5) h6
      · exact ⟨o, d, h3, h4, h5⟩
  obtain ⟨hC0, o, d0, hr0, hfo, _⟩ := hstep p0 hp0
  have hev : e = o.event := Option.some.inj (hσ.symm.trans hfo.1)
  have hfr : framesIn (o :: tr) = framesIn tr + if isFrame ⟨none, none, e, .wait⟩ then 1 else 0 := by
    have : isFrame o = isFrame ⟨none, none, e, .wait⟩ := by
      unfold isFrame
      rw [hev]
    rw [framesIn_cons, this, Nat.add_comm]
  have hall : ∀ f ∈ Fintype.piFinset C, ∃ d, Runs (withTags env key f) nanoS key (o :: tr) d := by
    intro f hf
    obtain ⟨d', hd', _⟩ := couple_tags hr0 ((hN p0.1 hC0 o d0 hr0 hfo.1).1 f hf)
    exact ⟨d', hd'⟩
  rw [← hfr]
  refine le_trans (Nat.mul_le_mul_left M (Finset.card_le_card ?_)) (ih (o :: tr) ?_ ?_)
  · intro p hp
    obtain ⟨hC, o', d', hr', hfo', hw⟩ := hstep p hp
    obtain ⟨d, hd⟩ := hall p.1 hC
    obtain ⟨e, _⟩ := plays_det hd hr' hfo hfo' rfl
    simp only [List.cons.injEq, and_true] at e
    subst e
    exact mem_winners.2 ⟨hC, hw⟩
  · intro f hf f' hf'
    obtain ⟨d, hd⟩ := hall f hf
    exact (hN f hf o d hd hfo.1).1 f' hf'
  · exact (hN p0.1 hC0 o d0 hr0 hfo.1).2.2

theorem mem_piFinset_winners {tr : List Obs} {n : Nat} {C C' : B → Finset Tag} {p : (B → Tag) × Γ}
    (h : p ∈ winners env nanoS key σ L r tr n C) (h' : p.1 ∈ Fintype.piFinset C') :
    p ∈ winners env nanoS key σ L r tr n C' :=
  mem_winners.2 ⟨h', (mem_winners.1 h).2⟩

theorem winners_le {tr : List Obs} {n : Nat} {C : B → Finset Tag} :
    (winners env nanoS key σ L r tr n C).card ≤ (Fintype.piFinset C).card * Fintype.card Γ := by
  classical
  unfold winners
  refine (Finset.card_le_card (Finset.filter_subset _ _)).trans ?_
  rw [Finset.card_product, Finset.card_univ]

/-- The arithmetic of a guess: `c` worlds of the right guess out of `K * c`. -/
theorem guess_bound {M K s s1 c p p1 R : Nat} (hM : M ≤ K) (hK : 0 < K) (hcard : s ≤ c + s1) (hfib : c * K = p)
    (hspl : c + p1 = p) (hs1 : s1 ≤ p1) (h1 : M < K → M * s1 ≤ R * p1)
    (h2 : M = K → (M - 1) * s1 ≤ R * p1) : M * s ≤ (R + 1) * p := by
  rcases Nat.lt_or_ge M K with hlt | hge
  · calc M * s ≤ M * (c + s1) := Nat.mul_le_mul_left _ hcard
      _ = M * c + M * s1 := Nat.mul_add _ _ _
      _ ≤ p + R * p := by
        refine Nat.add_le_add ?_ ((h1 hlt).trans (Nat.mul_le_mul_left _ (by omega)))
        rw [← hfib, Nat.mul_comm]
        exact Nat.mul_le_mul_left _ hM
      _ = (R + 1) * p := by ring
  · obtain rfl : M = K := by omega
    have := h2 rfl
    obtain ⟨M0, rfl⟩ : ∃ M0, M = M0 + 1 := ⟨M - 1, by omega⟩
    simp only [Nat.add_sub_cancel] at this
    have hp1 : p1 = M0 * c := by
      have : c * (M0 + 1) = M0 * c + c := by ring
      omega
    have hs1' : s1 ≤ R * c := by
      rcases Nat.eq_zero_or_pos M0 with h0 | h0
      · subst h0
        have : s1 = 0 := by omega
        omega
      · rw [hp1, Nat.mul_left_comm] at this
        exact Nat.le_of_mul_le_mul_left this h0
    calc (M0 + 1) * s ≤ (M0 + 1) * (c + R * c) := Nat.mul_le_mul_left _ (by omega)
      _ = (R + 1) * (c * (M0 + 1)) := by ring
      _ = (R + 1) * p := by rw [hfib]

/-- One power cycle and what comes after it. -/
theorem win_all (hL : ∀ tr, framesIn tr ≤ r → 2 ^ 128 * (L tr).card ≤ (r - framesIn tr) * Fintype.card Γ) :
    ∀ (n : Nat) (tr : List Obs) (C : B → Finset Tag) (M : Nat), Agreeing tr C →
    (∀ m : B, ¬ FrameSent m tr → M ≤ (C m).card) → M ≤ 2 ^ 128 → WinBound env nanoS key σ L r tr n M C
  | 0, tr, C, M, hA, _, hM1 => by
    by_cases hE : ∃ f ∈ Fintype.piFinset C, EndsHere env nanoS key σ tr f
    · exact win_end hA hM1 hL hE
    unfold WinBound
    rcases (winners env nanoS key σ L r tr 0 C).eq_empty_or_nonempty with h0 | ⟨p, hp⟩
    · rw [h0]; simp
    · obtain ⟨h1, h2⟩ := mem_winners.1 hp
      rcases h2.here with ⟨h3, _⟩ | ⟨_, e, _⟩
      · exact absurd ⟨p.1, h1, h3⟩ hE
      · simp at e
  | n + 1, tr, C, M, hA, hM, hM1 => by
    classical
    by_cases hE : ∃ f ∈ Fintype.piFinset C, EndsHere env nanoS key σ tr f
    · exact win_end hA hM1 hL hE
    have ih := win_all hL n
    unfold WinBound
    rcases (winners env nanoS key σ L r tr (n + 1) C).eq_empty_or_nonempty with h0 | ⟨p0, hp0⟩
    · rw [h0]; simp
    obtain ⟨hC0, hw0⟩ := mem_winners.1 hp0
    rcases hw0.here with ⟨h3, _⟩ | ⟨_, _, o0, d0, hr0, hfo, hle0, _⟩
    · exact absurd ⟨p0.1, hC0, h3⟩ hE
    obtain ⟨e, hσ⟩ : ∃ e, σ tr = some e := ⟨_, hfo.1⟩
    have hev : ∀ o : Obs, σ tr = some o.event → o.event = e := fun o ho => Option.some.inj (ho.symm.trans hσ)
    by_cases hg : ∃ (m : B) (v : Tag), presents m ⟨none, none, e, .wait⟩ = some (tagBytes v) ∧ ¬ FrameSent m tr ∧
        v ∈ C m
    · -- a guess that may be right
      obtain ⟨m, v, hp, hs, hv⟩ := hg
      have hfr : isFrame ⟨none, none, e, .wait⟩ = true := presents_frame hp
      have hpos : framesIn tr + 1 ≤ r := by
        have hi : isFrame o0 = true := by
          rw [← hfr]; unfold isFrame; rw [hev o0 hfo.1]
        rw [framesIn_cons, if_pos hi] at hle0
        omega
      have hsub := Finset.erase_subset v (C m)
      set C1 := Function.update C m ((C m).erase v) with hC1
      have hkey : ∀ M', M' ≤ M → (∀ m' : B, ¬ FrameSent m' tr → M' ≤ (C1 m').card) →
          M' * (winners env nanoS key σ L r tr (n + 1) C1).card ≤
            (r - (framesIn tr + 1)) * ((Fintype.piFinset C1).card * Fintype.card Γ) := by
        intro M' hMM hM'
        have := win_next (C := C1) (M := M') (fun tr h1 h2 => ih tr C1 M' h1 h2 (hMM.trans hM1))
          (fun f hf hf' => hE ⟨f, pi_update_sub hsub hf, hf'⟩) (by
          intro f hf o d hd ho
          have ho := hev o ho
          have hio : isFrame o = true := by
            rw [← hfr]; unfold isFrame; rw [ho]
          refine ⟨fun f' hf' => ⟨?_, ?_⟩, ?_, fun m' h => hM' m' fun hs => h (sent_cons.2 (.inr hs))⟩
          · intro m' x τ hx hpx
            rcases List.mem_cons.1 hx with rfl | hx
            · obtain ⟨e1, e2⟩ := presents_unique hpx hp ho
              have e1 : m' = m := Subtype.ext e1
              subst e1 e2
              refine iff_of_false ?_ ?_
              · exact fun e => (Finset.mem_erase.1 (pi_update_mem hsub hf)).1 (tagBytes_inj e).symm
              · exact fun e => (Finset.mem_erase.1 (pi_update_mem hsub hf')).1 (tagBytes_inj e).symm
            · exact (hA f (pi_update_sub hsub hf) f' (pi_update_sub hsub hf')).1 m' x τ hx hpx
          · intro m' hm'
            rcases sent_cons.1 hm' with hm' | hm'
            · exact absurd hm' (not_sent_frame hio)
            · exact (hA f (pi_update_sub hsub hf) f' (pi_update_sub hsub hf')).2 m' hm'
          · intro m' hm'
            exfalso
            obtain ⟨e1, e2⟩ := presents_unique hm' hp ho
            have e1 : m' = m := Subtype.ext e1
            subst e1
            exact (Finset.mem_erase.1 (pi_update_mem hsub hf)).1 (tagBytes_inj e2)) e hσ
        rwa [hfr, if_pos rfl] at this
      have hcard : (winners env nanoS key σ L r tr (n + 1) C).card ≤
          (Fintype.piFinset (Function.update C m {v})).card * Fintype.card Γ +
            (winners env nanoS key σ L r tr (n + 1) C1).card := by
        have : winners env nanoS key σ L r tr (n + 1) C ⊆
            (Fintype.piFinset (Function.update C m {v}) ×ˢ (Finset.univ : Finset Γ)) ∪
              winners env nanoS key σ L r tr (n + 1) C1 := by
          intro p hp
          have h1 := (mem_winners.1 hp).1
          rw [Finset.mem_union]
          by_cases he : p.1 m = v
          · left
            rw [Fintype.piFinset_update_singleton_eq_filter_piFinset_eq C m hv]
            exact Finset.mem_product.2 ⟨Finset.mem_filter.2 ⟨h1, he⟩, Finset.mem_univ _⟩
          · right
            refine mem_piFinset_winners hp ?_
            rw [hC1, Fintype.piFinset_update_eq_filter_piFinset_mem C m hsub]
            exact Finset.mem_filter.2 ⟨h1, Finset.mem_erase.2 ⟨he, Fintype.mem_piFinset.1 h1 m⟩⟩
        refine (Finset.card_le_card this).trans ((Finset.card_union_le _ _).trans ?_)
        rw [Finset.card_product, Finset.card_univ]
      have hfib := pi_fiber hv
      have hspl := pi_split hv
      rw [← hC1] at hspl
      have hk := hM m hs
      have hce : ((C m).erase v).card = (C m).card - 1 := Finset.card_erase_of_mem hv
      have hkpos : 0 < (C m).card := Finset.card_pos.2 ⟨v, hv⟩
      have hR : r - framesIn tr = (r - (framesIn tr + 1)) + 1 := by omega
      rw [hR]
      refine guess_bound hk hkpos hcard (p1 := (Fintype.piFinset C1).card * Fintype.card Γ) ?_ ?_ winners_le ?_ ?_
      · rw [← hfib]; ring
      · rw [← hspl]; ring
      · intro hlt
        refine hkey M le_rfl fun m' hm' => ?_
        by_cases e : m' = m
        · subst e
          rw [hC1, Function.update_self, hce]
          omega
        · rw [hC1, Function.update_of_ne e]
          exact hM m' hm'
      · intro hMk
        refine hkey (M - 1) (Nat.sub_le _ _) fun m' hm' => ?_
        by_cases e : m' = m
        · subst e
          rw [hC1, Function.update_self, hce]
          omega
        · rw [hC1, Function.update_of_ne e]
          exact le_trans (Nat.sub_le _ _) (hM m' hm')
    · by_cases hi : isFrame ⟨none, none, e, .wait⟩ = true
      · -- a frame that cannot be a right guess
        refine le_trans (win_next (fun tr h1 h2 => ih tr C M h1 h2 hM1) (fun f hf hf' => hE ⟨f, hf, hf'⟩) ?_ e hσ)
          (Nat.mul_le_mul_right _ (Nat.sub_le_sub_left (Nat.le_add_right _ _) _))
        intro f hf o d hd ho
        have ho := hev o ho
        have hio : isFrame o = true := by
          rw [← hi]; unfold isFrame; rw [ho]
        have hno : ∀ f ∈ Fintype.piFinset C, ∀ (m : B) (τ : Bytes), presents m o = some τ → ¬ FrameSent m tr →
            τ ≠ tagBytes (f m) := by
          rintro f hf m τ hp hs rfl
          refine hg ⟨m, f m, ?_, hs, Fintype.mem_piFinset.1 hf m⟩
          rw [← hp]
          exact presents_event ho.symm
        refine ⟨fun f' hf' => ⟨?_, ?_⟩, ?_, fun m' h => hM m' fun hs => h (sent_cons.2 (.inr hs))⟩
        · intro m x τ hx hpx
          rcases List.mem_cons.1 hx with rfl | hx
          · by_cases hs : FrameSent m tr
            · rw [(hA f hf f' hf').2 m hs]
            · exact iff_of_false (hno f hf m τ hpx hs) (hno f' hf' m τ hpx hs)
          · exact (hA f hf f' hf').1 m x τ hx hpx
        · intro m hm
          rcases sent_cons.1 hm with hm | hm
          · exact absurd hm (not_sent_frame hio)
          · exact (hA f hf f' hf').2 m hm
        · intro m hm
          by_contra hs
          exact hno f hf m _ hm hs rfl
      · -- no frame is presented
        have hnp : ∀ (m : B) (o : Obs) (τ : Bytes), o.event = e → presents m o ≠ some τ := by
          intro m o τ ho hp
          refine hi ?_
          rw [← presents_frame hp]
          unfold isFrame
          rw [ho]
        have hnext : ∀ (C' : B → Finset Tag), Fintype.piFinset C' ⊆ Fintype.piFinset C →
            (∀ f ∈ Fintype.piFinset C', ∀ o d, Runs (withTags env key f) nanoS key (o :: tr) d → o.event = e →
              (∀ f' ∈ Fintype.piFinset C', ∀ m : B, FrameSent m [o] → f m = f' m) ∧
              ∀ m : B, ¬ FrameSent m (o :: tr) → M ≤ (C' m).card) →
            M * (winners env nanoS key σ L r tr (n + 1) C').card ≤
              (r - framesIn tr) * ((Fintype.piFinset C').card * Fintype.card Γ) := by
          intro C' hsub h
          refine le_trans (win_next (fun tr h1 h2 => ih tr C' M h1 h2 hM1)
            (fun f hf hf' => hE ⟨f, hsub hf, hf'⟩) ?_ e hσ)
            (Nat.mul_le_mul_right _ (Nat.sub_le_sub_left (Nat.le_add_right _ _) _))
          intro f hf o d hd ho
          have ho := hev o ho
          refine ⟨fun f' hf' => ⟨?_, ?_⟩, fun m hm => absurd hm (hnp m o _ ho), (h f hf o d hd ho).2⟩
          · intro m x τ hx hpx
            rcases List.mem_cons.1 hx with rfl | hx
            · exact absurd hpx (hnp m _ τ ho)
            · exact (hA f (hsub hf) f' (hsub hf')).1 m x τ hx hpx
          · intro m hm
            rcases sent_cons.1 hm with hm | hm
            · exact (h f hf o d hd ho).1 f' hf' m hm
            · exact (hA f (hsub hf) f' (hsub hf')).2 m hm
        have hsame : ∀ f ∈ Fintype.piFinset C, ∀ o d, Runs (withTags env key f) nanoS key (o :: tr) d →
            o.event = e → ∀ m : Bytes, FrameSent m [o] ↔ FrameSent m [o0] := by
          intro f hf o d hd ho m
          have he0 := hev o0 hfo.1
          cases hr0 with
          | @step _ d1 e0 h1 _ _ =>
          cases hd with
          | @step _ d2 e' h2 _ _ =>
            have he : e' = e0 := ho.trans he0.symm
            subst he
            have hsb : ∀ f f' : B → Tag, SameButTag (withTags env key f) key (withTags env key f') key e' e' := by
              intro f f'
              have : AgreeOn [⟨none, none, e', .wait⟩] f f' := by
                refine ⟨fun m x τ hx hp => ?_, fun m hm => ?_⟩
                · rw [List.mem_singleton] at hx
                  subst hx
                  exact absurd hp (hnp m _ τ ho)
                · obtain ⟨x, hx, _, _, _, hr⟩ := hm
                  rw [List.mem_singleton] at hx
                  subst hx
                  cases hr
              exact this.sameEvent (List.mem_singleton.2 rfl)
            constructor
            · obtain ⟨d', g1, g2⟩ := couple_tags h1 (hA p0.1 hC0 f hf)
              obtain ⟨_, rfl⟩ := plays_det g1 h2 hfo.2 hfo.2 rfl
              exact fun hm => sent_same (h := g2 e' (hsb _ _)) (by rfl) hm
            · obtain ⟨d', g1, g2⟩ := couple_tags h2 (hA f hf p0.1 hC0)
              obtain ⟨_, rfl⟩ := plays_det g1 h1 hfo.2 hfo.2 rfl
              exact fun hm => sent_same (h := g2 e' (hsb _ _)) (by rfl) hm
        by_cases hb : ∃ b : B, FrameSent b [o0]
        · obtain ⟨b, hb⟩ := hb
          have hclass : ∀ v ∈ C b,
              M * ((winners env nanoS key σ L r tr (n + 1) C).filter (fun p => p.1 b = v)).card ≤
                (r - framesIn tr) * (((Fintype.piFinset C).filter (fun f => f b = v)).card * Fintype.card Γ) := by
            intro v hv
            have hsub : ({v} : Finset Tag) ⊆ C b := Finset.singleton_subset_iff.2 hv
            have := hnext (Function.update C b {v}) (pi_update_sub hsub) (by
              intro f hf o d hd ho
              refine ⟨fun f' hf' m hm => ?_, fun m hm => ?_⟩
              · have e : m = b := Subtype.ext (sent_unique ((hsame f (pi_update_sub hsub hf) o d hd ho m).1 hm) hb)
                subst e
                rw [Finset.mem_singleton.1 (pi_update_mem hsub hf), Finset.mem_singleton.1 (pi_update_mem hsub hf')]
              · have e : m ≠ b := by
                  rintro rfl
                  exact hm (sent_cons.2 (.inl ((hsame f (pi_update_sub hsub hf) o d hd ho m).2 hb)))
                rw [Function.update_of_ne e]
                exact hM m fun hs => hm (sent_cons.2 (.inr hs)))
            refine le_trans (Nat.mul_le_mul_left M (Finset.card_le_card ?_)) (this.trans (le_of_eq ?_))
            · intro p hp
              obtain ⟨h1, h2⟩ := Finset.mem_filter.1 hp
              refine mem_piFinset_winners h1 ?_
              rw [Fintype.piFinset_update_singleton_eq_filter_piFinset_eq C b hv]
              exact Finset.mem_filter.2 ⟨(mem_winners.1 h1).1, h2⟩
            · rw [Fintype.piFinset_update_singleton_eq_filter_piFinset_eq C b hv]
          have hmaps : ∀ f ∈ Fintype.piFinset C, f b ∈ C b := fun f hf => Fintype.mem_piFinset.1 hf b
          rw [Finset.card_eq_sum_card_fiberwise (f := fun p : (B → Tag) × Γ => p.1 b) (t := C b)
              (s := winners env nanoS key σ L r tr (n + 1) C)
              (fun p hp => hmaps p.1 (mem_winners.1 (Finset.mem_coe.1 hp)).1),
            Finset.card_eq_sum_card_fiberwise (f := fun f => f b) (t := C b) (s := Fintype.piFinset C)
              (fun f hf => hmaps f (Finset.mem_coe.1 hf)),
            Finset.mul_sum, Finset.sum_mul, Finset.mul_sum]
          exact Finset.sum_le_sum hclass
        · refine hnext C subset_rfl ?_
          intro f hf o d hd ho
          refine ⟨fun f' hf' m hm => absurd ⟨m, (hsame f hf o d hd ho m).1 hm⟩ hb, fun m hm => hM m fun hs => hm (sent_cons.2 (.inr hs))⟩

end Ergo
