import Verif.Spec.Forgery
import Verif.Proof.Forge
import Verif.Proof.Schnorr
import Mathlib.Data.Fintype.BigOperators
import Mathlib.Algebra.BigOperators.Ring.Finset
import Mathlib.Algebra.Order.BigOperators.Group.Finset
import Mathlib.Algebra.Order.Ring.Nat
/-!
# Forging any frame: the game as a tree

`C m` is what the tag of the body `m` may still be after what was seen.
-/
namespace Ergo
open Spec

theorem tagBytes_length (v : Tag) : (tagBytes v).length = 16 := beBytes_length 16 _

theorem tagBytes_inj {v w : Tag} (h : tagBytes v = tagBytes w) : v = w := by
  have h := congrArg be h
  have e : (256 : Nat) ^ 16 = 2 ^ 128 := by decide +kernel
  unfold tagBytes at h
  rw [be_beBytes, be_beBytes, e, Nat.mod_eq_of_lt v.2, Nat.mod_eq_of_lt w.2] at h
  exact Fin.ext h

variable {env : Env} {nanoS : Bool} {key : Bytes} {B : Finset Bytes} {σ : Strategy}

theorem withTags_in (f : B → Tag) (m : B) : ((withTags env key f).hmac key m).take 16 = tagBytes (f m) := by
  simp only [withTags, m.2, dif_pos, if_true]
  rw [← tagBytes_length (f m), List.take_left]

theorem withTags_out (f : B → Tag) {b : Bytes} (h : b ∉ B) (k : Bytes) :
    (withTags env key f).hmac k b = env.hmac k b := by
  simp only [withTags, h, dif_neg, not_false_iff]

theorem presents_event {b : Bytes} {o o' : Obs} (h : o.event = o'.event) : presents b o = presents b o' := by
  unfold presents
  rw [h]

theorem presents_frame {b τ : Bytes} {o : Obs} (h : presents b o = some τ) : isFrame o = true := by
  obtain ⟨cla, p2, data, rnd, he, _⟩ := presents_some h
  unfold isFrame
  rw [he]
  simp

theorem presents_unique {b b' τ τ' : Bytes} {o o' : Obs} (h : presents b o = some τ) (h' : presents b' o' = some τ')
    (he : o.event = o'.event) : b = b' ∧ τ = τ' := by
  obtain ⟨cla, p2, data, rnd, e1, e2, e3⟩ := presents_some h
  obtain ⟨cla', p2', data', rnd', e1', e2', e3'⟩ := presents_some h'
  rw [e1, e1'] at he
  cases he
  exact ⟨e2.symm.trans e2', e3.symm.trans e3'⟩

/-- Two worlds that cannot be told apart by what was seen. -/
def AgreeOn (tr : List Obs) (f f' : B → Tag) : Prop :=
  (∀ (m : B) (o : Obs) (τ : Bytes), o ∈ tr → presents m o = some τ → (τ = tagBytes (f m) ↔ τ = tagBytes (f' m))) ∧
    ∀ m : B, FrameSent m tr → f m = f' m

theorem AgreeOn.sameEvent {tr : List Obs} {f f' : B → Tag} (h : AgreeOn tr f f') {o : Obs} (ho : o ∈ tr) :
    SameButTag (withTags env key f) key (withTags env key f') key o.event o.event := by
  cases hev : o.event with
  | left => exact .left
  | right => exact .right
  | both => exact .both
  | apdu cla ins p1 p2 data rnd =>
    by_cases hc : ins = 0x21 ∧ p1 = 0x12
    · obtain ⟨rfl, rfl⟩ := hc
      refine .frame (.same ?_)
      unfold TagOk
      by_cases hb : data.take (tagAt data) ∈ B
      · have e := presents_eq hev (rfl : data.take (tagAt data) = _)
        have e1 := withTags_in (env := env) (key := key) f ⟨_, hb⟩
        have e2 := withTags_in (env := env) (key := key) f' ⟨_, hb⟩
        simp only at e1 e2
        rw [e1, e2]
        exact h.1 ⟨_, hb⟩ o _ ho e
      · rw [withTags_out _ hb, withTags_out _ hb]
    · exact .other hc

/-- What was seen in one world is seen in the other, and the next event shows the same but for a tag. -/
theorem couple_tags {f f' : B → Tag} {tr : List Obs} {d : Device}
    (h : Runs (withTags env key f) nanoS key tr d) (ha : AgreeOn tr f f') :
    ∃ d', Runs (withTags env key f') nanoS key tr d' ∧
      ∀ e, SameButTag (withTags env key f) key (withTags env key f') key e e →
        SameObsButTag (withTags env key f) key (withTags env key f') key (d.observe (withTags env key f) nanoS e)
          (d'.observe (withTags env key f') nanoS e) := by
  obtain ⟨tr', d', g1, g2, g3, _, _, g4⟩ := C64_key (env := withTags env key f) (env' := withTags env key f')
    ⟨rfl, rfl, rfl, rfl, rfl, rfl⟩ key h (tr.map (·.event)) (by
      refine List.forall₂_same.2 fun e he => ?_
      obtain ⟨o, ho, rfl⟩ := List.mem_map.1 he
      exact ha.sameEvent ho)
  have : tr' = tr := by
    have hs := ha.2
    clear h g1 ha g4
    induction g3 with
    | nil => rfl
    | @cons o o' l l' h1 h2 ih =>
      simp only [List.map_cons, List.cons.injEq] at g2
      have hl := ih g2.2 (fun m ⟨x, hx, hy⟩ => hs m ⟨x, by simp [hx], hy⟩)
      subst hl
      congr 1
      obtain ⟨asked, here, e, r⟩ := o
      obtain ⟨asked', here', e', r'⟩ := o'
      obtain ⟨q1, q2, q3⟩ := h1
      simp only at q1 q2 q3 g2
      obtain ⟨rfl, _⟩ := g2
      subst q1 q2
      congr 1
      rcases q3 with q3 | ⟨q3, b, q4, q5⟩
      · exact q3
      · by_cases hb : b ∈ B
        · have e1 := withTags_in (env := env) (key := key) f ⟨_, hb⟩
          have e2 := withTags_in (env := env) (key := key) f' ⟨_, hb⟩
          simp only at e1 e2
          rw [e1] at q4
          rw [e2] at q5
          rw [q4, q5, hs ⟨b, hb⟩ ⟨⟨asked', here', e', r⟩, List.mem_cons_self, q3, _, tagBytes_length _, q4⟩]
        · rw [withTags_out _ hb] at q4 q5
          rw [q4, q5]
  subst this
  exact ⟨d', g1, fun e he => g4 e e he⟩

/-- A frame sent by the last event. -/
theorem sent_cons {m : Bytes} {o : Obs} {tr : List Obs} : FrameSent m (o :: tr) ↔ FrameSent m [o] ∨ FrameSent m tr := by
  unfold FrameSent
  simp

/-- The body of a frame that is sent does not depend on the tags. -/
theorem sent_same {f f' : B → Tag} {o o' : Obs} (he : o'.event = o.event)
    (h : SameObsButTag (withTags env key f) key (withTags env key f') key o o') {m : Bytes}
    (hs : FrameSent m [o']) : FrameSent m [o] := by
  obtain ⟨x, hx, h1, t, h2, h3⟩ := hs
  rw [List.mem_singleton] at hx
  subst hx
  obtain ⟨_, _, hr | ⟨_, b, hr1, hr2⟩⟩ := h
  · exact ⟨o, by simp, he ▸ h1, t, h2, hr ▸ h3⟩
  · by_cases hb : b ∈ B
    · have e1 := withTags_in (env := env) (key := key) f ⟨_, hb⟩
      have e2 := withTags_in (env := env) (key := key) f' ⟨_, hb⟩
      simp only at e1 e2
      rw [e2, h3] at hr2
      rw [e1] at hr1
      simp only [Reply.sw.injEq, true_and] at hr2
      obtain ⟨rfl, _⟩ := List.append_inj' hr2 (by rw [h2, tagBytes_length])
      exact ⟨o, by simp, he ▸ h1, _, tagBytes_length _, hr1⟩
    · rw [withTags_out _ hb] at hr1 hr2
      exact ⟨o, by simp, he ▸ h1, t, h2, by rw [hr1, ← hr2, h3]⟩

theorem sent_unique {m m' : Bytes} {o : Obs} (h : FrameSent m [o]) (h' : FrameSent m' [o]) : m = m' := by
  obtain ⟨x, hx, _, t, h2, h3⟩ := h
  obtain ⟨x', hx', _, t', h2', h3'⟩ := h'
  rw [List.mem_singleton] at hx hx'
  subst hx hx'
  rw [h3] at h3'
  simp only [Reply.sw.injEq, true_and] at h3'
  exact (List.append_inj' h3' (by rw [h2, h2'])).1

/-- Within `n` further events and with at most `r` further frames a right tag is presented for a body that
the device has not sent. -/
def Forges (env : Env) (nanoS : Bool) (key : Bytes) (σ : Strategy) (tr : List Obs) (n r : Nat) (f : B → Tag) : Prop :=
  ∃ tr2 d, tr2.length ≤ n ∧ Runs (withTags env key f) nanoS key (tr2 ++ tr) d ∧ Follows σ (tr2 ++ tr) ∧
    framesIn tr2 ≤ r ∧ ∃ (m : B) (a : List Obs) (o : Obs) (b : List Obs), tr2 = a ++ o :: b ∧
      presents m o = some (tagBytes (f m)) ∧ ¬ FrameSent m (b ++ tr)

theorem Forges.step {tr : List Obs} {n r : Nat} {f : B → Tag} (h : Forges env nanoS key σ tr (n + 1) r f) :
    ∃ o d, Runs (withTags env key f) nanoS key (o :: tr) d ∧ Follows σ (o :: tr) ∧ framesIn [o] ≤ r ∧
      ((∃ m : B, presents m o = some (tagBytes (f m)) ∧ ¬ FrameSent m tr) ∨
        Forges env nanoS key σ (o :: tr) n (r - framesIn [o]) f) := by
  obtain ⟨tr2, d, h1, h2, h3, h4, m, a, o, b, rfl, h5, h6⟩ := h
  rcases List.eq_nil_or_concat b with rfl | ⟨b, x, rfl⟩
  · rw [List.append_assoc] at h2 h3
    obtain ⟨d1, hd⟩ := h2.tail
    refine ⟨o, d1, hd, follows_tail h3, ?_, .inl ⟨m, h5, h6⟩⟩
    unfold framesIn at h4 ⊢
    rw [List.filter_append, List.length_append] at h4
    omega
  · have e : a ++ o :: b.concat x ++ tr = (a ++ o :: b) ++ x :: tr := by simp
    rw [e] at h2 h3
    obtain ⟨d1, hd⟩ := h2.tail
    have h4' : framesIn (a ++ o :: b) + framesIn [x] ≤ r := by
      refine le_trans (le_of_eq ?_) h4
      unfold framesIn
      rw [← List.length_append, ← List.filter_append]
      simp
    refine ⟨x, d1, hd, follows_tail h3, by omega, .inr ⟨a ++ o :: b, d, ?_, h2, h3, by omega, m, a, o, b, rfl, h5, ?_⟩⟩
    · simp at h1 ⊢
      omega
    · simpa using h6

/-- The tags that are still possible cannot be told apart. -/
def Agreeing (tr : List Obs) (C : B → Finset Tag) : Prop :=
  ∀ f ∈ Fintype.piFinset C, ∀ f' ∈ Fintype.piFinset C, AgreeOn tr f f'

open Classical in
/-- The bound for the tags that are still possible. -/
def Bounded (env : Env) (nanoS : Bool) (key : Bytes) (σ : Strategy) (tr : List Obs) (n r M : Nat)
    (C : B → Finset Tag) : Prop :=
  M * ((Fintype.piFinset C).filter (Forges env nanoS key σ tr n r)).card ≤ r * (Fintype.piFinset C).card

open Classical in
/-- An event after which the remaining worlds still cannot be told apart, and that is no right guess. -/
theorem bounded_next {n : Nat}
    (ih : ∀ (tr : List Obs) (C : B → Finset Tag) (r M : Nat), Agreeing tr C →
      (∀ m : B, ¬ FrameSent m tr → M ≤ (C m).card) → Bounded env nanoS key σ tr n r M C)
    {tr : List Obs} {C : B → Finset Tag} {r M : Nat} (hA : Agreeing tr C)
    (hN : ∀ f ∈ Fintype.piFinset C, ∀ o d, Runs (withTags env key f) nanoS key (o :: tr) d → o.event = σ tr →
      (∀ f' ∈ Fintype.piFinset C, AgreeOn (o :: tr) f f') ∧
      (∀ m : B, presents m o = some (tagBytes (f m)) → FrameSent m tr) ∧
      ∀ m : B, ¬ FrameSent m (o :: tr) → M ≤ (C m).card) :
    M * ((Fintype.piFinset C).filter (Forges env nanoS key σ tr (n + 1) r)).card ≤
      (r - if isFrame ⟨none, none, σ tr, .wait⟩ then 1 else 0) * (Fintype.piFinset C).card := by
  rcases ((Fintype.piFinset C).filter (Forges env nanoS key σ tr (n + 1) r)).eq_empty_or_nonempty with h0 | ⟨f0, hf0⟩
  · rw [h0]; simp
  obtain ⟨hC0, hF0⟩ := Finset.mem_filter.1 hf0
  obtain ⟨o, d0, hr0, hfo, hle, _⟩ := hF0.step
  have hfr : framesIn [o] = if isFrame ⟨none, none, σ tr, .wait⟩ then 1 else 0 := by
    have : isFrame o = isFrame ⟨none, none, σ tr, .wait⟩ := by
      unfold isFrame
      rw [hfo.1]
    unfold framesIn
    rw [← this]
    by_cases hi : isFrame o <;> simp [hi]
  have hall : ∀ f ∈ Fintype.piFinset C, ∃ d, Runs (withTags env key f) nanoS key (o :: tr) d := by
    intro f hf
    obtain ⟨d', hd', _⟩ := couple_tags hr0 ((hN f0 hC0 o d0 hr0 hfo.1).1 f hf)
    exact ⟨d', hd'⟩
  rw [← hfr]
  refine le_trans (Nat.mul_le_mul_left M (Finset.card_le_card ?_)) (ih (o :: tr) C (r - framesIn [o]) M ?_ ?_)
  · intro f hf
    obtain ⟨hC, hF⟩ := Finset.mem_filter.1 hf
    refine Finset.mem_filter.2 ⟨hC, ?_⟩
    obtain ⟨o', d', hr', hfo', _, hF'⟩ := hF.step
    obtain ⟨d, hd⟩ := hall f hC
    obtain ⟨e, _⟩ := follows_det hd hr' hfo hfo' rfl
    simp only [List.cons.injEq, and_true] at e
    subst e
    rcases hF' with ⟨m, hp, hs⟩ | hF'
    · exact absurd ((hN f hC o d' hr' hfo.1).2.1 m hp) hs
    · exact hF'
  · intro f hf f' hf'
    obtain ⟨d, hd⟩ := hall f hf
    exact (hN f hf o d hd hfo.1).1 f' hf'
  · exact (hN f0 hC0 o d0 hr0 hfo.1).2.2

theorem pi_update_sub {C : B → Finset Tag} {m : B} {S : Finset Tag} (hS : S ⊆ C m) :
    Fintype.piFinset (Function.update C m S) ⊆ Fintype.piFinset C := by
  rw [Fintype.piFinset_update_eq_filter_piFinset_mem C m hS]
  exact Finset.filter_subset _ _

theorem pi_update_mem {C : B → Finset Tag} {m : B} {S : Finset Tag} (hS : S ⊆ C m) {f : B → Tag}
    (hf : f ∈ Fintype.piFinset (Function.update C m S)) : f m ∈ S := by
  rw [Fintype.piFinset_update_eq_filter_piFinset_mem C m hS] at hf
  exact (Finset.mem_filter.1 hf).2

theorem pi_fiber {C : B → Finset Tag} {m : B} {v : Tag} (hv : v ∈ C m) :
    (Fintype.piFinset (Function.update C m {v})).card * (C m).card = (Fintype.piFinset C).card := by
  rw [Fintype.piFinset_update_singleton_eq_filter_piFinset_eq C m hv, Fintype.card_filter_piFinset_eq_of_mem C m hv,
    Fintype.card_piFinset, Finset.prod_erase_mul _ _ (Finset.mem_univ m)]

theorem pi_split {C : B → Finset Tag} {m : B} {v : Tag} (hv : v ∈ C m) :
    (Fintype.piFinset (Function.update C m {v})).card + (Fintype.piFinset (Function.update C m ((C m).erase v))).card =
      (Fintype.piFinset C).card := by
  rw [Fintype.piFinset_update_singleton_eq_filter_piFinset_eq C m hv,
    Fintype.piFinset_update_eq_filter_piFinset_mem C m (Finset.erase_subset _ _),
    ← Finset.card_filter_add_card_filter_not (s := Fintype.piFinset C) (fun f => f m = v)]
  congr 2
  refine Finset.filter_congr fun f hf => ?_
  rw [Finset.mem_erase]
  exact ⟨fun h => h.1, fun h => ⟨h, Fintype.mem_piFinset.1 hf m⟩⟩

theorem not_sent_frame {m : Bytes} {o : Obs} (h : isFrame o = true) : ¬ FrameSent m [o] := by
  rintro ⟨x, hx, ⟨cla, p2, data, rnd, he⟩, _⟩
  rw [List.mem_singleton] at hx
  subst hx
  unfold isFrame at h
  rw [he] at h
  simp at h

open Classical in
/-- The bound, event by event. -/
theorem bounded_all : ∀ (n : Nat) (tr : List Obs) (C : B → Finset Tag) (r M : Nat), Agreeing tr C →
    (∀ m : B, ¬ FrameSent m tr → M ≤ (C m).card) → Bounded env nanoS key σ tr n r M C
  | 0, tr, C, r, M, _, _ => by
    unfold Bounded
    have : (Fintype.piFinset C).filter (Forges env nanoS key σ tr 0 r) = ∅ := by
      refine Finset.filter_eq_empty_iff.2 ?_
      rintro f - ⟨tr2, d, h1, _, _, _, m, a, o, b, rfl, _⟩
      simp at h1
    rw [this]
    simp
  | n + 1, tr, C, r, M, hA, hM => by
    have ih := bounded_all n
    unfold Bounded
    by_cases hg : ∃ (m : B) (v : Tag), presents m ⟨none, none, σ tr, .wait⟩ = some (tagBytes v) ∧ ¬ FrameSent m tr ∧
        v ∈ C m
    · -- a guess that may be right
      obtain ⟨m, v, hp, hs, hv⟩ := hg
      have hfr : isFrame ⟨none, none, σ tr, .wait⟩ = true := presents_frame hp
      rcases Nat.eq_zero_or_pos r with rfl | hr
      · have : (Fintype.piFinset C).filter (Forges env nanoS key σ tr (n + 1) 0) = ∅ := by
          refine Finset.filter_eq_empty_iff.2 ?_
          intro f _ hF
          obtain ⟨o, _, _, hfo, hle, _⟩ := hF.step
          have hi : isFrame o = true := by
            rw [← hfr]; unfold isFrame; rw [hfo.1]
          simp [framesIn, hi] at hle
        rw [this]; simp
      have hsub := Finset.erase_subset v (C m)
      set C1 := Function.update C m ((C m).erase v) with hC1
      have hkey : ∀ M', (∀ m' : B, ¬ FrameSent m' tr → M' ≤ (C1 m').card) →
          M' * ((Fintype.piFinset C1).filter (Forges env nanoS key σ tr (n + 1) r)).card ≤
            (r - 1) * (Fintype.piFinset C1).card := by
        intro M' hM'
        have := bounded_next (C := C1) (M := M') (r := r) ih
          (fun f hf f' hf' => hA f (pi_update_sub hsub hf) f' (pi_update_sub hsub hf')) (by
          intro f hf o d hd ho
          have hio : isFrame o = true := by
            rw [← hfr]; unfold isFrame; rw [ho]
          refine ⟨fun f' hf' => ⟨?_, ?_⟩, ?_, fun m' h => hM' m' fun hs => h (sent_cons.2 (.inr hs))⟩
          · intro m' x τ hx hpx
            rcases List.mem_cons.1 hx with rfl | hx
            · obtain ⟨e1, e2⟩ := presents_unique hpx hp ho
              have e1 : m' = m := Subtype.ext e1
              subst e1 e2
              refine iff_of_false ?_ ?_
              · exact fun e => (Finset.mem_erase.1 (pi_update_mem hsub hf)).1 (tagBytes_inj e).symm
              · exact fun e => (Finset.mem_erase.1 (pi_update_mem hsub hf')).1 (tagBytes_inj e).symm
            · exact (hA f (pi_update_sub hsub hf) f' (pi_update_sub hsub hf')).1 m' x τ hx hpx
          · intro m' hm'
            rcases sent_cons.1 hm' with hm' | hm'
            · exact absurd hm' (not_sent_frame hio)
            · exact (hA f (pi_update_sub hsub hf) f' (pi_update_sub hsub hf')).2 m' hm'
          · intro m' hm'
            exfalso
            obtain ⟨e1, e2⟩ := presents_unique hm' hp ho
            have e1 : m' = m := Subtype.ext e1
            subst e1
            exact (Finset.mem_erase.1 (pi_update_mem hsub hf)).1 (tagBytes_inj e2))
        rwa [hfr, if_pos rfl] at this
      have hcard : ((Fintype.piFinset C).filter (Forges env nanoS key σ tr (n + 1) r)).card ≤
          (Fintype.piFinset (Function.update C m {v})).card +
            ((Fintype.piFinset C1).filter (Forges env nanoS key σ tr (n + 1) r)).card := by
        refine le_trans (Finset.card_le_card ?_) (Finset.card_union_le _ _)
        intro f hf
        obtain ⟨h1, h2⟩ := Finset.mem_filter.1 hf
        rw [Finset.mem_union]
        by_cases he : f m = v
        · left
          rw [Fintype.piFinset_update_singleton_eq_filter_piFinset_eq C m hv]
          exact Finset.mem_filter.2 ⟨h1, he⟩
        · right
          refine Finset.mem_filter.2 ⟨?_, h2⟩
          rw [hC1, Fintype.piFinset_update_eq_filter_piFinset_mem C m hsub]
          exact Finset.mem_filter.2 ⟨h1, Finset.mem_erase.2 ⟨he, Fintype.mem_piFinset.1 h1 m⟩⟩
      have hfib := pi_fiber hv
      have hspl := pi_split hv
      rw [← hC1] at hspl
      have hs1 : ((Fintype.piFinset C1).filter (Forges env nanoS key σ tr (n + 1) r)).card ≤ (Fintype.piFinset C1).card :=
        Finset.card_le_card (Finset.filter_subset _ _)
      have hk := hM m hs
      have hce : ((C m).erase v).card = (C m).card - 1 := Finset.card_erase_of_mem hv
      have hkpos : 0 < (C m).card := Finset.card_pos.2 ⟨v, hv⟩
      obtain ⟨r0, rfl⟩ : ∃ r0, r = r0 + 1 := ⟨r - 1, by omega⟩
      simp only [Nat.add_sub_cancel] at hkey
      generalize ((Fintype.piFinset C).filter (Forges env nanoS key σ tr (n + 1) (r0 + 1))).card = s at *
      generalize hs1e : ((Fintype.piFinset C1).filter (Forges env nanoS key σ tr (n + 1) (r0 + 1))).card = s1 at *
      generalize (Fintype.piFinset (Function.update C m {v})).card = c2 at *
      generalize (Fintype.piFinset C1).card = p1 at *
      generalize (Fintype.piFinset C).card = p at *
      rcases Nat.lt_or_ge M (C m).card with hlt | hge
      · have := hkey M (by
          intro m' hm'
          by_cases e : m' = m
          · subst e
            rw [hC1, Function.update_self, hce]
            omega
          · rw [hC1, Function.update_of_ne e]
            exact hM m' hm')
        calc M * s ≤ M * (c2 + s1) := Nat.mul_le_mul_left _ hcard
          _ = M * c2 + M * s1 := Nat.mul_add _ _ _
          _ ≤ p + r0 * p := by
            refine Nat.add_le_add ?_ (this.trans (Nat.mul_le_mul_left _ (by omega)))
            rw [← hfib, Nat.mul_comm]
            exact Nat.mul_le_mul_left _ hk
          _ = (r0 + 1) * p := by ring
      · have hMk : M = (C m).card := by omega
        have := hkey (M - 1) (by
          intro m' hm'
          by_cases e : m' = m
          · subst e
            rw [hC1, Function.update_self, hce]
            omega
          · rw [hC1, Function.update_of_ne e]
            exact le_trans (Nat.sub_le _ _) (hM m' hm'))
        rw [← hMk] at hfib
        obtain ⟨M0, rfl⟩ : ∃ M0, M = M0 + 1 := ⟨M - 1, by omega⟩
        simp only [Nat.add_sub_cancel] at this
        have hp1 : p1 = M0 * c2 := by
          have : c2 * (M0 + 1) = M0 * c2 + c2 := by ring
          omega
        have hs1' : s1 ≤ r0 * c2 := by
          rcases Nat.eq_zero_or_pos M0 with h0 | h0
          · subst h0
            have : s1 = 0 := by omega
            omega
          · rw [hp1, Nat.mul_left_comm] at this
            exact Nat.le_of_mul_le_mul_left this h0
        calc (M0 + 1) * s ≤ (M0 + 1) * (c2 + r0 * c2) := Nat.mul_le_mul_left _ (by omega)
          _ = (r0 + 1) * (c2 * (M0 + 1)) := by ring
          _ = (r0 + 1) * p := by rw [hfib]
    · by_cases hi : isFrame ⟨none, none, σ tr, .wait⟩ = true
      · -- a frame that cannot be a right guess
        refine le_trans (bounded_next ih hA ?_) (Nat.mul_le_mul_right _ (Nat.sub_le _ _))
        intro f hf o d hd ho
        have hio : isFrame o = true := by
          rw [← hi]; unfold isFrame; rw [ho]
        have hno : ∀ f ∈ Fintype.piFinset C, ∀ (m : B) (τ : Bytes), presents m o = some τ → ¬ FrameSent m tr →
            τ ≠ tagBytes (f m) := by
          rintro f hf m τ hp hs rfl
          refine hg ⟨m, f m, ?_, hs, Fintype.mem_piFinset.1 hf m⟩
          rw [← hp]
          exact presents_event ho.symm
        refine ⟨fun f' hf' => ⟨?_, ?_⟩, ?_, fun m' h => hM m' fun hs => h (sent_cons.2 (.inr hs))⟩
        · intro m x τ hx hpx
          rcases List.mem_cons.1 hx with rfl | hx
          · by_cases hs : FrameSent m tr
            · rw [(hA f hf f' hf').2 m hs]
            · exact iff_of_false (hno f hf m τ hpx hs) (hno f' hf' m τ hpx hs)
          · exact (hA f hf f' hf').1 m x τ hx hpx
        · intro m hm
          rcases sent_cons.1 hm with hm | hm
          · exact absurd hm (not_sent_frame hio)
          · exact (hA f hf f' hf').2 m hm
        · intro m hm
          by_contra hs
          exact hno f hf m _ hm hs rfl
      · -- no frame is presented
        have hnp : ∀ (m : B) (o : Obs) (τ : Bytes), o.event = σ tr → presents m o ≠ some τ := by
          intro m o τ ho hp
          refine hi ?_
          rw [← presents_frame hp]
          unfold isFrame
          rw [ho]
        have hnext : ∀ (C' : B → Finset Tag), Fintype.piFinset C' ⊆ Fintype.piFinset C →
            (∀ f ∈ Fintype.piFinset C', ∀ o d, Runs (withTags env key f) nanoS key (o :: tr) d → o.event = σ tr →
              (∀ f' ∈ Fintype.piFinset C', ∀ m : B, FrameSent m [o] → f m = f' m) ∧
              ∀ m : B, ¬ FrameSent m (o :: tr) → M ≤ (C' m).card) →
            M * ((Fintype.piFinset C').filter (Forges env nanoS key σ tr (n + 1) r)).card ≤
              r * (Fintype.piFinset C').card := by
          intro C' hsub h
          refine le_trans (bounded_next ih (fun f hf f' hf' => hA f (hsub hf) f' (hsub hf')) ?_)
            (Nat.mul_le_mul_right _ (Nat.sub_le _ _))
          intro f hf o d hd ho
          refine ⟨fun f' hf' => ⟨?_, ?_⟩, fun m hm => absurd hm (hnp m o _ ho), (h f hf o d hd ho).2⟩
          · intro m x τ hx hpx
            rcases List.mem_cons.1 hx with rfl | hx
            · exact absurd hpx (hnp m _ τ ho)
            · exact (hA f (hsub hf) f' (hsub hf')).1 m x τ hx hpx
          · intro m hm
            rcases sent_cons.1 hm with hm | hm
            · exact (h f hf o d hd ho).1 f' hf' m hm
            · exact (hA f (hsub hf) f' (hsub hf')).2 m hm
        rcases ((Fintype.piFinset C).filter (Forges env nanoS key σ tr (n + 1) r)).eq_empty_or_nonempty with h0 | ⟨f0, hf0⟩
        · rw [h0]; simp
        obtain ⟨hC0, hF0⟩ := Finset.mem_filter.1 hf0
        obtain ⟨o0, d0, hr0, hfo, _, _⟩ := hF0.step
        have hsame : ∀ f ∈ Fintype.piFinset C, ∀ o d, Runs (withTags env key f) nanoS key (o :: tr) d →
            o.event = σ tr → ∀ m : Bytes, FrameSent m [o] ↔ FrameSent m [o0] := by
          intro f hf o d hd ho m
          cases hr0 with
          | @step _ d1 e h1 _ _ =>
          cases hd with
          | @step _ d2 e' h2 _ _ =>
            have he : e' = e := ho.trans hfo.1.symm
            subst he
            have hsb : ∀ f f' : B → Tag, SameButTag (withTags env key f) key (withTags env key f') key e' e' := by
              intro f f'
              have : AgreeOn [⟨none, none, e', .wait⟩] f f' := by
                refine ⟨fun m x τ hx hp => ?_, fun m hm => ?_⟩
                · rw [List.mem_singleton] at hx
                  subst hx
                  exact absurd hp (hnp m _ τ ho)
                · obtain ⟨x, hx, _, _, _, hr⟩ := hm
                  rw [List.mem_singleton] at hx
                  subst hx
                  cases hr
              exact this.sameEvent (List.mem_singleton.2 rfl)
            constructor
            · obtain ⟨d', g1, g2⟩ := couple_tags h1 (hA f0 hC0 f hf)
              obtain ⟨_, rfl⟩ := follows_det g1 h2 hfo.2 hfo.2 rfl
              exact fun hm => sent_same (h := g2 e' (hsb _ _)) (by rfl) hm
            · obtain ⟨d', g1, g2⟩ := couple_tags h2 (hA f hf f0 hC0)
              obtain ⟨_, rfl⟩ := follows_det g1 h1 hfo.2 hfo.2 rfl
              exact fun hm => sent_same (h := g2 e' (hsb _ _)) (by rfl) hm
        by_cases hb : ∃ b : B, FrameSent b [o0]
        · obtain ⟨b, hb⟩ := hb
          have hclass : ∀ v ∈ C b,
              M * (((Fintype.piFinset C).filter (Forges env nanoS key σ tr (n + 1) r)).filter (fun f => f b = v)).card ≤
                r * ((Fintype.piFinset C).filter (fun f => f b = v)).card := by
            intro v hv
            have hsub : ({v} : Finset Tag) ⊆ C b := Finset.singleton_subset_iff.2 hv
            have := hnext (Function.update C b {v}) (pi_update_sub hsub) (by
              intro f hf o d hd ho
              refine ⟨fun f' hf' m hm => ?_, fun m hm => ?_⟩
              · have e : m = b := Subtype.ext (sent_unique ((hsame f (pi_update_sub hsub hf) o d hd ho m).1 hm) hb)
                subst e
                rw [Finset.mem_singleton.1 (pi_update_mem hsub hf), Finset.mem_singleton.1 (pi_update_mem hsub hf')]
              · have e : m ≠ b := by
                  rintro rfl
                  exact hm (sent_cons.2 (.inl ((hsame f (pi_update_sub hsub hf) o d hd ho m).2 hb)))
                rw [Function.update_of_ne e]
                exact hM m fun hs => hm (sent_cons.2 (.inr hs)))
            rw [Fintype.piFinset_update_singleton_eq_filter_piFinset_eq C b hv] at this
            rwa [Finset.filter_comm]
          have hmaps : ∀ f ∈ Fintype.piFinset C, f b ∈ C b := fun f hf => Fintype.mem_piFinset.1 hf b
          rw [Finset.card_eq_sum_card_fiberwise (f := fun f => f b) (t := C b)
              (s := (Fintype.piFinset C).filter (Forges env nanoS key σ tr (n + 1) r))
              (fun f hf => hmaps f (Finset.mem_filter.1 hf).1),
            Finset.card_eq_sum_card_fiberwise (f := fun f => f b) (t := C b) (s := Fintype.piFinset C)
              (fun f hf => hmaps f (Finset.mem_coe.1 hf)),
            Finset.mul_sum, Finset.mul_sum]
          exact Finset.sum_le_sum hclass
        · refine hnext C (Finset.Subset.refl _) ?_
          intro f hf o d hd ho
          refine ⟨fun f' hf' m hm => absurd ⟨m, (hsame f hf o d hd ho m).1 hm⟩ hb,
            fun m hm => hM m fun hs => hm (sent_cons.2 (.inr hs))⟩

end Ergo
