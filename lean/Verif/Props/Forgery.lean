import Verif.Proof.Forgery
import Verif.Props.Forge
import Mathlib.Data.Set.Card
import Mathlib.Data.Set.Finite.List
import Mathlib.Algebra.Order.Field.Basic
import Mathlib.Algebra.Order.Ring.Rat
import Mathlib.Tactic.Positivity
/-!
# C95: forging any frame
-/
namespace Ergo
open Spec

theorem framesIn_append (a b : List Obs) : framesIn (a ++ b) = framesIn a + framesIn b := by
  unfold framesIn
  rw [List.filter_append, List.length_append]

open Classical in
/-- C95: let the tags of all bodies of a finite set be drawn at random.  A strategy of host and user that presents
at most `q` frames presents a right tag, for a body of this set that the device has not sent, with a probability of at
most `q / 2^128`. -/
theorem C95_presented (env : Env) (nanoS : Bool) (key : Bytes) (σ : Strategy) (B : Finset Bytes) (q : Nat) :
    {f : B → Tag | ∃ tr d, Runs (withTags env key f) nanoS key tr d ∧ Follows σ tr ∧ framesIn tr ≤ q ∧
      ∃ m : B, BeforeSent m tr (fun o => presents m o = some (tagBytes (f m)))}.ncard * 2 ^ 128 ≤
      q * (2 ^ 128) ^ B.card := by
  set S := {f : B → Tag | ∃ tr d, Runs (withTags env key f) nanoS key tr d ∧ Follows σ tr ∧ framesIn tr ≤ q ∧
      ∃ m : B, BeforeSent m tr (fun o => presents m o = some (tagBytes (f m)))} with hS
  have hex : ∀ f : B → Tag, ∃ n, f ∈ S → Forges env nanoS key σ [] n q f := by
    intro f
    by_cases h : f ∈ S
    · obtain ⟨tr, d, h1, h2, h3, m, tr2, o, tr1, rfl, h4, h5⟩ := h
      exact ⟨(tr2 ++ o :: tr1).length, fun _ => ⟨_, d, le_rfl, by simpa using h1, by simpa using h2, h3, m, tr2, o, tr1,
        rfl, h4, by simpa using h5⟩⟩
    · exact ⟨0, fun h' => absurd h' h⟩
  choose g hg using hex
  have hb := bounded_all (env := env) (nanoS := nanoS) (key := key) (σ := σ) (Finset.univ.sup g) []
    (fun _ : B => (Finset.univ : Finset Tag)) q (2 ^ 128)
    (fun f _ f' _ => ⟨fun _ _ _ h => by simp at h, fun m ⟨_, h, _⟩ => by simp at h⟩)
    (fun m _ => by rw [Finset.card_univ, Fintype.card_fin])
  unfold Bounded at hb
  rw [Fintype.card_piFinset, Finset.prod_const, Finset.card_univ, Finset.card_univ, Fintype.card_fin,
    Fintype.card_coe] at hb
  refine le_trans ?_ hb
  rw [Nat.mul_comm]
  refine Nat.mul_le_mul_left _ ?_
  rw [← Set.ncard_coe_finset]
  refine Set.ncard_le_ncard ?_ (Finset.finite_toSet _)
  intro f hf
  rw [Finset.coe_filter]
  refine ⟨Fintype.mem_piFinset.2 fun _ => Finset.mem_univ _, ?_⟩
  obtain ⟨tr2, d, h1, h2⟩ := hg f hf
  exact ⟨tr2, d, h1.trans (Finset.le_sup (f := g) (Finset.mem_univ f)), h2⟩

/-- C95: the same for frames that the device accepts. -/
theorem C95_accepted (env : Env) (nanoS : Bool) (key : Bytes) (σ : Strategy) (B : Finset Bytes) (q : Nat) :
    {f : B → Tag | ∃ tr d, Runs (withTags env key f) nanoS key tr d ∧ Follows σ tr ∧ framesIn tr ≤ q ∧
      ∃ m ∈ B, BeforeSent m tr (FrameAccepted m)}.ncard * 2 ^ 128 ≤ q * (2 ^ 128) ^ B.card := by
  refine le_trans (Nat.mul_le_mul_right _ (Set.ncard_le_ncard ?_ (Set.toFinite _)))
    (C95_presented env nanoS key σ B q)
  rintro f ⟨tr, d, h1, h2, h3, m, hm, tr2, o, tr1, rfl, h4, h5⟩
  refine ⟨_, d, h1, h2, h3, ⟨m, hm⟩, tr2, o, tr1, rfl, ?_, h5⟩
  obtain ⟨d1, hd⟩ := h1.tail
  rw [(accepted_tag hd h4).1]
  exact congrArg some (withTags_in f ⟨m, hm⟩)

theorem mem_allBodies (b : Bytes) : b ∈ allBodies ↔ b.length ≤ 255 := by
  unfold allBodies
  rw [Set.Finite.mem_toFinset]
  rfl

theorem chance_le {P : (allBodies → Tag) → Prop} {q : Nat}
    (h : {f | P f}.ncard * 2 ^ 128 ≤ q * (2 ^ 128) ^ allBodies.card) : chance P ≤ q / 2 ^ 128 := by
  have hc : Nat.card (allBodies → Tag) = (2 ^ 128) ^ allBodies.card := by
    rw [Nat.card_eq_fintype_card, Fintype.card_fun, Fintype.card_fin, Fintype.card_coe]
  unfold chance
  rw [hc, div_le_div_iff₀ (by positivity) (by positivity)]
  exact_mod_cast h

/-- C95: with a random authentication function a strategy that presents at most `q` frames has any frame at all
accepted that the device has not sent, with a probability of at most `q / 2^128`. -/
theorem C95_any (env : Env) (nanoS : Bool) (key : Bytes) (σ : Strategy) (q : Nat) :
    chance (fun f => ∃ tr d, Runs (withTags env key f) nanoS key tr d ∧ Follows σ tr ∧ framesIn tr ≤ q ∧
      ∃ m, BeforeSent m tr (FrameAccepted m)) ≤ q / 2 ^ 128 := by
  refine chance_le (le_trans (Nat.mul_le_mul_right _ (Set.ncard_le_ncard ?_ (Set.toFinite _)))
    (C95_accepted env nanoS key σ allBodies q))
  rintro f ⟨tr, d, h1, h2, h3, m, tr2, o, tr1, rfl, h4, h5⟩
  obtain ⟨d1, hd⟩ := h1.tail
  exact ⟨_, d, h1, h2, h3, m, (mem_allBodies m).2 (accepted_tag hd h4).2, tr2, o, tr1, rfl, h4, h5⟩

/-- Two bodies with unknown tags. -/
def twoBodies : Finset Bytes := {guessBody, (demoFrame 1 1 0 101 [] []).take 43}

/-- In the world in which the guessed tag is the right one for the body it is accepted; in other worlds it is not,
even if it is right for another body. -/
example :
    let world := fun v w : Tag => withTags toyEnv [1] (B := twoBodies) fun b => if b.1 = guessBody then v else w
    let replies := fun v w t => (((Device.boot [1]).run (world v w) false (guesses [tagBytes t])).2.drop 3)
    replies 5 6 5 = [.sw 0x9000 []] ∧ replies 5 6 6 = [.sw 0xE018 []] ∧ replies 5 6 7 = [.sw 0xE018 []] := by
  decide +kernel

end Ergo
