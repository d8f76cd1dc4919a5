import Verif.Proof.Forge
import Verif.Proof.Schnorr
import Verif.Proof.Demo
import Mathlib.Data.Set.Finite.Lemmas
/-!
# C92: guessing the tag of a frame
-/
namespace Ergo
open Spec

theorem tags_eq : {τ : Bytes | τ.length = 16} = beBytes 16 '' (Finset.range (2 ^ 128) : Set Nat) := by
  ext τ
  simp only [Set.mem_setOf_eq, Set.mem_image, Finset.coe_range, Set.mem_Iio]
  constructor
  · intro h
    have hl : be τ < 256 ^ 16 := h ▸ be_lt τ
    exact ⟨be τ, lt_of_lt_of_eq hl (by decide +kernel), be_inj (by rw [beBytes_length, h]) (by
      rw [be_beBytes, Nat.mod_eq_of_lt hl])⟩
  · rintro ⟨v, _, rfl⟩
    exact beBytes_length 16 v

/-- C92: there are `2^128` tags. -/
theorem C92_tags : {τ : Bytes | τ.length = 16}.encard = 2 ^ 128 := by
  rw [tags_eq, Set.InjOn.encard_image, Set.encard_coe_eq_coe_finsetCard, Finset.card_range]
  · rfl
  · intro a ha b hb h
    simp only [Finset.coe_range, Set.mem_Iio] at ha hb
    have := congrArg be h
    rwa [be_beBytes, be_beBytes, Nat.mod_eq_of_lt (lt_of_lt_of_eq ha (by decide +kernel)),
      Nat.mod_eq_of_lt (lt_of_lt_of_eq hb (by decide +kernel))] at this

/-- C92: a strategy of host and user that presents a body at most `q` times presents the right tag, before
the device has sent a frame with this body, for at most `q` of the `2^128` values of the tag. -/
theorem C92_presented (env : Env) (nanoS : Bool) (key : Bytes) (σ : Strategy) (body : Bytes) (q : Nat) :
    {τ : Bytes | τ.length = 16 ∧ ∃ tr d, Runs (withTag env key body τ) nanoS key tr d ∧ Follows σ tr ∧
      BeforeSent body tr (fun o => presents body o = some τ) ∧ attempts body tr ≤ q}.encard ≤ q := by
  set T := {τ : Bytes | τ.length = 16 ∧ ∃ tr d, Runs (withTag env key body τ) nanoS key tr d ∧ Follows σ tr ∧
      BeforeSent body tr (fun o => presents body o = some τ) ∧ attempts body tr ≤ q} with hT
  have hfin : T.Finite := by
    have h : {τ : Bytes | τ.length = 16}.Finite := by
      rw [tags_eq]
      exact (Finset.finite_toSet _).image _
    exact h.subset fun τ h => h.1
  have hex : ∀ τ, ∃ p : Obs × List Obs, τ ∈ T → ∃ d1, Runs (withTag env key body τ) nanoS key (p.1 :: p.2) d1 ∧
      Follows σ (p.1 :: p.2) ∧ presents body p.1 = some τ ∧ (∀ x ∈ p.2, presents body x ≠ some τ) ∧
      ¬ FrameSent body p.2 ∧ attempts body (p.1 :: p.2) ≤ q := by
    intro τ
    by_cases h : τ ∈ T
    · obtain ⟨_, tr, d, h1, h2, h3, h4⟩ := h
      obtain ⟨o, tr1, d1, g⟩ := first_guess h1 h2 h3 h4
      exact ⟨(o, tr1), fun _ => ⟨d1, g⟩⟩
    · exact ⟨⟨⟨none, none, .both, .wait⟩, []⟩, fun h' => absurd h' h⟩
  choose f hf using hex
  rcases T.eq_empty_or_nonempty with h0 | hne
  · rw [h0]; simp
  obtain ⟨τ, hτ, hmax⟩ := Set.exists_max_image T (fun τ => (f τ).2.length) hfin hne
  obtain ⟨d, r1, r2, r3, r4, r5, r6⟩ := hf τ hτ
  have hsub : T ⊆ (((f τ).1 :: (f τ).2).filterMap (presents body)).toFinset := by
    intro τ' hτ'
    rw [List.coe_toFinset, Set.mem_setOf_eq, List.mem_filterMap]
    by_contra hc
    have hc' : ∀ o ∈ (f τ).1 :: (f τ).2, presents body o ≠ some τ' := fun o ho he => hc ⟨o, ho, he⟩
    obtain ⟨d', s1, s2, s3, s4, s5, s6⟩ := hf τ' hτ'
    obtain ⟨dt, r1'⟩ := Runs.tail (tr2 := [(f τ).1]) r1
    obtain ⟨d2, hr⟩ := couple hτ.1 hτ'.1 r1' r4 (fun o ho => hc' o (List.mem_cons_of_mem _ ho)) r5
    have hle := hmax τ' hτ'
    rcases Nat.lt_or_ge (f τ').2.length (f τ).2.length with hlt | hge
    · -- the guess for the other value lies within what is seen for the first
      have hdrop := List.take_append_drop ((f τ).2.length - ((f τ').2.length + 1)) (f τ).2
      rw [← hdrop] at hr
      obtain ⟨d3, hr3⟩ := hr.tail
      have hfo : Follows σ ((f τ).2.drop ((f τ).2.length - ((f τ').2.length + 1))) := by
        refine follows_tail (tr2 := (f τ).2.take ((f τ).2.length - ((f τ').2.length + 1))) ?_
        rw [hdrop]; exact r2.2
      obtain ⟨e, _⟩ := follows_det hr3 s1 hfo s2 (by rw [List.length_drop, List.length_cons]; omega)
      have hmem : (f τ').1 ∈ (f τ).2 := by
        refine List.mem_of_mem_drop (i := (f τ).2.length - ((f τ').2.length + 1)) ?_
        rw [e]; simp
      exact hc' _ (List.mem_cons_of_mem _ hmem) s3
    · obtain ⟨dt', s1'⟩ := Runs.tail (tr2 := [(f τ').1]) s1
      obtain ⟨e, _⟩ := follows_det hr s1' r2.2 s2.2 (by omega)
      have he : (f τ).1.event = (f τ').1.event := by rw [r2.1, s2.1, e]
      refine hc' (f τ).1 (by simp) ?_
      rw [← s3]
      unfold presents
      rw [he]
  calc T.encard ≤ _ := Set.encard_le_encard hsub
    _ = _ := Set.encard_coe_eq_coe_finsetCard _
    _ ≤ _ := by exact_mod_cast (List.toFinset_card_le _).trans r6

/-- A frame that is accepted carries the right tag. -/
theorem accepted_tag {env : Env} {nanoS : Bool} {key body : Bytes} {o : Obs} {tr1 : List Obs} {d : Device}
    (h : Runs env nanoS key (o :: tr1) d) (h3 : FrameAccepted body o) :
    presents body o = some ((env.hmac key body).take 16) ∧ body.length ≤ 255 := by
  obtain ⟨hp, out, hr⟩ := h3
  obtain ⟨tag, hp⟩ := Option.isSome_iff_exists.1 hp
  obtain ⟨cla, p2, data, rnd, he, hb, rfl⟩ := presents_some hp
  cases h with
  | @step tr1 d0 e h0 hh hu =>
    have he : e = _ := he
    subst he
    have hr : (d0.step env nanoS (.apdu cla 0x21 0x12 p2 data rnd)).2 = .sw 0x9000 out := hr
    have hl : data.length ≤ 255 := by
      by_contra hl
      rw [C22_length _ nanoS d0 cla 0x21 0x12 p2 data rnd (by omega)] at hr
      simp at hr
    have hcla : cla = 0xE0 := by
      by_contra hc
      rw [C22_class _ nanoS d0 cla 0x21 0x12 p2 data rnd hl hc] at hr
      simp at hr
    subst hcla
    obtain ⟨_, _, x, S, _, hS, _⟩ := sign_accepted h0 0x12 p2 data rnd (by decide) (by
      rintro ⟨sw, h1, h2⟩
      rw [hr] at h2
      simp only [Reply.sw.injEq] at h2
      exact h1 h2.1.symm)
    have hS' : (know (d0.observe env nanoS (.apdu 0xE0 0x21 0x12 p2 data rnd) :: tr1)).sign =
        some { S with log := S.log ++ [.cmd 0x12 data] } := by
      simp only [know, Ghost.next, Device.observe, hr, if_true, Ghost.onOk]
      simp [Ghost.log, hS]
    obtain ⟨hv, hfl, _⟩ := C09_tag (.step _ h0 hh hu) hS' (data := data) (by simp)
    have ht : tagAt data = frameLen data := by
      unfold tagAt frameLen at *
      omega
    unfold TagValid at hv
    rw [← ht, hb] at hv
    rw [hp, hv]
    refine ⟨rfl, ?_⟩
    rw [← hb, List.length_take]
    omega

/-- C92: the same for acceptance by the device: only the right tag is accepted, so a strategy that presents a
body at most `q` times has it accepted, before the device has sent a frame with this body, for at most `q` of
the `2^128` values. -/
theorem C92_accepted (env : Env) (nanoS : Bool) (key : Bytes) (σ : Strategy) (body : Bytes) (q : Nat) :
    {τ : Bytes | τ.length = 16 ∧ ∃ tr d, Runs (withTag env key body τ) nanoS key tr d ∧ Follows σ tr ∧
      BeforeSent body tr (FrameAccepted body) ∧ attempts body tr ≤ q}.encard ≤ q := by
  refine (Set.encard_le_encard ?_).trans (C92_presented env nanoS key σ body q)
  rintro τ ⟨hτ, tr, d, h1, h2, ⟨tr2, o, tr1, rfl, h3, h4⟩, h5⟩
  refine ⟨hτ, _, d, h1, h2, ⟨tr2, o, tr1, rfl, ?_, h4⟩, h5⟩
  obtain ⟨d1, hd1⟩ := h1.tail
  rw [(accepted_tag hd1 h3).1, withTag_body hτ]

/-- The body of the demonstration's input. -/
def guessBody : Bytes := (demoFrame 1 1 0 100 [] []).take 43

/-- A strategy that presents the body with one tag after another. -/
def guesses (tags : List Bytes) : List Event :=
  demoOpen ++ demoTx.take 1 ++ tags.map fun t => cmd 0x21 0x12 7 (guessBody ++ t ++ [0, 0, 0, 0])

/-- It is accepted in the world with the tag that is presented first, and refused in the others; the failure
ends the session, so that the second tag is of no use in it.  Both tags are attempts. -/
example :
    let a := List.replicate 16 1
    let b := List.replicate 16 2
    let replies := fun τ tags => (((Device.boot [1]).run (withTag toyEnv [1] guessBody τ) false (guesses tags)).2.drop 3)
    replies a [a] = [.sw 0x9000 []] ∧ replies b [a] = [.sw 0xE018 []] ∧
      (replies b [a, b])[1]? ≠ some (.sw 0x9000 []) ∧
      ((guesses [a, b]).map fun e => presents guessBody ⟨none, none, e, .wait⟩).filterMap id = [a, b] := by
  decide +kernel

end Ergo
