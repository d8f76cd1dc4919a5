import Verif.Props.Forgery
import Verif.Props.Exact
import Verif.Spec.Truthful
/-!
# C96: what is signed spends attested boxes, but for a lucky guess
-/
namespace Ergo
open Spec

variable {env : Env} {nanoS : Bool} {key : Bytes} {σ : Strategy} {q : Nat}

theorem chance_mono {P Q : (allBodies → Tag) → Prop} (h : ∀ f, P f → Q f) : chance P ≤ chance Q := by
  unfold chance
  refine div_le_div_of_nonneg_right ?_ (by positivity)
  exact_mod_cast Set.ncard_le_ncard (fun f hf => h f hf) (Set.toFinite _)

theorem withTags_wf (hwf : env.WF) {B : Finset Bytes} (f : B → Tag) : (withTags env key f).WF where
  blake_len := hwf.blake_len
  hmac_len := by
    intro k b
    simp only [withTags]
    split
    · split
      · rw [List.length_append, List.length_drop, tagBytes_length, hwf.hmac_len]
      · exact hwf.hmac_len k b
    · exact hwf.hmac_len k b
  derive_len := hwf.derive_len
  pub_len := hwf.pub_len
  mul_len := hwf.mul_len

/-- If no right tag is presented for a body that the device has not sent, nobody but the device makes tags. -/
theorem unforged_of {f : allBodies → Tag} (hwf : env.WF) {tr : List Obs} {d : Device}
    (h : Runs (withTags env key f) nanoS key tr d)
    (hn : ∀ m : allBodies, ¬ BeforeSent m tr (fun o => presents m o = some (tagBytes (f m)))) :
    Unforged (withTags env key f) key tr := by
  intro tr2 o tr1 e cla p2 data rnd he hlen hv
  have hv : (data.drop (frameLen data)).take 16 =
    ((withTags env key f).hmac key (data.take (frameLen data))).take 16 := hv
  have hl := congrArg List.length hv
  rw [List.length_take, List.length_take, List.length_drop, (withTags_wf hwf f).hmac_len] at hl
  have ht : tagAt data = frameLen data := by
    unfold tagAt frameLen at *
    omega
  have hm : data.take (frameLen data) ∈ allBodies := by
    rw [mem_allBodies, List.length_take]
    omega
  have hp := presents_eq he (rfl : data.take (tagAt data) = _)
  rw [ht, hv, withTags_in f ⟨_, hm⟩] at hp
  have hs : FrameSent (data.take (frameLen data)) tr1 := by
    by_contra hs
    exact hn ⟨_, hm⟩ ⟨tr2, o, tr1, e, hp, hs⟩
  obtain ⟨x, hx, ⟨c, p, a, r, hxe⟩, tag, htag, hxr⟩ := hs
  refine ⟨x, hx, ⟨c, p, a, r, hxe⟩, ?_⟩
  subst e
  obtain ⟨l2, l1, rfl⟩ := List.append_of_mem hx
  rw [← List.cons_append, ← List.append_assoc] at h
  obtain ⟨d1, hd⟩ := h.tail
  cases hd with
  | @step _ d0 e0 h0 _ _ =>
    have hxe : e0 = _ := hxe
    subst hxe
    obtain ⟨S, i, _, _, _, _, _, hout⟩ := C12_frame h0 hxr
    unfold AttestSess.frame at hout
    obtain ⟨e1, e2⟩ := List.append_inj' hout (by
      rw [htag, List.length_take, (withTags_wf hwf f).hmac_len]; rfl)
    rw [hxr, List.take_add, hv, e2, ← e1]

/-- C96: with a random authentication function and at most `q` presented frames, nobody but the device makes tags, except
with a probability of at most `q / 2^128`. -/
theorem C96_unforged (hwf : env.WF) (nanoS : Bool) (key : Bytes) (σ : Strategy) (q : Nat) :
    chance (fun f => ∃ tr d, Runs (withTags env key f) nanoS key tr d ∧ Follows σ tr ∧ framesIn tr ≤ q ∧
      ¬ Unforged (withTags env key f) key tr) ≤ q / 2 ^ 128 := by
  refine (chance_mono ?_).trans (chance_le (C95_presented env nanoS key σ allBodies q))
  rintro f ⟨tr, d, h1, h2, h3, h4⟩
  refine ⟨tr, d, h1, h2, h3, ?_⟩
  by_contra hn
  exact h4 (unforged_of hwf h1 fun m hm => hn ⟨m, hm⟩)

/-- C96: every input of every signing session is put together from frames of boxes that the device attested, except
with this probability. -/
theorem C96_inputs (hwf : env.WF) (nanoS : Bool) (key : Bytes) (σ : Strategy) (q : Nat) :
    chance (fun f => ∃ tr d S i, Runs (withTags env key f) nanoS key tr d ∧ Follows σ tr ∧ framesIn tr ≤ q ∧
      (know tr).sign = some S ∧ i ∈ (describe S.log).inputs ∧
      ¬ ∃ As, (∀ A ∈ As, Attested tr A) ∧ MadeFrom (withTags env key f) As i) ≤ q / 2 ^ 128 := by
  refine (chance_mono ?_).trans (C96_unforged hwf nanoS key σ q)
  rintro f ⟨tr, d, S, i, h1, h2, h3, h4, h5, h6⟩
  exact ⟨tr, d, h1, h2, h3, fun hu => h6 (C09_inputs (withTags_wf hwf f) h1 (unforged_own h1 hu) h4 i h5)⟩

/-- C96: the signature is over a transaction within the limits that spends boxes attested by the device, if boxes
with the same id have the same tokens (C13), except with this probability. -/
theorem C96_signed (hwf : env.WF) (hv : env.appVersion.length ≠ 56) (hn : env.appName.length ≠ 56) (nanoS : Bool)
    (key : Bytes) (σ : Strategy) (q : Nat) :
    chance (fun f => ∃ tr d e out, Runs (withTags env key f) nanoS key tr d ∧ Follows σ tr ∧ framesIn tr ≤ q ∧
      (d.step (withTags env key f) nanoS e).2 = .sw 0x9000 out ∧ out.length = 56 ∧
      IdsDistinct (withTags env key f) tr ∧ ¬ SpendsAttested (withTags env key f) tr out) ≤ q / 2 ^ 128 := by
  refine (chance_mono ?_).trans (C96_unforged hwf nanoS key σ q)
  rintro f ⟨tr, d, e, out, h1, h2, h3, h4, h5, h6, h7⟩
  exact ⟨tr, d, h1, h2, h3, fun hu => h7 (C77_exact (withTags_wf hwf f) hv hn h1 (unforged_own h1 hu) h6 e out h4 h5)⟩

/-- C96: every authentication function is one of those counted. -/
theorem C96_worlds (hwf : env.WF) (key : Bytes) (B : Finset Bytes) : ∃ f : B → Tag, withTags env key f = env := by
  have hl : ∀ b, ((env.hmac key b).take 16).length = 16 := by
    intro b
    rw [List.length_take, hwf.hmac_len]
    rfl
  have e : (256 : Nat) ^ 16 = 2 ^ 128 := by decide +kernel
  have hb : ∀ b, be ((env.hmac key b).take 16) < 2 ^ 128 := fun b => by
    have := be_lt ((env.hmac key b).take 16)
    rwa [hl, e] at this
  refine ⟨fun b => ⟨be ((env.hmac key b).take 16), hb b⟩, ?_⟩
  have : (withTags env key fun b : B => ⟨be ((env.hmac key b).take 16), hb b⟩).hmac = env.hmac := by
    funext k b
    simp only [withTags, tagBytes]
    split
    · split
      · rename_i hk
        subst hk
        have : beBytes 16 (be ((env.hmac k b).take 16)) = (env.hmac k b).take 16 := by
          refine be_inj (by rw [beBytes_length, hl]) ?_
          rw [be_beBytes, e, Nat.mod_eq_of_lt (hb b)]
        rw [this, List.take_append_drop]
      · rfl
    · rfl
  calc _ = { env with hmac := (withTags env key fun b : B => ⟨be ((env.hmac key b).take 16), hb b⟩).hmac } := rfl
    _ = env := by rw [this]

/-- What follows a list of events follows a strategy. -/
theorem follows_list (es : List Event) : ∀ tr : List Obs, (tr.map (·.event)).reverse <+: es →
    Follows (fun tr => es.getD tr.length .both) tr
  | [], _ => trivial
  | o :: tr, h => by
    simp only [List.map_cons, List.reverse_cons] at h
    refine ⟨?_, follows_list es tr ((List.prefix_append _ _).trans h)⟩
    obtain ⟨t, rfl⟩ := h
    simp [List.getD_eq_getElem?_getD]

theorem watch_event (env : Env) (nanoS : Bool) : ∀ (es : List Event) (tr : List Obs) (d : Device),
    ((d.watch env nanoS tr es).1.map (·.event)).reverse = (tr.map (·.event)).reverse ++ es
  | [], tr, d => by simp [Device.watch]
  | e :: es, tr, d => by
    rw [Device.watch, watch_event env nanoS es]
    simp [Device.observe]

set_option maxRecDepth 100000 in
/-- The session of `C77_exact` in one of the counted worlds: one frame is presented, nobody but the device made tags,
and a signature is released. -/
example : ∃ (f : allBodies → Tag) (σ : Strategy) (tr : List Obs) (d : Device),
    Runs (withTags toyEnv [1] f) false [1] tr d ∧ Follows σ tr ∧ framesIn tr = 1 ∧
    isSig (d.step (withTags toyEnv [1] f) false .both).2 = true ∧ Unforged (withTags toyEnv [1] f) [1] tr := by
  obtain ⟨f, hf⟩ := C96_worlds toyEnv_wf [1] allBodies
  refine ⟨f, _, seen demoSpend, after demoSpend, ?_, follows_list demoSpend _ ?_, by decide +kernel, ?_, ?_⟩
  · rw [hf]; exact runs_boot _ (by decide +kernel)
  · exact ⟨[], by rw [List.append_nil]; exact watch_event toyEnv false demoSpend [] _⟩
  · rw [hf]; decide +kernel
  · rw [hf]; exact unforgedB_sound (by decide +kernel)

end Ergo
