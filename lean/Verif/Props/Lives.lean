import Verif.Proof.Lives
import Verif.Props.Truthful
/-!
# C97: forged frames in many power cycles
-/
namespace Ergo
open Spec

variable {env : Env} {nanoS : Bool} {keys : Nat → Bytes} {σ : Play}

theorem cycle_mono {happens happens' : Env → Bytes → List Obs → Device → Prop} {B : Finset Bytes}
    (h : ∀ (key : Bytes) (f : B → Tag) tr d, Runs (withTags env key f) nanoS key tr d →
      happens (withTags env key f) key tr d → happens' (withTags env key f) key tr d) :
    ∀ {k : Nat} {hs : List (List Obs)} {r : Nat} {F : Fin k → B → Tag},
    InSomeCycle happens env nanoS keys σ k hs r F → InSomeCycle happens' env nanoS keys σ k hs r F
  | 0, _, _, _, hl => hl
  | _ + 1, _, _, _, .inl ⟨tr, d, h1, h2, h3, h4⟩ => .inl ⟨tr, d, h1, h2, h3, h _ _ tr d h1 h4⟩
  | _ + 1, _, _, _, .inr ⟨tr, d, h1, h2, h3, h4, h5⟩ => .inr ⟨tr, d, h1, h2, h3, h4, cycle_mono h h5⟩

/-- A right tag is presented for a body of the set that the device has not sent in this power cycle. -/
def PresentsRight (B : Finset Bytes) (env : Env) (key : Bytes) (tr : List Obs) (_ : Device) : Prop :=
  ∃ m ∈ B, BeforeSent m tr (fun o => presents m o = some ((env.hmac key m).take 16))

open Classical in
/-- C97: in any number of power cycles, of any length, with tags drawn anew for each, right tags are presented for bodies
that the device has not sent in the same power cycle, with a probability of at most `r / 2^128`, where `r` is the number
of frames presented in all of them together. -/
theorem C97_presented (env : Env) (nanoS : Bool) (keys : Nat → Bytes) (σ : Play) (B : Finset Bytes) :
    ∀ (k : Nat) (hs : List (List Obs)) (r : Nat),
    2 ^ 128 * {F : Fin k → B → Tag | InSomeCycle (PresentsRight B) env nanoS keys σ k hs r F}.ncard ≤
      r * ((2 ^ 128) ^ B.card) ^ k
  | 0, hs, r => by
    have : {F : Fin 0 → B → Tag | InSomeCycle (PresentsRight B) env nanoS keys σ 0 hs r F} = ∅ :=
      Set.eq_empty_of_forall_notMem fun F h => h
    rw [this]
    simp
  | k + 1, hs, r => by
    have ih := C97_presented env nanoS keys σ B k
    have hcard : Fintype.card (Fin k → B → Tag) = ((2 ^ 128) ^ B.card) ^ k := by
      rw [Fintype.card_fun, Fintype.card_fun, Fintype.card_fin, Fintype.card_fin, Fintype.card_coe]
    set L : List Obs → Finset (Fin k → B → Tag) := fun tr =>
      Finset.univ.filter (InSomeCycle (PresentsRight B) env nanoS keys σ k (tr :: hs) (r - framesIn tr)) with hL
    have hLb : ∀ tr, framesIn tr ≤ r → 2 ^ 128 * (L tr).card ≤ (r - framesIn tr) * Fintype.card (Fin k → B → Tag) := by
      intro tr _
      rw [hcard]
      refine le_trans (le_of_eq ?_) (ih (tr :: hs) (r - framesIn tr))
      rw [hL, ← Set.ncard_coe_finset, Finset.coe_filter]
      simp
    have hex : ∀ F : Fin (k + 1) → B → Tag, ∃ n, InSomeCycle (PresentsRight B) env nanoS keys σ (k + 1) hs r F →
        Wins env nanoS (keys hs.length) (σ hs) L r [] n (F 0, fun i => F i.succ) := by
      intro F
      by_cases h : InSomeCycle (PresentsRight B) env nanoS keys σ (k + 1) hs r F
      · rcases h with ⟨tr, d, h1, h2, h3, m, hm, tr2, o, tr1, rfl, h4, h5⟩ | ⟨tr, d, h1, h2, h3, h4, h5⟩
        · rw [withTags_in (F 0) ⟨m, hm⟩] at h4
          exact ⟨(tr2 ++ o :: tr1).length, fun _ => ⟨_, d, le_rfl, by simpa using h1, by simpa using h2,
            by simpa using h3, .inl ⟨⟨m, hm⟩, tr2, o, tr1, rfl, h4, by simpa using h5⟩⟩⟩
        · exact ⟨tr.length, fun _ => ⟨tr, d, le_rfl, by simpa using h1, by simpa using h2, by simpa using h3,
            .inr ⟨by simpa using h4, by
              rw [hL]
              simpa using h5⟩⟩⟩
      · exact ⟨0, fun h' => absurd h' h⟩
    choose g hg using hex
    have hb := win_all (env := env) (nanoS := nanoS) (key := keys hs.length) (σ := σ hs) hLb (Finset.univ.sup g) []
      (fun _ : B => (Finset.univ : Finset Tag)) (2 ^ 128)
      (fun f _ f' _ => ⟨fun _ _ _ h => by simp at h, fun m ⟨_, h, _⟩ => by simp at h⟩)
      (fun m _ => by rw [Finset.card_univ, Fintype.card_fin]) le_rfl
    unfold WinBound at hb
    rw [Fintype.card_piFinset, Finset.prod_const, Finset.card_univ, Finset.card_univ, Fintype.card_fin,
      Fintype.card_coe, hcard, ← pow_succ'] at hb
    refine le_trans (Nat.mul_le_mul_left _ ?_) hb
    rw [← Set.ncard_coe_finset]
    refine Set.ncard_le_ncard_of_injOn (fun F : Fin (k + 1) → B → Tag => (F 0, fun i : Fin k => F i.succ)) ?_ ?_
      (Finset.finite_toSet _)
    · intro F hF
      obtain ⟨tr2, d, h1, h2⟩ := hg F hF
      exact Finset.mem_coe.2 (mem_winners.2 ⟨Fintype.mem_piFinset.2 fun _ => Finset.mem_univ _,
        tr2, d, h1.trans (Finset.le_sup (f := g) (Finset.mem_univ F)), h2⟩)
    · intro F _ F' _ e
      simp only [Prod.mk.injEq] at e
      funext i
      refine Fin.cases e.1 (fun i => ?_) i
      exact congrFun e.2 i

theorem chances_le {k : Nat} {P : (Fin k → allBodies → Tag) → Prop} {q : Nat}
    (h : 2 ^ 128 * {F | P F}.ncard ≤ q * ((2 ^ 128) ^ allBodies.card) ^ k) : chances k P ≤ q / 2 ^ 128 := by
  have hc : Nat.card (Fin k → allBodies → Tag) = ((2 ^ 128) ^ allBodies.card) ^ k := by
    rw [Nat.card_eq_fintype_card, Fintype.card_fun, Fintype.card_fun, Fintype.card_fin, Fintype.card_fin,
      Fintype.card_coe]
  unfold chances
  rw [hc, div_le_div_iff₀ (by positivity) (by positivity), mul_comm]
  exact_mod_cast h

theorem chances_mono {k : Nat} {P Q : (Fin k → allBodies → Tag) → Prop} (h : ∀ f, P f → Q f) :
    chances k P ≤ chances k Q := by
  unfold chances
  refine div_le_div_of_nonneg_right ?_ (by positivity)
  exact_mod_cast Set.ncard_le_ncard (fun f hf => h f hf) (Set.toFinite _)

theorem chances_right (env : Env) (nanoS : Bool) (keys : Nat → Bytes) (σ : Play) (k q : Nat) :
    chances k (InSomeCycle (PresentsRight allBodies) env nanoS keys σ k [] q) ≤ q / 2 ^ 128 :=
  chances_le (C97_presented env nanoS keys σ allBodies k [] q)

/-- C97: a frame that the device has not sent in the same power cycle - one of an earlier power cycle, say - is accepted
in one of `k` power cycles with a probability of at most `q / 2^128`. -/
theorem C97_accepted (env : Env) (nanoS : Bool) (keys : Nat → Bytes) (σ : Play) (k q : Nat) :
    chances k (InSomeCycle AcceptsForged env nanoS keys σ k [] q) ≤ q / 2 ^ 128 := by
  refine (chances_mono fun F => cycle_mono ?_).trans (chances_right env nanoS keys σ k q)
  rintro key f tr d h ⟨m, tr2, o, tr1, rfl, h4, h5⟩
  obtain ⟨d1, hd⟩ := h.tail
  obtain ⟨h6, h7⟩ := accepted_tag hd h4
  exact ⟨m, (mem_allBodies m).2 h7, tr2, o, tr1, rfl, h6, h5⟩

/-- C97: in no power cycle anybody but the device makes tags, except with this probability. -/
theorem C97_unforged (hwf : env.WF) (nanoS : Bool) (keys : Nat → Bytes) (σ : Play) (k q : Nat) :
    chances k (InSomeCycle PresentsForged env nanoS keys σ k [] q) ≤ q / 2 ^ 128 := by
  refine (chances_mono fun F => cycle_mono ?_).trans (chances_right env nanoS keys σ k q)
  intro key f tr d h hu
  by_contra hn
  refine hu (unforged_of hwf h fun m hm => hn ⟨m, m.2, ?_⟩)
  rw [withTags_in f m]
  exact hm

/-- C97: every signature of every power cycle is over a transaction that spends boxes attested in the same power
cycle, except with this probability. -/
theorem C97_signed (hwf : env.WF) (hv : env.appVersion.length ≠ 56) (hn : env.appName.length ≠ 56) (nanoS : Bool)
    (keys : Nat → Bytes) (σ : Play) (k q : Nat) :
    chances k (InSomeCycle (SignsUnattested nanoS) env nanoS keys σ k [] q) ≤ q / 2 ^ 128 := by
  refine (chances_mono fun F => cycle_mono ?_).trans (C97_unforged hwf nanoS keys σ k q)
  rintro key f tr d h ⟨e, out, h4, h5, h6, h7⟩ hu
  exact h7 (C77_exact (withTags_wf hwf f) hv hn h (unforged_own h hu) h6 e out h4 h5)

/-- A history without frames of the device. -/
theorem no_frame_sent {tr : List Obs} (h : (tr.map (·.event)).all (fun e => match e with
    | .apdu _ ins p1 _ _ _ => !(ins == 0x20 && p1 == 0x05)
    | _ => true) = true) (m : Bytes) : ¬ FrameSent m tr := by
  rintro ⟨o, ho, ⟨cla, p2, data, rnd, he⟩, _⟩
  have := List.all_eq_true.1 h _ (List.mem_map_of_mem ho)
  rw [he] at this
  simp at this

theorem plays_list (es : List Event) : ∀ tr : List Obs, (tr.map (·.event)).reverse <+: es →
    Plays (fun tr => es[tr.length]?) tr
  | [], _ => trivial
  | o :: tr, h => by
    simp only [List.map_cons, List.reverse_cons] at h
    refine ⟨?_, plays_list es tr ((List.prefix_append _ _).trans h)⟩
    obtain ⟨t, rfl⟩ := h
    simp

/-- Off and on again, then a guess. -/
def offThenGuess : Play := fun hs tr => if hs.length = 1 then (guesses [tagBytes 5])[tr.length]? else none

set_option maxRecDepth 100000 in
/-- A life of two power cycles: the guess in the second one is right in some worlds, whatever the tags of the first
one are; one frame is presented. -/
example (f : twoBodies → Tag) : InSomeCycle AcceptsForged toyEnv false (fun n => [n.toUInt8]) offThenGuess 2 [] 1
    (fun i => if i = 0 then f else fun b => if b.1 = guessBody then 5 else 6) := by
  refine .inr ⟨[], _, .boot, trivial, by decide +kernel, .inl rfl, .inl ?_⟩
  set world := withTags toyEnv [1] (B := twoBodies) fun b => if b.1 = guessBody then 5 else 6 with hw
  set tr := ((Device.boot [1]).watch world false [] (guesses [tagBytes 5])).1 with htr
  have hev : (tr.map (·.event)).reverse = guesses [tagBytes 5] := watch_event world false (guesses [tagBytes 5]) [] _
  have hne : ∃ o tr1, tr = o :: tr1 ∧ (presents guessBody o).isSome ∧ o.reply = .sw 0x9000 [] := by
    have h : tr.head?.any (fun o => (presents guessBody o).isSome && o.reply == .sw 0x9000 []) = true := by decide +kernel
    obtain ⟨o, h1, h2⟩ := Option.any_eq_true _ _ |>.1 h
    obtain ⟨tr1, h1⟩ := List.head?_eq_some_iff.1 h1
    simp only [Bool.and_eq_true, beq_iff_eq] at h2
    exact ⟨_, tr1, h1, h2⟩
  obtain ⟨o, tr1, ht, ho1, ho2⟩ := hne
  have hall : ((tr.tail).map (·.event)).all (fun e => match e with
    | .apdu _ ins p1 _ _ _ => !(ins == 0x20 && p1 == 0x05)
    | _ => true) = true := by decide +kernel
  rw [ht] at hall
  refine ⟨tr, _, runs_boot (env := world) (guesses [tagBytes 5]) (by decide +kernel), plays_list _ tr ⟨[], by simpa using hev⟩,
    by decide +kernel, guessBody, [], o, tr1, ht, ⟨ho1, [], ho2⟩, no_frame_sent hall _⟩

end Ergo
