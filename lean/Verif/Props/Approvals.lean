import Verif.Proof.Approvals
import Verif.Props.Lives
/-!
# C99: every guess costs an approval
-/
namespace Ergo
open Spec

variable {env : Env} {nanoS : Bool} {keys : Nat → Bytes} {σ : Play}

/-- C99: there are at most as many frames refused for their tags as signing sessions approved by the user. -/
theorem C99_refused {key : Bytes} {tr : List Obs} {d : Device} (h : Runs env nanoS key tr d) :
    refusedIn tr ≤ approvalsIn tr := (Nat.le_add_right _ _).trans (refused_le h)

/-- C99: when a frame is accepted or refused for its tag, the user has approved one more session than frames were
refused. -/
theorem C99_next {key : Bytes} {tr : List Obs} {o : Obs} {d : Device} (h : Runs env nanoS key (o :: tr) d)
    (ho : tagAccepted o = true ∨ tagRefused o = true) : refusedIn tr + 1 ≤ approvalsIn tr := by
  cases h with
  | @step _ d0 e h0 hh hu =>
    have hs : (know tr).sign.isSome = true := by
      rcases ho with ho | ho
      · unfold tagAccepted at ho
        split at ho
        · rename_i code out hrep
          simp only [Bool.and_eq_true, decide_eq_true_eq] at ho
          obtain ⟨hi, rfl⟩ := ho
          unfold isFrame at hi
          split at hi
          · rename_i cla ins p1 p2 data rnd he
            simp only [decide_eq_true_eq] at hi
            obtain ⟨rfl, rfl⟩ := hi
            have he : e = _ := he
            subst he
            obtain ⟨S, _, _, hS, _⟩ := accepted_op h0 (by decide) (by decide) (.inl hrep)
            rw [hS]
            rfl
          · simp at hi
        · simp at ho
      · exact refused_open h0 ho
    have := refused_le h0
    rwa [if_pos hs] at this

theorem frame_accepted_tag {m : Bytes} {o : Obs} (h : FrameAccepted m o) : tagAccepted o = true := by
  obtain ⟨h1, out, h2⟩ := h
  obtain ⟨τ, h1⟩ := Option.isSome_iff_exists.1 h1
  have := presents_frame h1
  unfold tagAccepted
  simp [h2, this]

theorem approvals_mono {happens happens' : Env → Bytes → List Obs → Device → Prop} {B : Finset Bytes}
    (h : ∀ (key : Bytes) (f : B → Tag) tr d, Runs (withTags env key f) nanoS key tr d →
      happens (withTags env key f) key tr d → happens' (withTags env key f) key tr d) :
    ∀ {k : Nat} {hs : List (List Obs)} {r : Nat} {F : Fin k → B → Tag},
    WithApprovals happens env nanoS keys σ k hs r F → WithApprovals happens' env nanoS keys σ k hs r F
  | 0, _, _, _, hl => hl
  | _ + 1, _, _, _, .inl ⟨tr, d, h1, h2, h3, h4⟩ => .inl ⟨tr, d, h1, h2, h3, h _ _ tr d h1 h4⟩
  | _ + 1, _, _, _, .inr ⟨tr, d, h1, h2, h3, h4, h5⟩ => .inr ⟨tr, d, h1, h2, h3, h4, approvals_mono h h5⟩

/-- A frame of the set is accepted that the device has not sent in this power cycle. -/
def AcceptsAmong (B : Finset Bytes) (_ : Env) (_ : Bytes) (tr : List Obs) (_ : Device) : Prop :=
  ∃ m ∈ B, BeforeSent m tr (FrameAccepted m)

open Classical in
/-- C99: in any number of power cycles, of any length and with any number of presented frames, with tags drawn anew for
each power cycle, a frame that the device has not sent in the same power cycle is accepted with a probability of at most
`r / 2^128`, where `r` is the number of signing sessions approved by the user in all of them together. -/
theorem C99_among (env : Env) (nanoS : Bool) (keys : Nat → Bytes) (σ : Play) (B : Finset Bytes) :
    ∀ (k : Nat) (hs : List (List Obs)) (r : Nat),
    2 ^ 128 * {F : Fin k → B → Tag | WithApprovals (AcceptsAmong B) env nanoS keys σ k hs r F}.ncard ≤
      r * ((2 ^ 128) ^ B.card) ^ k
  | 0, hs, r => by
    have : {F : Fin 0 → B → Tag | WithApprovals (AcceptsAmong B) env nanoS keys σ 0 hs r F} = ∅ :=
      Set.eq_empty_of_forall_notMem fun F h => h
    rw [this]
    simp
  | k + 1, hs, r => by
    have ih := C99_among env nanoS keys σ B k
    have hcard : Fintype.card (Fin k → B → Tag) = ((2 ^ 128) ^ B.card) ^ k := by
      rw [Fintype.card_fun, Fintype.card_fun, Fintype.card_fin, Fintype.card_fin, Fintype.card_coe]
    set L : List Obs → Finset (Fin k → B → Tag) := fun tr =>
      Finset.univ.filter (fun G => refusedIn tr ≤ approvalsIn tr ∧
        WithApprovals (AcceptsAmong B) env nanoS keys σ k (tr :: hs) (r - approvalsIn tr) G) with hL
    have hLb : ∀ tr, 2 ^ 128 * (L tr).card ≤ (r - refusedIn tr) * Fintype.card (Fin k → B → Tag) := by
      intro tr
      by_cases hle : refusedIn tr ≤ approvalsIn tr
      · rw [hcard]
        refine le_trans (le_of_eq ?_) ((ih (tr :: hs) (r - approvalsIn tr)).trans
          (Nat.mul_le_mul_right _ (Nat.sub_le_sub_left hle _)))
        rw [hL, ← Set.ncard_coe_finset, Finset.coe_filter]
        simp [hle]
      · have : L tr = ∅ := by
          rw [hL]
          simp [hle]
        rw [this]
        simp
    have hex : ∀ F : Fin (k + 1) → B → Tag, ∃ n, WithApprovals (AcceptsAmong B) env nanoS keys σ (k + 1) hs r F →
        Steals env nanoS (keys hs.length) (σ hs) L r [] n (F 0, fun i => F i.succ) := by
      intro F
      by_cases h : WithApprovals (AcceptsAmong B) env nanoS keys σ (k + 1) hs r F
      · rcases h with ⟨tr, d, h1, h2, h3, m, hm, tr2, o, tr1, rfl, h4, h5⟩ | ⟨tr, d, h1, h2, h3, h4, h5⟩
        · obtain ⟨d1, hd1⟩ := h1.tail
          have hap := C99_next hd1 (.inl (frame_accepted_tag h4))
          have hmono : approvalsIn tr1 ≤ approvalsIn (tr2 ++ o :: tr1) := by
            refine le_trans ?_ (approvalsIn_le tr2 (o :: tr1))
            exact approvalsIn_le [o] tr1
          exact ⟨(tr2 ++ o :: tr1).length, fun _ => ⟨_, d, le_rfl, by simpa using h1, by simpa using h2,
            .inl ⟨⟨m, hm⟩, tr2, o, tr1, rfl, h4, by simpa using h5, by
              rw [List.append_nil]
              omega⟩⟩⟩
        · have hle := C99_refused h1
          exact ⟨tr.length, fun _ => ⟨tr, d, le_rfl, by simpa using h1, by simpa using h2,
            .inr ⟨by simpa using h4, by
              rw [hL]
              simpa [hle] using h5⟩⟩⟩
      · exact ⟨0, fun h' => absurd h' h⟩
    choose g hg using hex
    have hb := steal_all (env := env) (nanoS := nanoS) (key := keys hs.length) (σ := σ hs) hLb (Finset.univ.sup g) []
      (.boot (keys hs.length)) (fun _ : B => (Finset.univ : Finset Tag)) (2 ^ 128)
      ⟨fun _ _ => .boot, trivial, fun m ⟨_, h, _⟩ => by simp at h,
        fun m _ => by rw [Finset.card_univ, Fintype.card_fin]⟩ le_rfl
    rw [Fintype.card_piFinset, Finset.prod_const, Finset.card_univ, Finset.card_univ, Fintype.card_fin,
      Fintype.card_coe, hcard, ← pow_succ'] at hb
    refine le_trans (Nat.mul_le_mul_left _ ?_) hb
    rw [← Set.ncard_coe_finset]
    refine Set.ncard_le_ncard_of_injOn (fun F : Fin (k + 1) → B → Tag => (F 0, fun i : Fin k => F i.succ)) ?_ ?_
      (Finset.finite_toSet _)
    · intro F hF
      obtain ⟨tr2, d, h1, h2⟩ := hg F hF
      exact Finset.mem_coe.2 (mem_thieves.2 ⟨Fintype.mem_piFinset.2 fun _ => Finset.mem_univ _,
        tr2, d, h1.trans (Finset.le_sup (f := g) (Finset.mem_univ F)), h2⟩)
    · intro F _ F' _ e
      simp only [Prod.mk.injEq] at e
      funext i
      refine Fin.cases e.1 (fun i => ?_) i
      exact congrFun e.2 i

/-- C99: a frame that the device has not sent in the same power cycle is accepted in one of `k` power cycles, while the
user approves at most `a` signing sessions in all of them, with a probability of at most `a / 2^128`. -/
theorem C99_accepted (env : Env) (nanoS : Bool) (keys : Nat → Bytes) (σ : Play) (k a : Nat) :
    chances k (WithApprovals AcceptsForged env nanoS keys σ k [] a) ≤ a / 2 ^ 128 := by
  refine (chances_mono fun F => approvals_mono ?_).trans (chances_le (C99_among env nanoS keys σ allBodies k [] a))
  rintro key f tr d h ⟨m, tr2, o, tr1, rfl, h4, h5⟩
  obtain ⟨d1, hd⟩ := h.tail
  obtain ⟨h6, h7⟩ := accepted_tag hd h4
  exact ⟨m, (mem_allBodies m).2 h7, tr2, o, tr1, rfl, h4, h5⟩

/-- If no frame is accepted whose body the device has not sent, only frames of the device are accepted. -/
theorem own_of (hwf : env.WF) {key : Bytes} {tr : List Obs} {d : Device} (h : Runs env nanoS key tr d)
    (hn : ∀ m, ¬ BeforeSent m tr (FrameAccepted m)) : OwnFrames tr := by
  rintro tr2 o tr1 rfl cla p2 data rnd out he hr
  obtain ⟨d1, e, hd1, rfl⟩ := h.split
  have he : e = _ := he
  subst he
  obtain ⟨S, _, _, hS, _, _, _, _, hlen, _, hS'⟩ := accepted_op hd1 (by decide) (by decide) (.inl hr)
  have hr' : (d1.step env nanoS (.apdu cla 0x21 0x12 p2 data rnd)).2 = .sw 0x9000 out := hr
  obtain ⟨hv, hfl, _⟩ := C09_tag (.step _ hd1 (by rw [hr']; simp) (by rw [hr']; simp)) hS' (data := data) (by simp)
  have hv : (data.drop (frameLen data)).take 16 = (env.hmac key (data.take (frameLen data))).take 16 := hv
  have ht : tagAt data = frameLen data := by
    unfold tagAt frameLen at *
    omega
  have hp := presents_eq (o := d1.observe env nanoS (.apdu cla 0x21 0x12 p2 data rnd)) rfl
    (rfl : data.take (tagAt data) = _)
  rw [ht] at hp
  have hs : FrameSent (data.take (frameLen data)) tr1 := by
    by_contra hs
    exact hn _ ⟨tr2, _, tr1, rfl, ⟨by rw [hp]; rfl, out, hr⟩, hs⟩
  obtain ⟨x, hx, ⟨c, p, a, r, hxe⟩, tag, htag, hxr⟩ := hs
  refine ⟨x, hx, ⟨c, p, a, r, hxe⟩, ?_⟩
  obtain ⟨l2, l1, rfl⟩ := List.append_of_mem hx
  obtain ⟨d2, hd⟩ := hd1.tail
  cases hd with
  | @step _ d0 e0 h0 _ _ =>
    have hxe : e0 = _ := hxe
    subst hxe
    obtain ⟨S, i, _, _, _, _, _, hout⟩ := C12_frame h0 hxr
    unfold AttestSess.frame at hout
    obtain ⟨e1, e2⟩ := List.append_inj' hout (by
      rw [htag, List.length_take, hwf.hmac_len]; rfl)
    rw [hxr, List.take_add, hv, e2, ← e1]

/-- C99: in no power cycle a frame is accepted that is not the device's own, tag included, except with this
probability. -/
theorem C99_own (hwf : env.WF) (nanoS : Bool) (keys : Nat → Bytes) (σ : Play) (k a : Nat) :
    chances k (WithApprovals (fun _ _ tr _ => ¬ OwnFrames tr) env nanoS keys σ k [] a) ≤ a / 2 ^ 128 := by
  refine (chances_mono fun F => approvals_mono ?_).trans (C99_accepted env nanoS keys σ k a)
  intro key f tr d h hu
  by_contra hn
  exact hu (own_of (withTags_wf hwf f) h fun m hm => hn ⟨m, hm⟩)

/-- C99: every signature of every power cycle is over a transaction that spends boxes attested in the same power
cycle, except with this probability: a host that wants another one can try as often as the user approves signing. -/
theorem C99_signed (hwf : env.WF) (hv : env.appVersion.length ≠ 56) (hn : env.appName.length ≠ 56) (nanoS : Bool)
    (keys : Nat → Bytes) (σ : Play) (k a : Nat) :
    chances k (WithApprovals (SignsUnattested nanoS) env nanoS keys σ k [] a) ≤ a / 2 ^ 128 := by
  refine (chances_mono fun F => approvals_mono ?_).trans (C99_own hwf nanoS keys σ k a)
  rintro key f tr d h ⟨e, out, h4, h5, h6, h7⟩ hu
  exact h7 (C77_exact (withTags_wf hwf f) hv hn h hu h6 e out h4 h5)

set_option maxRecDepth 100000 in
/-- Two guesses, each in a session of its own, and then one without a session: two frames are refused for their tags,
two sessions were approved; the third frame is refused too, but not for its tag. -/
example :
    let es := guesses [tagBytes 6] ++ guesses [tagBytes 7]
    let world := withTags toyEnv [1] (B := twoBodies) fun b => if b.1 = guessBody then 5 else 6
    let tr := ((Device.boot [1]).watch world false [] (es ++ es.drop (es.length - 1))).1
    refusedIn tr = 2 ∧ approvalsIn tr = 2 ∧ framesIn tr = 3 := by
  decide +kernel

set_option maxRecDepth 100000 in
/-- A life of two power cycles with one approval: the guess in the second one is right in some worlds, whatever the tags
of the first one are. -/
example (f : twoBodies → Tag) : WithApprovals AcceptsForged toyEnv false (fun n => [n.toUInt8]) offThenGuess 2 [] 1
    (fun i => if i = 0 then f else fun b => if b.1 = guessBody then 5 else 6) := by
  refine .inr ⟨[], _, .boot, trivial, by decide +kernel, .inl rfl, .inl ?_⟩
  set world := withTags toyEnv [1] (B := twoBodies) fun b => if b.1 = guessBody then 5 else 6 with hw
  set tr := ((Device.boot [1]).watch world false [] (guesses [tagBytes 5])).1 with htr
  have hev : (tr.map (·.event)).reverse = guesses [tagBytes 5] := watch_event world false (guesses [tagBytes 5]) [] _
  have hne : ∃ o tr1, tr = o :: tr1 ∧ (presents guessBody o).isSome ∧ o.reply = .sw 0x9000 [] := by
    have h : tr.head?.any (fun o => (presents guessBody o).isSome && o.reply == .sw 0x9000 []) = true := by decide +kernel
    obtain ⟨o, h1, h2⟩ := Option.any_eq_true _ _ |>.1 h
    obtain ⟨tr1, h1⟩ := List.head?_eq_some_iff.1 h1
    simp only [Bool.and_eq_true, beq_iff_eq] at h2
    exact ⟨_, tr1, h1, h2⟩
  obtain ⟨o, tr1, ht, ho1, ho2⟩ := hne
  have hall : ((tr.tail).map (·.event)).all (fun e => match e with
    | .apdu _ ins p1 _ _ _ => !(ins == 0x20 && p1 == 0x05)
    | _ => true) = true := by decide +kernel
  rw [ht] at hall
  refine ⟨tr, _, runs_boot (env := world) (guesses [tagBytes 5]) (by decide +kernel), plays_list _ tr ⟨[], by simpa using hev⟩,
    by decide +kernel, guessBody, [], o, tr1, ht, ⟨ho1, [], ho2⟩, no_frame_sent hall _⟩

end Ergo
