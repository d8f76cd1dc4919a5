import Verif.Proof.Timing
import Verif.Proof.MacFaults
/-!
# C98: the time of the comparison of tags
-/
namespace Ergo
open Spec

/-- C98 does not hold: with `memcmp` (stx_handler.c:138) that stops at the first difference, and a clock, there is a
strategy that makes the device accept a frame that it has not sent, for every one of the `2^128` values of its tag, with
at most 4081 attempts.  (Each attempt needs the approval of a signing session.) -/
theorem C98_negation : ∃ σ : TimedStrategy, ∀ τ : Bytes, τ.length = 16 → ∃ tr d,
    TimedRuns (withTag toyEnv [1] guessBody τ) false [1] tr d ∧ FollowsTimed σ tr ∧
    BeforeSent guessBody (untimed tr) (FrameAccepted guessBody) ∧ attempts guessBody (untimed tr) ≤ 4081 := by
  refine ⟨attack, fun τ hτ => ?_⟩
  have hb : Below (nextGuess []) τ := by
    have := zeros_below τ
    rwa [hτ] at this
  have hw := weight_le τ
  rw [hτ] at hw
  obtain ⟨tr, d, h1, h2, h3, h4⟩ := attack_goes hτ 4080 [] .boot trivial rfl rfl hb (by omega)
  exact ⟨tr, d, h1, h2, h3, h4⟩

/-- How many bytes two tags have in common at the beginning. -/
def commonBytes (a b : Bytes) : Nat := ((a.zip b).takeWhile (fun p => p.1 = p.2)).length

theorem memcmpReads_eq : ∀ {a b : Bytes}, a.length = b.length →
    memcmpReads a b = if a = b then a.length else commonBytes a b + 1
  | [], [], _ => rfl
  | x :: a, y :: b, h => by
    have ih := memcmpReads_eq (a := a) (b := b) (by simpa using h)
    unfold memcmpReads
    by_cases e : x = y
    · subst e
      rw [if_pos rfl, ih]
      by_cases e : a = b
      · simp [e]; omega
      · simp [e, commonBytes]; omega
    · simp [e, commonBytes]

/-- C98: what the clock tells.  Whenever a frame is accepted or refused for its tag, the time is the number of bytes that
the presented tag and the right one have in common, and one more if it is wrong. -/
theorem C98_seen {env : Env} (hwf : env.WF) {nanoS : Bool} {d : Device} {cla p2 : UInt8} {data : Bytes} {rnd : Rnd}
    {out : Bytes} (h : (d.step env nanoS (.apdu cla 0x21 0x12 p2 data rnd)).2 = .sw 0xE018 out ∨
      (d.step env nanoS (.apdu cla 0x21 0x12 p2 data rnd)).2 = .sw 0x9000 out) :
    let right := (env.hmac d.sessionKey (data.take (tagAt data))).take 16
    let presented := (data.drop (tagAt data)).take 16
    d.reads env (.apdu cla 0x21 0x12 p2 data rnd) = if right = presented then 16 else commonBytes right presented + 1 := by
  intro right presented
  have hr : d.reads env (.apdu cla 0x21 0x12 p2 data rnd) = memcmpReads right presented ∧ right.length = presented.length := by
    simp only [Device.step, Device.dispatch, Device.signTransaction, Device.signSub, status, Device.abort] at h
    unfold Device.reads
    by_cases h1 : data.length > 255
    · simp [h1, Sw.wrongDataLength] at h
    by_cases h2 : cla = 0xE0
    swap
    · simp [h1, h2, Sw.claNotSupported] at h
    by_cases h3 : p2 = 0
    · simp [h1, h2, h3, Sw.wrongP1P2] at h
    by_cases h4 : d.busy = true
    · simp [h1, h2, h3, h4, Sw.busy] at h
    by_cases h5 : d.command = .signTransaction
    swap
    · simp [h1, h2, h3, h4, h5, Sw.badState] at h
    cases hx : d.ctx with
    | sign x =>
      by_cases h6 : p2 = x.session
      swap
      · simp [h1, h2, h3, h4, h5, hx, h6, Sw.badSessionId] at h
      by_cases h7 : x.approved = true
      swap
      · simp [h1, h2, h3, h4, h5, hx, h6, h7, Sw.badState] at h
        simp [← h6, h3] at h
      by_cases h8 : (frameDataLen data).toNat = 0
      · have h8' : frameDataLen data = 0 := UInt8.toNat_inj.1 h8
        simp [h1, h2, h3, h4, h5, hx, ← h6, h7, opFrame, h8', Device.signResult, Device.abort, status, Sw.notEnoughData] at h
      · have ht := frameDataLen_tagAt h8
        simp [h1, h2, h3, h4, h5, ← h6, h7, h8]
        rw [ht]
        refine ⟨rfl, ?_⟩
        have : tagAt data + 16 ≤ data.length := by
          rw [← ht]
          revert h8
          unfold frameDataLen
          split
          · simp
          · dsimp only
            split
            · simp
            · omega
        simp only [right, presented, List.length_take, List.length_drop, hwf.hmac_len]
        omega
    | _ => simp [h1, h2, h3, h4, h5, hx] at h
  rw [hr.1, memcmpReads_eq hr.2]
  have : right.length = 16 := by
    simp only [right, List.length_take, hwf.hmac_len]
    rfl
  rw [this]

/-- C98: nothing else is looked at.  If some time is seen, then the event is a frame, and unless its tag is right the
reply is `SW_BAD_FRAME_SIGNATURE`: a frame for another session, or before the approval, tells nothing. -/
theorem C98_only {env : Env} {nanoS : Bool} {d : Device} {e : Event} (h : d.reads env e ≠ 0) :
    ∃ cla p2 data rnd, e = .apdu cla 0x21 0x12 p2 data rnd ∧
      ((env.hmac d.sessionKey (data.take (tagAt data))).take 16 = (data.drop (tagAt data)).take 16 ∨
        (d.step env nanoS e).2 = .sw 0xE018 []) := by
  unfold Device.reads at h
  split at h
  · rename_i cla ins p1 p2 data rnd
    split at h
    · exact absurd rfl h
    · rename_i hc
      push Not at hc
      obtain ⟨h1, h2, h3, h4, h5, h6, h7⟩ := hc
      subst h2 h3 h4
      split at h
      · rename_i x hx
        split at h
        · exact absurd rfl h
        · rename_i hs
          push Not at hs
          obtain ⟨hs1, hs2⟩ := hs
          dsimp only at h
          split at h
          · exact absurd rfl h
          · rename_i hl
            have ht := frameDataLen_tagAt hl
            refine ⟨_, p2, data, rnd, rfl, ?_⟩
            by_cases hg : (env.hmac d.sessionKey (data.take (tagAt data))).take 16 = (data.drop (tagAt data)).take 16
            · exact .inl hg
            · right
              have hf : opFrame env d.sessionKey x.p data = .err Sw.badFrameSignature := by
                unfold opFrame
                rw [if_neg hl, if_pos (by rw [ht]; exact hg)]
              have h6' : d.busy = false := by simpa using h6
              have h1' : ¬ data.length > 255 := by omega
              subst hs1
              simp [Device.step, Device.dispatch, Device.signTransaction, Device.signSub, h1', h5, h6', h7, hx, hs2, hf,
                Device.signResult, Device.abort, status, Sw.badFrameSignature]
      · exact absurd rfl h
  · exact absurd rfl h

variable {env : Env} {nanoS : Bool} {key body : Bytes} {σ : TimedStrategy}

/-- The times of the attempts. -/
def times (body : Bytes) (tr : List (Obs × Nat)) : List Nat :=
  tr.filterMap fun p => if (presents body p.1).isSome then some p.2 else none

theorem times_cons (body : Bytes) (p : Obs × Nat) (tr : List (Obs × Nat)) :
    times body (p :: tr) = (if (presents body p.1).isSome then [p.2] else []) ++ times body tr := by
  unfold times
  by_cases h : (presents body p.1).isSome <;> simp [h]

theorem times_append (body : Bytes) (a b : List (Obs × Nat)) : times body (a ++ b) = times body a ++ times body b := by
  unfold times
  rw [List.filterMap_append]

theorem times_length (body : Bytes) : ∀ tr : List (Obs × Nat), (times body tr).length = attempts body (untimed tr)
  | [] => rfl
  | p :: tr => by
    rw [times_cons, List.length_append, times_length body tr]
    unfold attempts untimed
    cases h : presents body p.1 with
    | none => simp [h]
    | some _ => simp [h]; omega

theorem memcmpReads_le : ∀ a b : Bytes, memcmpReads a b ≤ a.length
  | [], _ => by simp [memcmpReads]
  | _ :: _, [] => by simp [memcmpReads]
  | x :: a, y :: b => by
    have := memcmpReads_le a b
    unfold memcmpReads
    split <;> simp <;> omega

theorem reads_le (d : Device) (e : Event) : d.reads env e ≤ 16 := by
  unfold Device.reads
  split
  · split
    · omega
    · split
      · split
        · omega
        · dsimp only
          split
          · omega
          · refine (memcmpReads_le _ _).trans ?_
            rw [List.length_take]
            omega
      · omega
  · omega

theorem times_le {tr : List (Obs × Nat)} {d : Device} (h : TimedRuns env nanoS key tr d) : ∀ n ∈ times body tr, n ≤ 16 := by
  induction h with
  | boot => simp [times]
  | step e _ _ _ ih =>
    intro n hn
    rw [times_cons, List.mem_append] at hn
    rcases hn with hn | hn
    · split at hn
      · rw [List.mem_singleton] at hn
        rw [hn]
        exact reads_le _ _
      · simp at hn
    · exact ih n hn

/-- The time does not depend on the tag of a body that is not presented. -/
theorem reads_other {τ τ' : Bytes} {d : Device} {e : Event} (h : presents body ⟨none, none, e, .wait⟩ = none) :
    d.reads (withTag env key body τ) e = d.reads (withTag env key body τ') e := by
  unfold Device.reads
  split
  · rename_i cla ins p1 p2 data rnd
    split
    · rfl
    · rename_i hc
      split
      · split
        · rfl
        · dsimp only
          split
          · rfl
          · rename_i hl
            have hb : data.take (frameDataLen data).toNat ≠ body := by
              intro hb
              have ht := frameDataLen_tagAt hl
              rw [ht] at hb
              push Not at hc
              have := presents_eq (o := ⟨none, none, .apdu cla ins p1 p2 data rnd, .wait⟩) (cla := cla) (p2 := p2)
                (data := data) (rnd := rnd) (by rw [hc.2.2.1, hc.2.2.2.1]) hb
              rw [this] at h
              cases h
            rw [withTag_other hb, withTag_other hb]
      · rfl
  · rfl

/-- An event that is no right guess in either world has the same effect in both. -/
theorem step_tag {τ τ' : Bytes} (hτ : τ.length = 16) (hτ' : τ'.length = 16) {d : Device} (hk : d.sessionKey = key) {e : Event}
    (h1 : presents body ⟨none, none, e, .wait⟩ ≠ some τ) (h2 : presents body ⟨none, none, e, .wait⟩ ≠ some τ') :
    (d.step (withTag env key body τ') nanoS e).1 = (d.step (withTag env key body τ) nanoS e).1 ∧
      ((d.step (withTag env key body τ') nanoS e).2 = (d.step (withTag env key body τ) nanoS e).2 ∨
        FrameSent body [d.observe (withTag env key body τ) nanoS e]) := by
  have hs := sameButMac_eq (env := withTag env key body τ) (env' := withTag env key body τ') ⟨rfl, rfl, rfl, rfl, rfl, rfl⟩
  have hsame : SameButTag (withTag env key body τ) d.sessionKey (withTag env key body τ') key e e := by
    cases hev : e with
    | left => exact .left
    | right => exact .right
    | both => exact .both
    | apdu cla ins p1 p2 data rnd =>
      by_cases hc : ins = 0x21 ∧ p1 = 0x12
      · obtain ⟨rfl, rfl⟩ := hc
        refine .frame (.same ?_)
        unfold TagOk
        rw [hk]
        by_cases hb : data.take (tagAt data) = body
        · have e' := presents_eq (o := ⟨none, none, e, .wait⟩) hev hb
          rw [hb, withTag_body hτ, withTag_body hτ']
          exact iff_of_false (fun hh => h1 (by rw [e', hh])) (fun hh => h2 (by rw [e', hh]))
        · rw [withTag_other hb, withTag_other hb]
      · exact .other hc
  rw [hs] at hsame
  have := step_rekey nanoS d hsame
  rw [← hs] at this
  have hr : ∀ d : Device, d.sessionKey = key → d.rekey key = d := by
    rintro d rfl
    rfl
  rw [hr d hk, hr _ (by rw [step_sessionKey, hk])] at this
  refine ⟨this.1, ?_⟩
  rcases this.2 with h | ⟨h, b, h3, h4⟩
  · exact .inl h
  · by_cases hb : b = body
    · subst hb
      rw [hk] at h3
      refine .inr ⟨_, List.mem_singleton.2 rfl, h, _, ?_, h3⟩
      rw [withTag_body hτ, hτ]
    · left
      rw [hk, withTag_other hb] at h3
      have h4 : _ = Reply.sw 0x9000 (b ++ ((withTag env key body τ').hmac key b).take 16) := h4
      rw [withTag_other hb] at h4
      rw [h3, h4]

/-- In two worlds, without a right guess, what is seen differs in times of attempts only. -/
theorem timed_same {τ τ' : Bytes} (hτ : τ.length = 16) (hτ' : τ'.length = 16) {l : List Nat} {T : List (Obs × Nat)} {d : Device}
    (h : TimedRuns (withTag env key body τ) nanoS key T d) : ∀ {T' : List (Obs × Nat)} {d' : Device},
    TimedRuns (withTag env key body τ') nanoS key T' d' → FollowsTimed σ T → FollowsTimed σ T' → T.length = T'.length →
    (∀ x ∈ T, presents body x.1 ≠ some τ) → (∀ x ∈ T', presents body x.1 ≠ some τ') → ¬ FrameSent body (untimed T) →
    times body T <:+ l → times body T' <:+ l → T = T' ∧ d = d' := by
  induction h with
  | boot =>
    intro T' d' h' _ _ hl _ _ _ _ _
    cases h' with
    | boot => exact ⟨rfl, rfl⟩
    | step e _ _ _ => simp at hl
  | @step T d e h hh hu ih =>
    intro T' d' h' f f' hl h1 h2 h3 ht ht'
    cases h' with
    | boot => simp at hl
    | @step T' d' e' h' hh' hu' =>
      rw [times_cons] at ht ht'
      obtain ⟨rfl, rfl⟩ := ih h' f.2 f'.2 (by simpa using hl) (fun x hx => h1 x (List.mem_cons_of_mem _ hx))
        (fun x hx => h2 x (List.mem_cons_of_mem _ hx)) (fun ⟨x, hx, hy⟩ => h3 ⟨x, List.mem_cons_of_mem _ hx, hy⟩)
        ((List.suffix_append _ _).trans ht) ((List.suffix_append _ _).trans ht')
      have he : e = e' := f.1.trans f'.1.symm
      subst he
      have hk := h.runs.inv.key
      have h1' : presents body ⟨none, none, e, .wait⟩ ≠ some τ := h1 _ List.mem_cons_self
      have h2' : presents body ⟨none, none, e, .wait⟩ ≠ some τ' := h2 _ List.mem_cons_self
      obtain ⟨s1, s2⟩ := step_tag (nanoS := nanoS) (env := env) hτ hτ' hk h1' h2'
      have hrep : (d.step (withTag env key body τ') nanoS e).2 = (d.step (withTag env key body τ) nanoS e).2 := by
        rcases s2 with s2 | ⟨x, hx, hy⟩
        · exact s2
        · rw [List.mem_singleton] at hx
          exact absurd ⟨x, by rw [hx]; exact List.mem_cons_self, hy⟩ h3
      refine ⟨?_, s1.symm⟩
      congr 1
      refine Prod.ext ?_ ?_
      · simp only [Device.observe, hrep]
      · by_cases hp : presents body ⟨none, none, e, .wait⟩ = none
        · exact reads_other hp
        · have hp : (presents body ⟨none, none, e, .wait⟩).isSome := Option.isSome_iff_ne_none.2 hp
          have hp1 : (presents body (d.observe (withTag env key body τ) nanoS e)).isSome := hp
          have hp2 : (presents body (d.observe (withTag env key body τ') nanoS e)).isSome := hp
          rw [if_pos hp1] at ht
          rw [if_pos hp2] at ht'
          have := List.suffix_of_suffix_length_le ht ht' (by simp)
          have := this.eq_of_length (by simp)
          simpa using this

/-- A number for a list of times. -/
def timesCode : List Nat → Nat
  | [] => 0
  | n :: l => n + 1 + 18 * timesCode l

theorem timesCode_inj : ∀ {a b : List Nat}, (∀ n ∈ a, n ≤ 16) → (∀ n ∈ b, n ≤ 16) → timesCode a = timesCode b → a = b
  | [], [], _, _, _ => rfl
  | [], n :: b, _, _, h => by simp [timesCode] at h; omega
  | n :: a, [], _, _, h => by simp [timesCode] at h
  | n :: a, m :: b, ha, hb, h => by
    have h1 := ha n List.mem_cons_self
    have h2 := hb m List.mem_cons_self
    simp only [timesCode] at h
    rw [timesCode_inj (fun x hx => ha x (List.mem_cons_of_mem _ hx)) (fun x hx => hb x (List.mem_cons_of_mem _ hx))
      (show timesCode a = timesCode b by omega)]
    congr 1
    omega

theorem timesCode_lt : ∀ {a : List Nat}, (∀ n ∈ a, n ≤ 16) → timesCode a < 18 ^ a.length
  | [], _ => by simp [timesCode]
  | n :: a, ha => by
    have h1 := ha n List.mem_cons_self
    have := timesCode_lt (a := a) fun x hx => ha x (List.mem_cons_of_mem _ hx)
    simp only [timesCode, List.length_cons, Nat.pow_succ]
    omega

theorem timed_tail {tr1 : List (Obs × Nat)} : ∀ {tr2 : List (Obs × Nat)} {d : Device},
    TimedRuns env nanoS key (tr2 ++ tr1) d → ∃ d1, TimedRuns env nanoS key tr1 d1
  | [], d, h => ⟨d, h⟩
  | _ :: _, _, h => by
    cases h with
    | step e h _ _ => exact timed_tail h

theorem followsTimed_tail {tr1 : List (Obs × Nat)} : ∀ {tr2 : List (Obs × Nat)}, FollowsTimed σ (tr2 ++ tr1) →
    FollowsTimed σ tr1
  | [], h => h
  | _ :: tr2, h => followsTimed_tail (tr2 := tr2) h.2

/-- Where the tag is presented for the first time. -/
theorem first_timed {τ : Bytes} {q : Nat} {tr : List (Obs × Nat)} {d : Device} (h : TimedRuns env nanoS key tr d)
    (hf : FollowsTimed σ tr) (hb : BeforeSent body (untimed tr) fun o => presents body o = some τ)
    (hq : attempts body (untimed tr) ≤ q) :
    ∃ o tr1 d1, TimedRuns env nanoS key tr1 d1 ∧ FollowsTimed σ (o :: tr1) ∧ presents body o.1 = some τ ∧
      (∀ x ∈ tr1, presents body x.1 ≠ some τ) ∧ ¬ FrameSent body (untimed tr1) ∧ (times body tr1).length + 1 ≤ q := by
  obtain ⟨a, o, b, e, h1, h2⟩ := hb
  obtain ⟨a', c', rfl, ha, hc⟩ := List.map_eq_append_iff.1 e
  obtain ⟨o', b', rfl, ho, hb'⟩ := List.map_eq_cons_iff.1 hc
  subst ha ho hb'
  obtain ⟨l2, x, l1, e', g1, g2⟩ := first_such (p := fun o : Obs × Nat => presents body o.1 = some τ) (l := o' :: b')
    ⟨o', by simp, h1⟩
  rw [e', ← List.append_assoc] at h hf hq
  obtain ⟨d1, hd⟩ := timed_tail (tr2 := (a' ++ l2) ++ [x]) (tr1 := l1) (by simpa using h)
  refine ⟨x, l1, d1, hd, followsTimed_tail hf, g1, g2, ?_, ?_⟩
  · rintro ⟨y, hy, hy'⟩
    refine h2 ⟨y, ?_, hy'⟩
    cases l2 with
    | nil =>
      simp only [List.nil_append, List.cons.injEq] at e'
      rw [e'.2]
      exact hy
    | cons z l2 =>
      simp only [List.cons_append, List.cons.injEq] at e'
      rw [e'.2]
      simp only [untimed, List.map_append, List.map_cons] at hy ⊢
      simp [hy]
  · rw [← times_length, times_append, times_cons, if_pos (by rw [g1]; rfl)] at hq
    simp only [List.length_append, List.length_singleton] at hq
    omega

/-- C98, what holds: with a clock, a strategy that presents a body at most `q + 1` times presents the right tag, before
the device has sent a frame with this body, for at most `18^q` of the `2^128` values of the tag. -/
theorem C98_few_partial (env : Env) (nanoS : Bool) (key : Bytes) (σ : TimedStrategy) (body : Bytes) (q : Nat) :
    {τ : Bytes | τ.length = 16 ∧ ∃ tr d, TimedRuns (withTag env key body τ) nanoS key tr d ∧ FollowsTimed σ tr ∧
      BeforeSent body (untimed tr) (fun o => presents body o = some τ) ∧
      attempts body (untimed tr) ≤ q + 1}.encard ≤ 18 ^ q := by
  set S := {τ : Bytes | τ.length = 16 ∧ ∃ tr d, TimedRuns (withTag env key body τ) nanoS key tr d ∧ FollowsTimed σ tr ∧
      BeforeSent body (untimed tr) (fun o => presents body o = some τ) ∧ attempts body (untimed tr) ≤ q + 1} with hS
  have hex : ∀ τ, ∃ p : (Obs × Nat) × List (Obs × Nat), τ ∈ S → ∃ d1,
      TimedRuns (withTag env key body τ) nanoS key p.2 d1 ∧ FollowsTimed σ (p.1 :: p.2) ∧ presents body p.1.1 = some τ ∧
      (∀ x ∈ p.2, presents body x.1 ≠ some τ) ∧ ¬ FrameSent body (untimed p.2) ∧ (times body p.2).length + 1 ≤ q + 1 := by
    intro τ
    by_cases h : τ ∈ S
    · obtain ⟨_, tr, d, h1, h2, h3, h4⟩ := h
      obtain ⟨o, tr1, d1, g⟩ := first_timed h1 h2 h3 h4
      exact ⟨(o, tr1), fun _ => ⟨d1, g⟩⟩
    · exact ⟨⟨⟨⟨none, none, .both, .wait⟩, 0⟩, []⟩, fun h' => absurd h' h⟩
  choose f hf using hex
  have hle : ∀ τ ∈ S, ∀ τ' ∈ S, timesCode (times body (f τ).2) = timesCode (times body (f τ').2) →
      (f τ).2.length ≤ (f τ').2.length → τ = τ' := by
    intro τ hτ τ' hτ' he hl
    obtain ⟨d, r1, r2, r3, r4, r5, r6⟩ := hf τ hτ
    obtain ⟨d', s1, s2, s3, s4, s5, s6⟩ := hf τ' hτ'
    have ht := timesCode_inj (times_le r1) (times_le s1) he
    obtain ⟨A, B, hAB, hB⟩ : ∃ A B, (f τ').2 = A ++ B ∧ B.length = (f τ).2.length :=
      ⟨_, _, (List.take_append_drop ((f τ').2.length - (f τ).2.length) (f τ').2).symm, by rw [List.length_drop]; omega⟩
    rw [hAB] at s1
    obtain ⟨d2, hd2⟩ := timed_tail s1
    have hfo := s2.2
    rw [hAB] at hfo
    obtain ⟨e, _⟩ := timed_same (l := times body (f τ).2) hτ.1 hτ'.1 r1 hd2 r2.2 (followsTimed_tail hfo) hB.symm r4
      (fun x hx => s4 x (by rw [hAB]; exact List.mem_append_right _ hx)) r5 List.suffix_rfl (by
        rw [ht, hAB, times_append]
        exact List.suffix_append _ _)
    rcases List.eq_nil_or_concat A with rfl | ⟨A1, y, rfl⟩
    · have e2 : (f τ).2 = (f τ').2 := by rw [hAB, e]; rfl
      have hev : (f τ).1.1.event = (f τ').1.1.event := by rw [r2.1, s2.1, e2]
      have : presents body (f τ).1.1 = presents body (f τ').1.1 := by
        unfold presents
        rw [hev]
      rw [r3, s3] at this
      exact Option.some.inj this
    · exfalso
      rw [List.concat_eq_append, List.append_assoc] at hfo hAB
      have hy := (followsTimed_tail hfo).1
      rw [← e] at hy
      have hev : y.1.event = (f τ).1.1.event := by rw [r2.1]; exact hy
      have hp : presents body y.1 = some τ := by
        rw [← r3]
        unfold presents
        rw [hev]
      have hcount := congrArg List.length ht
      rw [hAB, times_append, List.singleton_append, times_cons, if_pos (by rw [hp]; rfl), ← e] at hcount
      simp only [List.length_append, List.length_singleton] at hcount
      omega
  have hinj : Set.InjOn (fun τ => timesCode (times body (f τ).2)) S := by
    intro τ hτ τ' hτ' he
    rcases Nat.le_total (f τ).2.length (f τ').2.length with hl | hl
    · exact hle τ hτ τ' hτ' he hl
    · exact (hle τ' hτ' τ hτ he.symm hl).symm
  have hmaps : Set.MapsTo (fun τ => timesCode (times body (f τ).2)) S (Finset.range (18 ^ q) : Set Nat) := by
    intro τ hτ
    obtain ⟨d, r1, _, _, _, _, r6⟩ := hf τ hτ
    have := timesCode_lt (times_le (body := body) r1)
    rw [Finset.coe_range, Set.mem_Iio]
    exact this.trans_le (Nat.pow_le_pow_right (by omega) (by omega))
  calc S.encard ≤ (Finset.range (18 ^ q) : Set Nat).encard := Set.encard_le_encard_of_injOn hmaps hinj
    _ = 18 ^ q := by
      rw [Set.encard_coe_eq_coe_finsetCard, Finset.card_range]
      norm_cast

/-- The time tells how far the guess is right; the strategy then tries the next value of the first wrong byte. -/
example :
    let τ : Bytes := [3, 5] ++ List.replicate 14 1
    let reads := fun g => attackReady.reads (withTag toyEnv [1] guessBody τ) (attackFrame g)
    reads (List.replicate 16 0) = 1 ∧ reads (3 :: List.replicate 15 0) = 2 ∧
      reads ([3, 5] ++ List.replicate 14 0) = 3 ∧ reads τ = 16 ∧
      bump (3 :: List.replicate 15 0) 2 = [3, 1] ++ List.replicate 14 0 := by
  decide +kernel

/-- No time is seen without an approved session. -/
example : (Device.boot [1]).reads toyEnv (attackFrame (List.replicate 16 0)) = 0 ∧
    attackReady.reads toyEnv (attackFrame (List.replicate 16 0)) ≠ 0 := by
  decide +kernel

end Ergo
