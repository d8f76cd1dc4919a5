import Verif.Spec.Timing
import Verif.Proof.Forge
import Verif.Proof.Rekey
import Verif.Proof.Demo
import Verif.Props.Lives
/-!
# Finding a tag by the time of its comparison
-/
namespace Ergo
open Spec

theorem TimedRuns.runs {env : Env} {nanoS : Bool} {key : Bytes} {tr : List (Obs × Nat)} {d : Device}
    (h : TimedRuns env nanoS key tr d) : Runs env nanoS key (untimed tr) d := by
  induction h with
  | boot => exact .boot
  | step e _ hh hu ih => exact .step e ih hh hu

/-- Increase the byte at which the comparison stopped. -/
def bump (g : Bytes) (n : Nat) : Bytes := g.modify (n - 1) (· + 1)

/-- The tag to present next. -/
def nextGuess : List (Obs × Nat) → Bytes
  | [] => List.replicate 16 0
  | (o, n) :: tr => if isFrame o then bump (nextGuess tr) n else nextGuess tr

/-- What is done before a frame can be presented. -/
def attackOpen : List Event := demoOpen ++ demoTx.take 1

/-- The frame with a tag. -/
def attackFrame (g : Bytes) : Event := cmd 0x21 0x12 7 (guessBody ++ g ++ [0, 0, 0, 0])

/-- Start a session, have it approved, present a frame, and so on. -/
def attack : TimedStrategy := fun tr => attackOpen.getD (tr.length % 4) (attackFrame (nextGuess tr))

/-- Sum of the bytes. -/
def weight (g : Bytes) : Nat := (g.map (·.toNat)).sum

/-- No byte of the guess is greater than that of the tag. -/
abbrev Below (g τ : Bytes) : Prop := List.Forall₂ (fun a b : UInt8 => a.toNat ≤ b.toNat) g τ

theorem byte_succ {a b : UInt8} (h : a.toNat ≤ b.toNat) (hn : a ≠ b) : (a + 1).toNat = a.toNat + 1 ∧ a.toNat + 1 ≤ b.toNat := by
  have h1 : a.toNat ≠ b.toNat := fun e => hn (UInt8.toNat_inj.1 e)
  have h2 := b.toNat_lt
  have : (a + 1).toNat = a.toNat + 1 := by
    rw [UInt8.toNat_add]
    simp
    omega
  omega

theorem bump_below : ∀ {g τ : Bytes}, Below g τ → g ≠ τ → 1 ≤ memcmpReads τ g ∧ Below (bump g (memcmpReads τ g)) τ ∧
    weight (bump g (memcmpReads τ g)) = weight g + 1
  | _, _, .nil, hn => absurd rfl hn
  | a :: g, b :: τ, .cons h hb, hn => by
    unfold memcmpReads
    by_cases e : b = a
    · subst e
      obtain ⟨h1, h2, h3⟩ := bump_below hb (fun e => hn (by rw [e]))
      obtain ⟨n, hn⟩ : ∃ n, memcmpReads τ g = n + 1 := ⟨memcmpReads τ g - 1, by omega⟩
      rw [if_pos rfl]
      rw [hn] at h2 h3 ⊢
      have e : bump (b :: g) (1 + (n + 1)) = b :: bump g (n + 1) := by
        have : 1 + (n + 1) - 1 = n + 1 := by omega
        unfold bump
        rw [this]
        rfl
      rw [e]
      refine ⟨by omega, .cons h h2, ?_⟩
      simp only [weight, List.map_cons, List.sum_cons] at h3 ⊢
      omega
    · rw [if_neg e]
      obtain ⟨h1, h2⟩ := byte_succ h (fun e' => e e'.symm)
      have e : bump (a :: g) 1 = (a + 1) :: g := rfl
      rw [e]
      refine ⟨le_rfl, .cons (by omega) hb, ?_⟩
      simp only [weight, List.map_cons, List.sum_cons, h1]
      omega

theorem weight_below : ∀ {g τ : Bytes}, Below g τ → weight g ≤ weight τ
  | _, _, .nil => le_rfl
  | _, _, .cons h hb => by
    have := weight_below hb
    simp only [weight, List.map_cons, List.sum_cons] at this ⊢
    omega

theorem weight_le : ∀ g : Bytes, weight g ≤ 255 * g.length
  | [] => by simp [weight]
  | a :: g => by
    have := weight_le g
    have := a.toNat_lt
    simp only [weight, List.map_cons, List.sum_cons, List.length_cons] at *
    omega

theorem zeros_below : ∀ τ : Bytes, Below (List.replicate τ.length 0) τ
  | [] => .nil
  | _ :: τ => .cons (Nat.zero_le _) (zeros_below τ)

/-- The world with the unknown tag. -/
abbrev attackWorld (τ : Bytes) : Env := withTag toyEnv [1] guessBody τ

/-- The device before a frame is presented. -/
def attackReady : Device := after attackOpen

theorem attack_open (τ : Bytes) : (Device.boot [1]).run (attackWorld τ) false attackOpen =
    (Device.boot [1]).run toyEnv false attackOpen := by
  rfl

/-- The frame whose tag is right in the toy world. -/
theorem attack_toy : attackFrame (List.replicate 16 9) = cmd 0x21 0x12 7 (demoFrame 1 1 0 100 [] [0, 0, 0, 0]) := by
  unfold attackFrame
  congr 1

theorem tagAt_guess (g : Bytes) : tagAt (guessBody ++ g ++ [0, 0, 0, 0]) = 43 := by
  have : field (guessBody ++ g ++ [0, 0, 0, 0]) 42 1 = 0 := by
    unfold field
    rw [List.append_assoc, List.drop_append_of_le_length (by decide +kernel)]
    rw [List.take_append_of_le_length (by decide +kernel)]
    decide +kernel
  unfold tagAt
  rw [this]

theorem guessBody_length : guessBody.length = 43 := by decide +kernel

theorem take_guess (g : Bytes) : (guessBody ++ g ++ [0, 0, 0, 0]).take 43 = guessBody := by
  rw [List.append_assoc, ← guessBody_length, List.take_left]

theorem drop_guess {g : Bytes} (hg : g.length = 16) : ((guessBody ++ g ++ [0, 0, 0, 0]).drop 43).take 16 = g := by
  rw [List.append_assoc, ← guessBody_length, List.drop_left, ← hg, List.take_left]

theorem presents_attack {g : Bytes} (hg : g.length = 16) (o : Obs) (ho : o.event = attackFrame g) :
    presents guessBody o = some g := by
  rw [presents_eq (o := o) (data := guessBody ++ g ++ [0, 0, 0, 0]) ho (by rw [tagAt_guess, take_guess]), tagAt_guess,
    drop_guess hg]

theorem frameDataLen_guess {g : Bytes} (hg : g.length = 16) : frameDataLen (guessBody ++ g ++ [0, 0, 0, 0]) = 43 := by
  have hl : (guessBody ++ g ++ [0, 0, 0, 0]).length = 63 := by
    simp [hg, guessBody_length]
  have h42 : (guessBody ++ g ++ [0, 0, 0, 0]).getD 42 0 = 0 := by
    rw [List.append_assoc, List.getD_eq_getElem?_getD, List.getElem?_append_left (by decide +kernel)]
    decide +kernel
  unfold frameDataLen
  rw [hl, h42]
  decide

/-- The right tag is accepted. -/
theorem attack_right {τ : Bytes} (hτ : τ.length = 16) :
    (attackReady.step (attackWorld τ) false (attackFrame τ)).2 = .sw 0x9000 [] := by
  have hs := sameButMac_eq (env := toyEnv) (env' := attackWorld τ) ⟨rfl, rfl, rfl, rfl, rfl, rfl⟩
  have := (step_rekey (env := toyEnv) (H := (attackWorld τ).hmac) (k := [1]) false attackReady
    (e := attackFrame (List.replicate 16 9)) (e' := attackFrame τ) (by
      rw [← hs]
      refine .frame (.retag (by decide +kernel) (by simp) hτ ?_)
      have h1 : TagOk toyEnv attackReady.sessionKey (guessBody ++ List.replicate 16 9 ++ [0, 0, 0, 0]) := by
        unfold TagOk; decide +kernel
      have h2 : TagOk (attackWorld τ) [1] (guessBody ++ τ ++ [0, 0, 0, 0]) := by
        unfold TagOk
        rw [tagAt_guess, take_guess, drop_guess hτ, withTag_body hτ]
      exact iff_of_true h1 h2)).2
  rw [← hs] at this
  have hk : attackReady.rekey [1] = attackReady := by decide +kernel
  rw [hk] at this
  have ht : (attackReady.step toyEnv false (attackFrame (List.replicate 16 9))).2 = .sw 0x9000 [] := by decide +kernel
  rcases this with this | ⟨⟨cla, p2, data, rnd, he⟩, _⟩
  · rw [this, ht]
  · simp [attackFrame, cmd] at he

/-- A wrong tag is refused, the session is over. -/
theorem attack_wrong {τ g : Bytes} (hτ : τ.length = 16) (hg : g.length = 16) (hn : g ≠ τ) :
    attackReady.step (attackWorld τ) false (attackFrame g) = (.boot [1], .sw 0xE018 []) ∧
    attackReady.reads (attackWorld τ) (attackFrame g) = memcmpReads τ g := by
  have hl : (guessBody ++ g ++ [0, 0, 0, 0]).length = 63 := by
    simp [hg, guessBody_length]
  have hx : ∃ x, attackReady.ctx = .sign x ∧ x.session = 7 ∧ x.approved = true := by
    have : (match attackReady.ctx with | .sign x => decide (x.session = 7 ∧ x.approved = true) | _ => false) = true := by
      decide +kernel
    revert this
    cases attackReady.ctx with
    | sign x => exact fun h => ⟨x, rfl, by simpa using h⟩
    | _ => simp
  obtain ⟨x, h1, h2, h3⟩ := hx
  have hb : attackReady.busy = false := by decide +kernel
  have hc : attackReady.command = .signTransaction := by decide +kernel
  have hk : attackReady.sessionKey = [1] := by decide +kernel
  have ha : attackReady.setCommand .none = .boot [1] := by decide +kernel
  have ht := withTag_body (env := toyEnv) (key := [1]) (body := guessBody) hτ
  have ho : opFrame (attackWorld τ) [1] x.p (guessBody ++ g ++ [0, 0, 0, 0]) = .err Sw.badFrameSignature := by
    unfold opFrame
    rw [frameDataLen_guess hg]
    have e : ((43 : UInt8).toNat) = 43 := rfl
    simp only [e, take_guess, drop_guess hg, ht]
    rw [if_neg (by decide), if_pos fun e => hn e.symm]
  constructor
  · simp only [attackFrame, cmd, Device.step, Device.dispatch, Device.signTransaction, Device.signSub, hl, hb, hc, h1, h2, h3,
      hk, ho, Device.signResult, Device.abort, ha, status]
    simp [Sw.badFrameSignature]
  · simp only [attackFrame, cmd, Device.reads, hl, hb, hc, h1, h2, h3, hk, frameDataLen_guess hg]
    have e : ((43 : UInt8).toNat) = 43 := rfl
    simp only [e, take_guess, drop_guess hg, ht]
    simp

theorem timed_step {env : Env} {nanoS : Bool} {key : Bytes} {tr : List (Obs × Nat)} {d d' : Device} {e : Event} {r : Reply}
    (h : TimedRuns env nanoS key tr d) (hs : d.step env nanoS e = (d', r)) (h1 : r ≠ .hang) (h2 : r ≠ .ub) :
    ∃ o : Obs × Nat, TimedRuns env nanoS key (o :: tr) d' ∧ o.1.event = e ∧ o.1.reply = r ∧ o.2 = d.reads env e := by
  have := TimedRuns.step e h (by rw [hs]; exact h1) (by rw [hs]; exact h2)
  rw [hs] at this
  refine ⟨_, this, rfl, ?_, rfl⟩
  show (d.step env nanoS e).2 = r
  rw [hs]

/-- The first events of a session. -/
def attackEv (i : Nat) : Event := attackOpen.getD i .left

/-- The devices between them. -/
def attackAt (i : Nat) : Device := after (attackOpen.take i)

theorem attack_step (τ : Bytes) (i : Nat) (hi : i < 3) : ∃ r, (attackAt i).step (attackWorld τ) false (attackEv i) =
    (attackAt (i + 1), r) ∧ r ≠ .hang ∧ r ≠ .ub := by
  have h : ∀ i < 3, ((attackAt i).step toyEnv false (attackEv i)).1 = attackAt (i + 1) ∧
      ((attackAt i).step toyEnv false (attackEv i)).2 ≠ .hang ∧ ((attackAt i).step toyEnv false (attackEv i)).2 ≠ .ub := by
    decide +kernel
  have e : (attackAt i).step (attackWorld τ) false (attackEv i) = (attackAt i).step toyEnv false (attackEv i) := by
    match i, hi with
    | 0, _ => rfl
    | 1, _ => rfl
    | 2, _ => rfl
  obtain ⟨h1, h2⟩ := h i hi
  exact ⟨_, by rw [e, ← h1], h2⟩

theorem attack_at (tr : List (Obs × Nat)) (i : Nat) (hi : i < 3) (h : tr.length % 4 = i) : attack tr = attackEv i := by
  unfold attack attackEv
  rw [h]
  match i, hi with
  | 0, _ => rfl
  | 1, _ => rfl
  | 2, _ => rfl

theorem attack_frame (tr : List (Obs × Nat)) (h : tr.length % 4 = 3) : attack tr = attackFrame (nextGuess tr) := by
  unfold attack
  rw [h]
  rfl

theorem open_plain (i : Nat) (hi : i < 3) {o : Obs} (ho : o.event = attackEv i) : isFrame o = false ∧
    presents guessBody o = none := by
  unfold isFrame presents
  rw [ho]
  match i, hi with
  | 0, _ => exact ⟨rfl, rfl⟩
  | 1, _ => exact ⟨rfl, rfl⟩
  | 2, _ => exact ⟨rfl, rfl⟩

/-- The device does not make frames during the attack. -/
abbrev NoAttest (tr : List (Obs × Nat)) : Prop := ((untimed tr).map (·.event)).all (fun e => match e with
    | .apdu _ ins p1 _ _ _ => !(ins == 0x20 && p1 == 0x05)
    | _ => true) = true

theorem timed_open (τ : Bytes) {tr : List (Obs × Nat)} (h : TimedRuns (attackWorld τ) false [1] tr (.boot [1]))
    (hf : FollowsTimed attack tr) (hl : tr.length % 4 = 0) (hn : NoAttest tr) :
    ∃ tr1, TimedRuns (attackWorld τ) false [1] tr1 attackReady ∧ FollowsTimed attack tr1 ∧ tr1.length % 4 = 3 ∧
      nextGuess tr1 = nextGuess tr ∧ attempts guessBody (untimed tr1) = attempts guessBody (untimed tr) ∧ NoAttest tr1 := by
  have h0 : attackAt 0 = .boot [1] := by decide +kernel
  have h3 : attackAt 3 = attackReady := by decide +kernel
  rw [← h0] at h
  have key : ∀ i, i ≤ 3 → ∃ tr1, TimedRuns (attackWorld τ) false [1] tr1 (attackAt i) ∧ FollowsTimed attack tr1 ∧
      tr1.length % 4 = i ∧ nextGuess tr1 = nextGuess tr ∧
      attempts guessBody (untimed tr1) = attempts guessBody (untimed tr) ∧ NoAttest tr1 := by
    intro i
    induction i with
    | zero => exact fun _ => ⟨tr, h, hf, hl, rfl, rfl, hn⟩
    | succ i ih =>
      intro hi
      obtain ⟨tr1, g1, g2, g3, g4, g5, g6⟩ := ih (by omega)
      obtain ⟨r, hs, hr1, hr2⟩ := attack_step τ i (by omega)
      obtain ⟨o, k1, k2, _⟩ := timed_step g1 hs hr1 hr2
      obtain ⟨p1, p2⟩ := open_plain i (by omega) k2
      refine ⟨o :: tr1, k1, ⟨by rw [k2, attack_at tr1 i (by omega) g3], g2⟩, by rw [List.length_cons]; omega, ?_, ?_, ?_⟩
      · obtain ⟨o1, o2⟩ := o
        simp only [nextGuess]
        rw [p1]
        exact g4
      · rw [← g5]
        simp [attempts, untimed, p2]
      · simp only [NoAttest, untimed, List.map_cons, List.all_cons, Bool.and_eq_true]
        refine ⟨?_, g6⟩
        rw [k2]
        match i, hi with
        | 0, _ => rfl
        | 1, _ => rfl
        | 2, _ => rfl
  obtain ⟨tr1, g⟩ := key 3 le_rfl
  rw [h3] at g
  exact ⟨tr1, g⟩

/-- The attack succeeds after at most as many attempts as the bytes of the tag add up to. -/
theorem attack_goes {τ : Bytes} (hτ : τ.length = 16) : ∀ (n : Nat) (tr : List (Obs × Nat)),
    TimedRuns (attackWorld τ) false [1] tr (.boot [1]) → FollowsTimed attack tr → tr.length % 4 = 0 → NoAttest tr →
    Below (nextGuess tr) τ → weight τ - weight (nextGuess tr) ≤ n →
    ∃ tr2 d, TimedRuns (attackWorld τ) false [1] tr2 d ∧ FollowsTimed attack tr2 ∧
      BeforeSent guessBody (untimed tr2) (FrameAccepted guessBody) ∧
      attempts guessBody (untimed tr2) ≤ attempts guessBody (untimed tr) + n + 1 := by
  intro n
  induction n with
  | zero | succ n ih =>
    intro tr h hf hl hn hb hw
    obtain ⟨tr1, g1, g2, g3, g4, g5, g6⟩ := timed_open τ h hf hl hn
    have hlen : (nextGuess tr).length = 16 := hb.length_eq.trans hτ
    have hat : attack tr1 = attackFrame (nextGuess tr) := by rw [attack_frame tr1 g3, g4]
    by_cases he : nextGuess tr = τ
    · rw [he] at hat
      have hr := attack_right hτ
      obtain ⟨o, k1, k2, k3, _⟩ := timed_step (r := .sw 0x9000 []) g1 (Prod.ext rfl hr) (by simp) (by simp)
      have hp := presents_attack hτ o.1 k2
      refine ⟨o :: tr1, _, k1, ⟨by rw [k2, hat], g2⟩, ⟨[], o.1, untimed tr1, rfl, ⟨by rw [hp]; rfl, [], k3⟩,
        no_frame_sent g6 _⟩, ?_⟩
      rw [← g5]
      simp [attempts, untimed, hp]
      try omega
    · obtain ⟨hs, hrd⟩ := attack_wrong hτ hlen he
      obtain ⟨b1, b2, b3⟩ := bump_below hb he
      have hwb := weight_below b2
      first
      | omega
      | obtain ⟨o, k1, k2, k3, k4⟩ := timed_step g1 hs (by simp) (by simp)
        have hp := presents_attack hlen o.1 k2
        have hfr : isFrame o.1 = true := by
          unfold isFrame
          rw [k2]
          rfl
        have hng : nextGuess (o :: tr1) = bump (nextGuess tr) (memcmpReads τ (nextGuess tr)) := by
          obtain ⟨o1, o2⟩ := o
          simp only [nextGuess]
          simp only at k4 hfr
          rw [if_pos hfr, g4, k4, hrd]
        obtain ⟨tr2, d, q1, q2, q3, q4⟩ := ih (o :: tr1) k1 ⟨by rw [k2, hat], g2⟩ (by rw [List.length_cons]; omega) (by
          simp only [NoAttest, untimed, List.map_cons, List.all_cons, Bool.and_eq_true]
          refine ⟨?_, g6⟩
          rw [k2]
          rfl) (by rw [hng]; exact b2) (by rw [hng]; omega)
        refine ⟨tr2, d, q1, q2, q3, q4.trans ?_⟩
        rw [← g5]
        have : attempts guessBody (untimed (o :: tr1)) = attempts guessBody (untimed tr1) + 1 := by
          simp [attempts, untimed, hp]
        omega

end Ergo
