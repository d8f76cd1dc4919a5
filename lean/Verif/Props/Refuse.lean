import Verif.Proof.Refuse
import Verif.Props.Device
import Verif.Props.Pages
import Verif.Props.Replies
/-!
# C58: the user can always refuse
-/
namespace Ergo
open Spec

/-- Presses of the left or right button leading from `d` to `d'`, with a question on display all the
way. -/
inductive Presses (env : Env) (nanoS : Bool) : Device → List Event → Device → Prop
  | nil {d} (hb : d.busy = true) : Presses env nanoS d [] d
  | cons {d d' d'' b bs} (hb : d.busy = true) (hbt : b = .left ∨ b = .right)
      (hs : d.step env nanoS b = (d', .wait)) (hr : Presses env nanoS d' bs d'') :
      Presses env nanoS d (b :: bs) d''

theorem Presses.busy {env : Env} {nanoS : Bool} {d d' : Device} {bs : List Event}
    (h : Presses env nanoS d bs d') : d.busy = true := by cases h <;> assumption

theorem Presses.buttons {env : Env} {nanoS : Bool} {d d' : Device} {bs : List Event}
    (h : Presses env nanoS d bs d') : ∀ b ∈ bs, b = .left ∨ b = .right := by
  induction h with
  | nil => simp
  | cons hb hbt hs hr ih =>
    intro b hm
    rcases List.mem_cons.1 hm with rfl | hm
    · exact hbt
    · exact ih b hm

theorem Presses.app {env : Env} {nanoS : Bool} {d d' : Device} {bs : List Event}
    (h : Presses env nanoS d bs d') : d'.connectedApp = d.connectedApp := by
  induction h with
  | nil => rfl
  | @cons d d' d'' b bs hb hbt hs hr ih =>
    rw [ih]
    have hT := step_cases env nanoS d b
    rw [hs] at hT
    obtain ⟨e1, r1, he, hT⟩ := hT
    cases he
    generalize hw : Reply.wait = w at hT
    cases hT <;> first | rfl | (simp at hbt; done) | (simp [status] at hw; done)

/-- Commands received while a question is on display change nothing. -/
theorem busy_apdu {env : Env} {nanoS : Bool} {d : Device} (hb : d.busy = true) (cla ins p1 p2 : UInt8)
    (data : Bytes) (rnd : Rnd) : (d.step env nanoS (.apdu cla ins p1 p2 data rnd)).1 = d ∧
    ∃ sw out, (d.step env nanoS (.apdu cla ins p1 p2 data rnd)).2 = .sw sw out := by
  obtain ⟨d', r, hst, hT⟩ := step_cases env nanoS d (.apdu cla ins p1 p2 data rnd)
  rw [hst]
  generalize he : Event.apdu cla ins p1 p2 data rnd = e at hT
  cases hT <;> first
    | (rename_i h; rw [hb] at h; simp at h; done)
    | exact ⟨rfl, _, _, rfl⟩
    | (subst he; simp at *; done)
    | simp_all

/-- Presses of the two buttons. -/
def isPress : Event → Bool
  | .apdu .. => false
  | _ => true

/-- Whatever the host sends in between, presses lead where they lead without the host. -/
theorem Presses.run {env : Env} {nanoS : Bool} {d' : Device} : ∀ (es bs : List Event) (d : Device),
    Presses env nanoS d bs d' → es.filter isPress = bs →
    (d.run env nanoS es).1 = d' ∧
      (d.run env nanoS es).2.all (fun r => r != .hang && r != .ub) = true
  | [], bs, d, h, hf => by
    subst hf
    cases h
    exact ⟨rfl, rfl⟩
  | e :: es, bs, d, h, hf => by
    by_cases he : isPress e = true
    · rw [List.filter_cons_of_pos he] at hf
      subst hf
      cases h with
      | cons hb hbt hs hr =>
        have ih := Presses.run es _ _ hr rfl
        simp only [Device.run, hs, List.all_cons, Bool.and_eq_true]
        exact ⟨ih.1, by decide, ih.2⟩
    · rw [List.filter_cons_of_neg he] at hf
      have ih := Presses.run es _ _ h hf
      cases e with
      | apdu cla ins p1 p2 data rnd =>
        obtain ⟨h1, sw, out, h2⟩ := busy_apdu (env := env) (nanoS := nanoS) h.busy cla ins p1 p2 data rnd
        simp only [Device.run, h1, h2, List.all_cons, Bool.and_eq_true]
        exact ⟨ih.1, by simp, ih.2⟩
      | _ => simp [isPress] at he

/-- One press within a flow. -/
theorem Presses.one {env : Env} {nanoS : Bool} {d d'' : Device} {s : Screen} {b : Event} {m : Move}
    {bs : List Event} (hb : d.busy = true) (hs : d.screen = some s)
    (hbm : b = .left ∧ s.flow.left = m ∨ b = .right ∧ s.flow.right = m)
    (hm : ∀ k, m.draw = some k → ∃ p, d.show env nanoS s.cb k = .page p)
    (hr : Presses env nanoS { d with screen := some { s with flow := m.flow } } bs d'') :
    Presses env nanoS d (b :: bs) d'' := by
  have hmove : d.move env nanoS s m = ({ d with screen := some { s with flow := m.flow } }, .wait) := by
    unfold Device.move
    cases hd : m.draw with
    | none => rfl
    | some k =>
      obtain ⟨p, hp⟩ := hm k hd
      simp only [hp]
  refine .cons hb (hbm.imp (·.1) (·.1)) ?_ hr
  rcases hbm with ⟨rfl, rfl⟩ | ⟨rfl, rfl⟩ <;> simp only [Device.step, hs, hmove]

/-- A way of at most `n` presses to Reject. -/
def WayOut (env : Env) (nanoS : Bool) (n : Nat) (d : Device) : Prop :=
  ∃ bs d', bs.length ≤ n ∧ Presses env nanoS d bs d' ∧ d'.here = some .reject

theorem WayOut.mono {env : Env} {nanoS : Bool} {n m : Nat} {d : Device} (h : WayOut env nanoS n d)
    (hnm : n ≤ m) : WayOut env nanoS m d := by
  obtain ⟨bs, d', h1, h2⟩ := h
  exact ⟨bs, d', by omega, h2⟩

theorem WayOut.step {env : Env} {nanoS : Bool} {n : Nat} {d : Device} {s : Screen} {b : Event} {m : Move}
    (hb : d.busy = true) (hs : d.screen = some s)
    (hbm : b = .left ∧ s.flow.left = m ∨ b = .right ∧ s.flow.right = m)
    (hm : ∀ k, m.draw = some k → ∃ p, d.show env nanoS s.cb k = .page p)
    (hr : WayOut env nanoS n { d with screen := some { s with flow := m.flow } }) :
    WayOut env nanoS (n + 1) d := by
  obtain ⟨bs, d', h1, h2, h3⟩ := hr
  exact ⟨b :: bs, d', by simp; omega, .one hb hs hbm hm h2, h3⟩

theorem wayOut_here {env : Env} {nanoS : Bool} {d : Device} (hb : d.busy = true)
    (hh : d.here = some .reject) : WayOut env nanoS 0 d := ⟨[], d, by simp, .nil hb, hh⟩

/-- Fixed flows: to the right until the last step. -/
theorem wayOut_static {env : Env} {nanoS : Bool} {f0 : Flow} (h0 : IsStatic f0) : ∀ (n : Nat) (d : Device)
    (s : Screen), d.busy = true → d.screen = some s → s.flow.steps = f0.steps →
    s.flow.idx + 1 + n = f0.steps.length → WayOut env nanoS n d
  | 0, d, s, hb, hs, hf, hi => by
    refine wayOut_here hb ?_
    simp only [Device.here, hs, Option.map_some, Flow.here, hf, Option.some.injEq]
    obtain ⟨l, rfl, _⟩ := h0
    simp only [Flow.static] at hi ⊢
    have : s.flow.idx = l.length + 1 := by simp at hi; omega
    rw [this, List.getD_eq_getElem?_getD, List.getElem?_append_right (by omega)]
    simp
  | n + 1, d, s, hb, hs, hf, hi => by
    obtain ⟨fl, cb⟩ := s
    obtain ⟨steps, idx, count, cur⟩ := fl
    simp only at hf hi
    subst hf
    have hlt : idx + 1 < f0.steps.length := by omega
    have e : Flow.right ⟨f0.steps, idx, count, cur⟩ = ⟨⟨f0.steps, idx + 1, count, cur⟩, none⟩ := by
      have := arrive_static (f := ⟨f0.steps, idx + 1, count, cur⟩) h0 rfl hlt
      unfold Flow.right
      simp only [hlt, if_true]
      exact this
    exact .step hb hs (.inr ⟨rfl, e⟩) (by simp)
      (wayOut_static h0 n _ _ hb rfl rfl (by simp only; omega))

theorem wayOut_first {env : Env} {nanoS : Bool} {d : Device} {q : Page} {n : Nat} {cb : Callback}
    (hb : d.busy = true) (hs : d.screen = some ⟨⟨(Flow.dynamic q n).steps, 0, n, none⟩, cb⟩) :
    WayOut env nanoS 1 d := by
  have e : Flow.left ⟨(Flow.dynamic q n).steps, 0, n, none⟩ =
      ⟨⟨(Flow.dynamic q n).steps, 5, n, none⟩, none⟩ := rfl
  exact .step hb hs (.inl ⟨rfl, e⟩) (by simp) (wayOut_here hb rfl)

theorem wayOut_approve {env : Env} {nanoS : Bool} {d : Device} {q : Page} {n : Nat} {cb : Callback}
    (hb : d.busy = true) (hs : d.screen = some ⟨⟨(Flow.dynamic q n).steps, 4, n, none⟩, cb⟩) :
    WayOut env nanoS 1 d := by
  have e : Flow.right ⟨(Flow.dynamic q n).steps, 4, n, none⟩ =
      ⟨⟨(Flow.dynamic q n).steps, 5, n, none⟩, none⟩ := rfl
  exact .step hb hs (.inr ⟨rfl, e⟩) (by simp) (wayOut_here hb rfl)

/-- Back over the pages before the one on display. -/
theorem wayOut_left {env : Env} {nanoS : Bool} {q : Page} {n : Nat} {cb : Callback} : ∀ (k : Nat)
    (d : Device), d.busy = true →
    d.screen = some ⟨⟨(Flow.dynamic q n).steps, 2, n, some k⟩, cb⟩ →
    (∀ j, j ≤ k → ∃ p, d.show env nanoS cb j = .page p) → WayOut env nanoS (k + 2) d
  | 0, d, hb, hs, hp => by
    have e : Flow.left ⟨(Flow.dynamic q n).steps, 2, n, some 0⟩ =
      ⟨⟨(Flow.dynamic q n).steps, 0, n, none⟩, none⟩ := rfl
    exact .step hb hs (.inl ⟨rfl, e⟩) (by simp) (wayOut_first (d := { d with screen := _ }) hb rfl)
  | k + 1, d, hb, hs, hp => by
    have e : Flow.left ⟨(Flow.dynamic q n).steps, 2, n, some (k + 1)⟩ =
      ⟨⟨(Flow.dynamic q n).steps, 2, n, some k⟩, some k⟩ := rfl
    refine .step hb hs (.inl ⟨rfl, e⟩) ?_
      (wayOut_left (q := q) (n := n) (cb := cb) k { d with screen := _ } hb rfl
        (fun j hj => hp j (by omega)))
    intro j hj
    simp at hj
    subst hj
    exact hp k (by omega)

/-- Forward over the pages after the one on display. -/
theorem wayOut_right {env : Env} {nanoS : Bool} {q : Page} {n : Nat} {cb : Callback} : ∀ (m k : Nat)
    (d : Device), k + 1 + m = n → d.busy = true →
    d.screen = some ⟨⟨(Flow.dynamic q n).steps, 2, n, some k⟩, cb⟩ →
    (∀ j, k ≤ j → j < n → ∃ p, d.show env nanoS cb j = .page p) → WayOut env nanoS (m + 2) d
  | 0, k, d, hk, hb, hs, hp => by
    have e : Flow.right ⟨(Flow.dynamic q n).steps, 2, n, some k⟩ =
        ⟨⟨(Flow.dynamic q n).steps, 4, n, none⟩, none⟩ := by
      have e : Flow.right ⟨(Flow.dynamic q n).steps, 2, n, some k⟩ =
          if k < n - 1 then ⟨⟨(Flow.dynamic q n).steps, 2, n, some (k + 1)⟩, some (k + 1)⟩
          else ⟨⟨(Flow.dynamic q n).steps, 4, n, none⟩, none⟩ := rfl
      rw [e, if_neg (by omega)]
    exact .step hb hs (.inr ⟨rfl, e⟩) (by simp) (wayOut_approve (d := { d with screen := _ }) hb rfl)
  | m + 1, k, d, hk, hb, hs, hp => by
    have e : Flow.right ⟨(Flow.dynamic q n).steps, 2, n, some k⟩ =
        ⟨⟨(Flow.dynamic q n).steps, 2, n, some (k + 1)⟩, some (k + 1)⟩ := by
      have e : Flow.right ⟨(Flow.dynamic q n).steps, 2, n, some k⟩ =
          if k < n - 1 then ⟨⟨(Flow.dynamic q n).steps, 2, n, some (k + 1)⟩, some (k + 1)⟩
          else ⟨⟨(Flow.dynamic q n).steps, 4, n, none⟩, none⟩ := rfl
      rw [e, if_pos (by omega)]
    refine .step hb hs (.inr ⟨rfl, e⟩) ?_
      (wayOut_right (q := q) (n := n) (cb := cb) m (k + 1) { d with screen := _ } (by omega) hb rfl
        (fun j h1 h2 => hp j (by omega) h2))
    intro j hj
    simp at hj
    subst hj
    exact hp (k + 1) (by omega) (by omega)

/-- From every screen of every execution there is a way to Reject of at most 44 presses. -/
theorem Runs.wayOut {env : Env} {nanoS : Bool} {key : Bytes} {tr : List Obs} {d : Device}
    (h : Runs env nanoS key tr d) {s : Screen} (hs : d.screen = some s) : WayOut env nanoS 44 d := by
  have hb : d.busy = true := by rw [h.inv.busy, hs]; rfl
  obtain ⟨a, f0, p1, hf, p3⟩ := h.inv.asking _ hs
  obtain ⟨c1, c2, c3, c4, _⟩ := C40_slots h hs
  have hw := fun k => h.walked s k hs
  obtain ⟨fl, cb⟩ := s
  obtain ⟨steps, idx, count, cur⟩ := fl
  obtain ⟨e1, e2, hk⟩ := hf
  simp only at e1 e2 hk c1 c2 c3 c4 hw
  subst e1 e2
  rcases hk with ⟨a1, a2, a3⟩ | ⟨⟨q, n, hn, rfl⟩, a⟩
  · exact (wayOut_static a1 (f0.steps.length - 1 - idx) d _ hb hs rfl
      (by simp only; omega)).mono (by omega)
  · rcases a with ⟨rfl, rfl⟩ | ⟨rfl | rfl, rfl⟩ | ⟨rfl, k, hk, rfl⟩
    · exact (wayOut_first hb hs).mono (by omega)
    · exact (wayOut_approve hb hs).mono (by omega)
    · exact (wayOut_here hb (by simp only [Device.here, hs]; rfl)).mono (by omega)
    · have hk' : k < n := hk
      have hn' : n ≤ 43 := c4
      rcases hw k rfl with hw | hw
      · exact (wayOut_left k d hb hs hw).mono (by omega)
      · exact (wayOut_right (n - 1 - k) k d (by omega) hb hs hw).mono (by omega)

/-- C58: whenever a question is on display, the user can refuse: there are at most 44 presses of the
left and right buttons, chosen once and for all, after which pressing both buttons answers the
question with 0x6985 and returns to the menu with the session erased — whatever commands the host
sends in between, and even if some page of the question cannot be drawn. -/
theorem C58_refuse {env : Env} {nanoS : Bool} {key : Bytes} {tr : List Obs} {d : Device}
    (h : Runs env nanoS key tr d) (hq : d.asks.isSome) :
    ∃ bs : List Event, bs.length ≤ 44 ∧ (∀ b ∈ bs, b = .left ∨ b = .right) ∧
      ∀ es : List Event, es.filter isPress = bs →
        ((d.run env nanoS es).1).step env nanoS .both =
          (⟨d.connectedApp, key, .none, false, .zeroed, none⟩, .sw 0x6985 []) := by
  rw [asks_screen h] at hq
  obtain ⟨s, hs⟩ := Option.isSome_iff_exists.1 hq
  obtain ⟨bs, d', h1, h2, h3⟩ := h.wayOut hs
  refine ⟨bs, h1, h2.buttons, fun es he => ?_⟩
  obtain ⟨e1, e2⟩ := h2.run es bs d he
  have hr := runs_watch es tr d h e2
  have : ∀ (es : List Event) (tr : List Obs) (d : Device),
      (d.watch env nanoS tr es).2 = (d.run env nanoS es).1 := by
    intro es
    induction es with
    | nil => intros; rfl
    | cons e es ih => intro tr d; simp only [Device.watch, Device.run, ih]
  rw [this, e1] at hr
  rw [e1, C23_reject hr h3, h2.app]

/-- Refusing the transaction from the second dynamic page, while the host keeps sending commands. -/
example : ((after (demoOpen ++ demoTx ++ [cmd 0x21 0x20 7 [], .right, .right])).run toyEnv false
    [cmd 0x21 0x20 7 [], .left, cmd 0x01 0 0 [], .left, .left, .both]).2.getLast? =
      some (.sw 0x6985 []) := by
  decide +kernel

end Ergo
