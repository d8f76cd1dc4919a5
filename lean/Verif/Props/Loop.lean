import Verif.Proof.Loop
import Verif.Props.Union
/-!
# C69: the main loop goes on, and its responses are the replies of the device
-/
namespace Ergo
open Spec

/-- C69: a message is taken for a command exactly if it has the documented form. -/
theorem C69_command (bytes : Bytes) (c : Apdu) :
    parseApdu bytes = some c ↔ IsCommand bytes c.cla c.ins c.p1 c.p2 c.data := parseApdu_iff

example : parseApdu [0xE0, 0x21, 0x10, 7, 2, 8, 9] = some ⟨0xE0, 0x21, 0x10, 7, [8, 9]⟩ ∧
    parseApdu [0xE0, 0x21, 0x10, 7, 2, 8] = none ∧ parseApdu [0xE0, 0x21, 0x10, 7] = none ∧
    parseApdu [0xE0, 0x21, 0x10, 7, 0, 1] = none := by decide +kernel

section
variable {env : Env} (hwf : env.WF) (hn : env.appName.length ≤ 255) (hv : env.appVersion.length ≤ 255)
  {nanoS : Bool} {key : Bytes} {tr : List LoopObs} {l : Loop}
include hwf hn hv

/-- C69: the responses are the replies of an execution of the device, each sent exactly once, before the
next input is looked at. -/
theorem C69_same (h : LoopRuns env nanoS key tr l) :
    ∃ td, Runs env nanoS key td l.dev ∧ Carries tr td := by
  obtain ⟨td, h⟩ := h.ok hwf hn hv
  exact ⟨td, h.runs, h.carries⟩

/-- C69, the other way round: after its start the loop waits, and every execution of the device, with commands of up
to 255 bytes, is brought about by messages and buttons. -/
theorem C69_back {td : List Obs} {d : Device} (h : Runs env nanoS key td d)
    (hd : ∀ o ∈ td, ∀ cla ins p1 p2 data rnd, o.event = .apdu cla ins p1 p2 data rnd → data.length ≤ 255) :
    ∃ tr l, LoopRuns env nanoS key tr l ∧ l.dev = d ∧ Carries tr td := by
  obtain ⟨tr, l, h1, h2, h3⟩ := LoopOk.ofRuns hwf hn hv h hd
  exact ⟨tr, l, h1, h2, h3.carries⟩

/-- C69: `app_main` never returns; after every input the loop waits for the next one, except when the
random generator gives no session id to the command in the message, and in the case of C47. -/
theorem C69_alive (h : LoopRuns env nanoS key tr l) (i : Input) :
    (∃ l' sent, l.step env nanoS i = .on l' sent) ∨
    (l.step env nanoS i = .hang ∧ ∃ bytes cla ins p1 p2 data rnd, i = .message bytes rnd ∧
      IsCommand bytes cla ins p1 p2 data ∧
      (l.dev.step env nanoS (.apdu cla ins p1 p2 data rnd)).2 = .hang) ∨
    (l.step env nanoS i = .ub ∧ (i = .left ∨ i = .right) ∧ l.dev.asks = some .approveSigning) := by
  obtain ⟨td, h⟩ := h.ok hwf hn hv
  have noHang : ∀ e : Event, (e = .left ∨ e = .right ∨ e = .both) → (l.dev.step env nanoS e).2 ≠ .hang := by
    intro e he hr
    obtain ⟨d', r, hst, hT⟩ := step_cases env nanoS l.dev e
    rw [hst] at hr
    simp only at hr
    subst hr
    cases hT <;> simp at he
  have ub : ∀ e : Event, (l.dev.step env nanoS e).2 = .ub →
      (e = .left ∨ e = .right) ∧ l.dev.asks = some .approveSigning := fun e hr =>
    ⟨(C21_defined h.runs e hr).1, (C21_defined h.runs e hr).2.1⟩
  have press : ∀ {i e}, (i = .left ∧ e = .left ∨ i = .right ∧ e = .right ∨ i = .both ∧ e = .both) →
      l.step env nanoS i = l.press (l.dev.step env nanoS e) →
      (∃ l' sent, l.step env nanoS i = .on l' sent) ∨
      (l.step env nanoS i = .ub ∧ (i = .left ∨ i = .right) ∧ l.dev.asks = some .approveSigning) := by
    intro i e he hst
    rw [hst]
    rcases h.press hwf hn hv he with ⟨l', sent, _, h1, -⟩ | ⟨h1, -⟩ | ⟨h1, h2⟩
    · exact .inl ⟨_, _, h1⟩
    · exact absurd h1 (noHang e (by tauto))
    · obtain ⟨h3, h4⟩ := ub e h1
      refine .inr ⟨h2, ?_, h4⟩
      rcases he with ⟨rfl, rfl⟩ | ⟨rfl, rfl⟩ | ⟨rfl, rfl⟩ <;> simp_all
  cases i with
  | message bytes rnd =>
    rcases h.message hwf hn hv bytes rnd with ⟨l', sent, _, h1, -⟩ |
        ⟨cla, ins, p1, p2, data, hc, ⟨h1, h2⟩ | ⟨h1, -⟩⟩
    · exact .inl ⟨_, _, h1⟩
    · exact .inr (.inl ⟨h2, _, _, _, _, _, _, _, rfl, hc, h1⟩)
    · have := (ub _ h1).1; simp at this
  | left => exact (press (.inl ⟨rfl, rfl⟩) rfl).imp id .inr
  | right => exact (press (.inr (.inl ⟨rfl, rfl⟩)) rfl).imp id .inr
  | both => exact (press (.inr (.inr ⟨rfl, rfl⟩)) rfl).imp id .inr

omit hwf hn hv in
theorem delivers_length {o : Obs} {sent : List Bytes} (td : List Obs) (h : Delivers o.reply sent) :
    replyCount (o :: td) = sent.length + replyCount td := by
  have hc : replyCount (o :: td) = replyCount td +
      if (match o.reply with | .sw .. => true | _ => false) = true then 1 else 0 := List.countP_cons
  rw [hc]
  cases hr : o.reply with
  | wait => rw [hr] at h; simp [Delivers] at h; simp [h]
  | sw code data => rw [hr] at h; obtain ⟨r, rfl, -⟩ := h; simp; omega
  | hang => rw [hr] at h; exact h.elim
  | ub => rw [hr] at h; exact h.elim

omit hwf hn hv in
theorem carries_count {td : List Obs} (h : Carries tr td) :
    messageCount tr + replyCount td = responseCount tr + commandCount td := by
  induction h with
  | nil => rfl
  | junk _ _ _ ih =>
    simp only [messageCount, responseCount, List.map_cons, List.sum_cons, List.length_cons,
      List.length_nil, List.countP_cons] at ih ⊢
    simp; omega
  | @command _ td _ _ _ _ _ _ _ _ _ _ _ he hd ih =>
    rw [delivers_length td hd]
    simp only [messageCount, responseCount, List.map_cons, List.sum_cons, List.countP_cons,
      commandCount, he] at ih ⊢
    simp; omega
  | @button _ td i _ _ _ he hd ih =>
    rw [delivers_length td hd]
    simp only [messageCount, responseCount, List.map_cons, List.sum_cons, List.countP_cons,
      commandCount] at ih ⊢
    rcases he with ⟨rfl, he⟩ | ⟨rfl, he⟩ | ⟨rfl, he⟩ <;> rw [he] <;> simp <;> omega

/-- C69: at every moment there is one response for every message, except for the one command about
which the user is being asked. -/
theorem C69_count (h : LoopRuns env nanoS key tr l) :
    messageCount tr = responseCount tr + if l.dev.asks.isSome then 1 else 0 := by
  obtain ⟨td, h1, h2⟩ := C69_same hwf hn hv h
  have := C57_once h1
  have := carries_count h2
  omega

/-- C69: every response fits in the APDU buffer, and ends with a status word. -/
theorem C69_size (h : LoopRuns env nanoS key tr l) :
    ∀ o ∈ tr, ∀ r ∈ o.sent, ∃ code data, IsResponse r code data ∧ data.length ≤ 255 := by
  obtain ⟨td, h1, h2⟩ := C69_same hwf hn hv h
  have hf : ∀ {d : Device}, Runs env nanoS key td d → ∀ o ∈ td, ∀ code out, o.reply = .sw code out →
      out.length ≤ 255 := by
    intro d h
    clear h1 h2
    induction h with
    | boot => simp
    | step e h hh hu ih =>
      intro o ho
      rcases List.mem_cons.1 ho with rfl | ho
      · intro code out hr
        exact C57_fits hwf hn hv h e hr
      · exact ih o ho
  replace hf := hf h1
  clear h1 h
  have del : ∀ {o : Obs} {sent : List Bytes}, (∀ code out, o.reply = .sw code out → out.length ≤ 255) →
      Delivers o.reply sent → ∀ r ∈ sent, ∃ code data, IsResponse r code data ∧ data.length ≤ 255 := by
    intro o sent hl hd r hr
    cases ho : o.reply with
    | wait => rw [ho] at hd; simp [Delivers] at hd; simp [hd] at hr
    | sw code data =>
      rw [ho] at hd
      obtain ⟨b, rfl, hb⟩ := hd
      simp at hr
      subst hr
      exact ⟨_, _, hb, hl _ _ ho⟩
    | hang => rw [ho] at hd; exact hd.elim
    | ub => rw [ho] at hd; exact hd.elim
  induction h2 with
  | nil => simp
  | junk _ _ hr ih =>
    intro o ho
    rcases List.mem_cons.1 ho with rfl | ho
    · intro r hr'
      simp at hr'
      subst hr'
      exact ⟨_, _, hr, by simp⟩
    · exact ih hf o ho
  | command _ _ he hd ih =>
    intro o ho
    rcases List.mem_cons.1 ho with rfl | ho
    · exact del (hf _ (by simp)) hd
    · exact ih (fun o ho => hf o (List.mem_cons_of_mem _ ho)) o ho
  | button _ he hd ih =>
    intro o ho
    rcases List.mem_cons.1 ho with rfl | ho
    · exact del (hf _ (by simp)) hd
    · exact ih (fun o ho => hf o (List.mem_cons_of_mem _ ho)) o ho

end

/-- The last command is the one about which the user is being asked. -/
theorem inOrder_pending {env : Env} {nanoS : Bool} {key : Bytes} {td : List Obs} {d : Device}
    (h : Runs env nanoS key td d) (hp : Patient td) :
    commandsOf td = (if d.asks.isSome then ((know td).pending.map (fun a => (a.ins, a.p1))).toList else []) ++
      answersOf td := by
  rw [asks_screen h]
  induction h with
  | boot => rfl
  | @step td d e h hh hu ih =>
    have hp' : Patient td := fun o ho => hp o (List.mem_cons_of_mem _ ho)
    have ih := ih hp'
    obtain ⟨h1, h2⟩ := step_screen h e hh hu
    have hnone : ∀ cla ins p1 p2 data rnd, e = .apdu cla ins p1 p2 data rnd → d.screen = none := by
      intro cla ins p1 p2 data rnd he
      have := hp _ List.mem_cons_self cla ins p1 p2 data rnd he
      have ha := asks_screen h
      simp only [Device.observe] at this
      rw [this] at ha
      exact Option.not_isSome_iff_eq_none.1 (by rw [← ha]; simp)
    have hpend : ∀ s, d.screen = some s → ∃ a, (know td).pending = some a := by
      intro s hs
      obtain ⟨a, _, hp, _⟩ := h.inv.asking s hs
      exact ⟨a, hp⟩
    cases e with
    | apdu cla ins p1 p2 data rnd =>
      have hs := hnone _ _ _ _ _ _ rfl
      rw [hs] at ih
      rcases h1 _ _ _ _ _ _ rfl with ⟨e1, -, e3⟩ | ⟨⟨sw, out, e1⟩, e2⟩
      · have : (know (d.observe env nanoS (.apdu cla ins p1 p2 data rnd) :: td)).pending =
            some ⟨ins, p1, p2, data, rnd⟩ := by
          simp only [know, Ghost.next, Device.observe, e1, Ghost.onWait]
          split <;> rfl
        rw [this, e3]
        simp only [commandsOf, List.filterMap_cons, Device.observe, answersOf, e1] at ih ⊢
        simpa using ih
      · rw [e2, hs]
        simp only [commandsOf, List.filterMap_cons, Device.observe, answersOf, e1, answered] at ih ⊢
        simpa using ih
    | left | right | both =>
      rcases h2 (by simp) with ⟨e1, e2⟩ | ⟨⟨sw, out, e1⟩, e2, e3⟩
      · simp only [commandsOf, List.filterMap_cons, Device.observe, answersOf, e1, e2, know,
          Ghost.next] at ih ⊢
        exact ih
      · obtain ⟨s, hs⟩ := Option.isSome_iff_exists.1 e2
        obtain ⟨a, ha⟩ := hpend s hs
        rw [hs] at ih
        simp only [commandsOf, List.filterMap_cons, Device.observe, answersOf, e1, e3, answered, ha] at ih ⊢
        simpa using ih

/-- C69, in part: the commands are answered in their order, if the host sends no command while the user
is being asked. -/
theorem C69_order_partial {env : Env} {nanoS : Bool} {key : Bytes} {td : List Obs} {d : Device}
    (h : Runs env nanoS key td d) (hp : Patient td) : InOrder td := by
  refine ⟨_, inOrder_pending h hp, ?_⟩
  cases (know td).pending <;> split <;> simp

/-- The device after its start. -/
def demoLoop : Loop := ⟨.boot [1], ⟨.waiting, [], 0⟩⟩

theorem demoLoop_runs : LoopRuns toyEnv false [1] [] demoLoop := .boot rfl

/-- A command as a message. -/
def demoMessage (ins p1 p2 : UInt8) (data : Bytes) : Input :=
  .message ([0xE0, ins, p1, p2, UInt8.ofNat data.length] ++ data) demoRnd

/-- A request for an extended public key, the name of the application, a message that is no command, and
the approval of the request. -/
def demoInputs : List Input :=
  [demoMessage 0x10 1 0 demoPath3, demoMessage 0x02 0 0 [], .message [0xE0, 2, 0, 0, 1] demoRnd,
    .left, .left, .both, .left, demoMessage 0x01 0 0 []]

example : (demoLoop.run toyEnv false demoInputs).2.map (fun r => (r.length, r.drop (r.length - 2))) =
    [(toyEnv.appName.length + 2, [0x90, 0]), (2, [0x6A, 0x87]), (67, [0x90, 0]),
      (toyEnv.appVersion.length + 2, [0x90, 0])] ∧
    ((demoLoop.run toyEnv false demoInputs).1.map (fun l => l.io.state)) = some .waiting := by
  decide +kernel

example : (demoLoop.run toyEnv false (demoInputs.take 2)).1.map (fun l => l.dev.asks) =
    some (some .extPubKeyExport) := by decide +kernel

/-- C69 is false as stated: a command sent while the user is being asked is answered first, and nothing
in the responses tells which command they belong to. -/
theorem C69_negation : ¬ ∀ (env : Env), env.WF → ∀ (nanoS : Bool) (key : Bytes) (td : List Obs)
    (d : Device), Runs env nanoS key td d → InOrder td := by
  intro h
  have hr : Runs toyEnv false [1] _ _ :=
    runs_boot [cmd 0x10 1 0 demoPath3, cmd 0x02 0 0 [], .left, .left, .both] (by decide +kernel)
  obtain ⟨last, h1, h2⟩ := h toyEnv toyEnv_wf _ _ _ _ hr
  have e1 : commandsOf ((Device.boot [1]).watch toyEnv false []
      [cmd 0x10 1 0 demoPath3, cmd 0x02 0 0 [], .left, .left, .both]).1 = [(2, 0), (0x10, 1)] := by
    decide +kernel
  have e2 : answersOf ((Device.boot [1]).watch toyEnv false []
      [cmd 0x10 1 0 demoPath3, cmd 0x02 0 0 [], .left, .left, .both]).1 = [(0x10, 1), (2, 0)] := by
    decide +kernel
  rw [e1, e2] at h1
  match last with
  | [] => simp at h1
  | _ :: _ => have := congrArg List.length h1; simp at this

example : commandsOf (seen (demoOpen ++ demoTx ++ demoConfirm)) =
      answersOf (seen (demoOpen ++ demoTx ++ demoConfirm)) ∧
    (commandsOf (seen (demoOpen ++ demoTx ++ demoConfirm))).length = 8 := by decide +kernel

end Ergo
