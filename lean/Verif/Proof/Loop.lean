import Verif.Spec.Loop
import Verif.Props.Replies
/-!
# The main loop: what is sent, and the state between two messages
-/
namespace Ergo
open Spec

theorem parseApdu_iff {buf : Bytes} {c : Apdu} :
    parseApdu buf = some c ↔ IsCommand buf c.cla c.ins c.p1 c.p2 c.data := by
  constructor
  · intro h
    unfold parseApdu at h
    match buf with
    | [] | [_] | [_, _] | [_, _, _] | [_, _, _, _] => simp at h
    | cla :: ins :: p1 :: p2 :: lc :: data =>
      by_cases hl : data.length = lc.toNat
      · simp [hl] at h
        subst h
        exact ⟨lc, rfl, hl.symm⟩
      · simp [hl] at h
  · rintro ⟨lc, rfl, hl⟩
    cases c
    simp_all [parseApdu]

theorem parseApdu_none {buf : Bytes} :
    parseApdu buf = none ↔ ¬ ∃ cla ins p1 p2 data, IsCommand buf cla ins p1 p2 data := by
  constructor
  · rintro h ⟨cla, ins, p1, p2, data, hc⟩
    have := parseApdu_iff (c := ⟨cla, ins, p1, p2, data⟩).2 hc
    rw [h] at this
    simp at this
  · intro h
    cases hp : parseApdu buf with
    | none => rfl
    | some c => exact absurd ⟨_, _, _, _, _, parseApdu_iff.1 hp⟩ h

theorem isResponse_bytes (code : UInt16) (data : Bytes) :
    IsResponse (data ++ [(code >>> 8).toUInt8, code.toUInt8]) code data := by
  refine ⟨_, _, rfl, ?_⟩
  simp [Nat.shiftRight_eq_div_pow]
  have := code.toNat_lt
  omega

/-- A response prepared by a command is sent by the next `io_recv_command`. -/
theorem send_recv {io : Io} (hs : io.state = .received) {data : Bytes} (hl : data.length ≤ 258)
    (code : UInt16) :
    (io.send data code).2.2 = true ∧ ∃ io' bytes, (io.send data code).1.recv = some (io', [bytes]) ∧
      io'.state = .waiting ∧ IsResponse bytes code data := by
  have : ¬ data.length > apduBufferSize - 2 := by simp only [apduBufferSize]; omega
  simp only [Io.send, this, if_false, Io.put, hs]
  refine ⟨trivial, ⟨.waiting, data ++ [(code >>> 8).toUInt8, code.toUInt8],
    (data ++ [(code >>> 8).toUInt8, code.toUInt8]).length⟩, _, ?_, rfl, isResponse_bytes code data⟩
  simp [Io.recv]

/-- A response in the callback of a button is sent at once. -/
theorem send_press {io : Io} (hs : io.state = .waiting) {data : Bytes} (hl : data.length ≤ 258)
    (code : UInt16) :
    (io.send data code).1.state = .ready ∧ ∃ bytes, (io.send data code).2.1 = [bytes] ∧
      IsResponse bytes code data := by
  have : ¬ data.length > apduBufferSize - 2 := by simp only [apduBufferSize]; omega
  simp only [Io.send, this, if_false, Io.put, hs]
  exact ⟨trivial, _, rfl, isResponse_bytes code data⟩

/-- Between two inputs: the loop is inside of `io_exchange`, and while a question is on display a
callback can send. -/
structure LoopOk (env : Env) (nanoS : Bool) (key : Bytes) (tr : List LoopObs) (td : List Obs) (l : Loop) :
    Prop where
  runs : Runs env nanoS key td l.dev
  carries : Carries tr td
  asks : l.dev.screen.isSome → l.io.state = .waiting

section
variable {env : Env} (hwf : env.WF) (hn : env.appName.length ≤ 255) (hv : env.appVersion.length ≤ 255)
  {nanoS : Bool} {key : Bytes} {tr : List LoopObs} {td : List Obs} {l : Loop}
include hwf hn hv

/-- A message. -/
theorem LoopOk.message (h : LoopOk env nanoS key tr td l) (bytes : Bytes) (rnd : Rnd) :
    (∃ l' sent td', l.message env nanoS bytes rnd = .on l' sent ∧
      LoopOk env nanoS key (⟨.message bytes rnd, sent⟩ :: tr) td' l') ∨
    ∃ cla ins p1 p2 data, IsCommand bytes cla ins p1 p2 data ∧
      ((l.dev.step env nanoS (.apdu cla ins p1 p2 data rnd)).2 = .hang ∧
          l.message env nanoS bytes rnd = .hang ∨
       (l.dev.step env nanoS (.apdu cla ins p1 p2 data rnd)).2 = .ub ∧
          l.message env nanoS bytes rnd = .ub) := by
  simp only [Loop.message]
  cases hp : parseApdu bytes with
  | none =>
    left
    obtain ⟨-, io', r, h1, h2, h3⟩ := send_recv (io := { l.io with state := .received, buffer := bytes })
      rfl (data := []) (by simp) Sw.wrongDataLength
    refine ⟨⟨l.dev, io'⟩, [r], td, ?_, h.runs, .junk h.carries (parseApdu_none.1 hp) h3, fun _ => h2⟩
    simp only [Loop.again, h1]
  | some c =>
    have hc := parseApdu_iff.1 hp
    simp only
    cases hr : (l.dev.step env nanoS (.apdu c.cla c.ins c.p1 c.p2 c.data rnd)).2 with
    | wait =>
      left
      refine ⟨_, _, _, rfl, .step _ h.runs (by simp [hr]) (by simp [hr]), .command h.carries hc rfl ?_,
        fun _ => rfl⟩
      simp [Device.observe, hr, Delivers]
    | sw code data =>
      left
      have hl := C57_fits hwf hn hv h.runs _ hr
      obtain ⟨h0, io', r, h1, h2, h3⟩ := send_recv
        (io := { l.io with state := .received, buffer := bytes }) rfl (show data.length ≤ 258 by omega) code
      refine ⟨⟨_, io'⟩, [r], _, ?_, .step _ h.runs (by simp [hr]) (by simp [hr]),
        .command h.carries hc rfl ?_, fun _ => h2⟩
      · simp only [h0, if_true, Loop.again, h1]
      · simp only [Device.observe, hr, Delivers]
        exact ⟨_, rfl, h3⟩
    | hang => right; exact ⟨_, _, _, _, _, hc, .inl ⟨hr, rfl⟩⟩
    | ub => right; exact ⟨_, _, _, _, _, hc, .inr ⟨hr, rfl⟩⟩

/-- A button. -/
theorem LoopOk.press (h : LoopOk env nanoS key tr td l) {i : Input} {e : Event}
    (he : i = .left ∧ e = .left ∨ i = .right ∧ e = .right ∨ i = .both ∧ e = .both) :
    (∃ l' sent td', l.press (l.dev.step env nanoS e) = .on l' sent ∧
      LoopOk env nanoS key (⟨i, sent⟩ :: tr) td' l') ∨
    ((l.dev.step env nanoS e).2 = .hang ∧ l.press (l.dev.step env nanoS e) = .hang ∨
     (l.dev.step env nanoS e).2 = .ub ∧ l.press (l.dev.step env nanoS e) = .ub) := by
  have hb : e = .left ∨ e = .right ∨ e = .both := by tauto
  simp only [Loop.press]
  cases hr : (l.dev.step env nanoS e).2 with
  | wait =>
    left
    refine ⟨_, _, _, rfl, .step e h.runs (by simp [hr]) (by simp [hr]), .button h.carries he ?_, ?_⟩
    · simp [Device.observe, hr, Delivers]
    · intro hs
      have := (step_screen h.runs e (by simp [hr]) (by simp [hr])).2 hb
      rw [hr] at this
      rcases this with ⟨-, e2⟩ | ⟨⟨_, _, e1⟩, -⟩
      · exact h.asks (e2 ▸ hs)
      · simp at e1
  | sw code data =>
    left
    have := (step_screen h.runs e (by simp [hr]) (by simp [hr])).2 hb
    rw [hr] at this
    rcases this with ⟨e1, -⟩ | ⟨-, hs, hs'⟩
    · simp at e1
    have hl := C57_fits hwf hn hv h.runs _ hr
    obtain ⟨-, r, h1, h2⟩ := send_press (h.asks hs) (show data.length ≤ 258 by omega) code
    refine ⟨_, _, _, rfl, .step e h.runs (by simp [hr]) (by simp [hr]), .button h.carries he ?_, ?_⟩
    · simp only [Device.observe, hr, Delivers]
      exact ⟨r, h1, h2⟩
    · intro hs
      simp only at hs
      rw [hs'] at hs
      simp at hs
  | hang => right; exact .inl ⟨rfl, rfl⟩
  | ub => right; exact .inr ⟨rfl, rfl⟩

/-- The event of the device for an input. -/
theorem LoopOk.step (h : LoopOk env nanoS key tr td l) (i : Input) :
    (∃ l' sent td', l.step env nanoS i = .on l' sent ∧
      LoopOk env nanoS key (⟨i, sent⟩ :: tr) td' l') ∨
    ∃ e, ((l.dev.step env nanoS e).2 = .hang ∧ l.step env nanoS i = .hang ∨
      (l.dev.step env nanoS e).2 = .ub ∧ l.step env nanoS i = .ub) := by
  cases i with
  | message bytes rnd =>
    rcases h.message hwf hn hv bytes rnd with h | ⟨cla, ins, p1, p2, data, -, h⟩
    · exact .inl h
    · exact .inr ⟨_, h⟩
  | left => exact (h.press hwf hn hv (.inl ⟨rfl, rfl⟩)).imp id fun h => ⟨_, h⟩
  | right => exact (h.press hwf hn hv (.inr (.inl ⟨rfl, rfl⟩))).imp id fun h => ⟨_, h⟩
  | both => exact (h.press hwf hn hv (.inr (.inr ⟨rfl, rfl⟩))).imp id fun h => ⟨_, h⟩

theorem LoopRuns.ok (h : LoopRuns env nanoS key tr l) : ∃ td, LoopOk env nanoS key tr td l := by
  induction h with
  | boot hb =>
    simp only [Loop.again, Io.recv, Io.init, Turn.on.injEq] at hb
    obtain ⟨rfl, -⟩ := hb
    exact ⟨[], .boot, .nil, fun _ => rfl⟩
  | step i h hs ih =>
    obtain ⟨td, ih⟩ := ih
    rcases ih.step hwf hn hv i with ⟨l', sent, td', h1, h2⟩ | ⟨e, ⟨-, h1⟩ | ⟨-, h1⟩⟩
    · rw [hs] at h1
      cases h1
      exact ⟨td', h2⟩
    · rw [hs] at h1; simp at h1
    · rw [hs] at h1; simp at h1

/-- A command that does not stop the device. -/
theorem LoopOk.command (h : LoopOk env nanoS key tr td l) {bytes data : Bytes} {cla ins p1 p2 : UInt8}
    (hc : IsCommand bytes cla ins p1 p2 data) (rnd : Rnd)
    (hh : (l.dev.step env nanoS (.apdu cla ins p1 p2 data rnd)).2 ≠ .hang)
    (hu : (l.dev.step env nanoS (.apdu cla ins p1 p2 data rnd)).2 ≠ .ub) :
    ∃ l' sent, l.step env nanoS (.message bytes rnd) = .on l' sent ∧
      l'.dev = (l.dev.step env nanoS (.apdu cla ins p1 p2 data rnd)).1 ∧
      LoopOk env nanoS key (⟨.message bytes rnd, sent⟩ :: tr)
        (l.dev.observe env nanoS (.apdu cla ins p1 p2 data rnd) :: td) l' := by
  have hp : parseApdu bytes = some ⟨cla, ins, p1, p2, data⟩ := parseApdu_iff.2 hc
  simp only [Loop.step, Loop.message, hp]
  cases hr : (l.dev.step env nanoS (.apdu cla ins p1 p2 data rnd)).2 with
  | wait =>
    refine ⟨_, _, rfl, rfl, .step _ h.runs hh hu, .command h.carries hc rfl ?_, fun _ => rfl⟩
    simp [Device.observe, hr, Delivers]
  | sw code out =>
    have hl := C57_fits hwf hn hv h.runs _ hr
    obtain ⟨h0, io', r, h1, h2, h3⟩ := send_recv
      (io := { l.io with state := .received, buffer := bytes }) rfl (show out.length ≤ 258 by omega) code
    refine ⟨⟨_, io'⟩, [r], ?_, rfl, .step _ h.runs hh hu, .command h.carries hc rfl ?_, fun _ => h2⟩
    · simp only [h0, if_true, Loop.again, h1]
    · simp only [Device.observe, hr, Delivers]
      exact ⟨_, rfl, h3⟩
  | hang => exact absurd hr hh
  | ub => exact absurd hr hu

/-- A button that does not stop the device. -/
theorem LoopOk.button (h : LoopOk env nanoS key tr td l) {i : Input} {e : Event}
    (he : i = .left ∧ e = .left ∨ i = .right ∧ e = .right ∨ i = .both ∧ e = .both)
    (hh : (l.dev.step env nanoS e).2 ≠ .hang) (hu : (l.dev.step env nanoS e).2 ≠ .ub) :
    ∃ l' sent, l.step env nanoS i = .on l' sent ∧ l'.dev = (l.dev.step env nanoS e).1 ∧
      LoopOk env nanoS key (⟨i, sent⟩ :: tr) (l.dev.observe env nanoS e :: td) l' := by
  have hb : e = .left ∨ e = .right ∨ e = .both := by tauto
  have hst : l.step env nanoS i = l.press (l.dev.step env nanoS e) := by
    rcases he with ⟨rfl, rfl⟩ | ⟨rfl, rfl⟩ | ⟨rfl, rfl⟩ <;> rfl
  rw [hst]
  have hsc := (step_screen h.runs e hh hu).2 hb
  simp only [Loop.press]
  cases hr : (l.dev.step env nanoS e).2 with
  | wait =>
    refine ⟨_, _, rfl, rfl, .step e h.runs hh hu, .button h.carries he ?_, ?_⟩
    · simp [Device.observe, hr, Delivers]
    · intro hs
      rw [hr] at hsc
      rcases hsc with ⟨-, e2⟩ | ⟨⟨_, _, e1⟩, -⟩
      · exact h.asks (e2 ▸ hs)
      · simp at e1
  | sw code out =>
    rw [hr] at hsc
    rcases hsc with ⟨e1, -⟩ | ⟨-, hs, hs'⟩
    · simp at e1
    have hl := C57_fits hwf hn hv h.runs _ hr
    obtain ⟨-, r, h1, h2⟩ := send_press (h.asks hs) (show out.length ≤ 258 by omega) code
    refine ⟨_, _, rfl, rfl, .step e h.runs hh hu, .button h.carries he ?_, ?_⟩
    · simp only [Device.observe, hr, Delivers]
      exact ⟨r, h1, h2⟩
    · intro hs
      simp only at hs
      rw [hs'] at hs
      simp at hs
  | hang => exact absurd hr hh
  | ub => exact absurd hr hu

/-- Every execution of the device with commands that fit a message is one of the loop. -/
theorem LoopOk.ofRuns {d : Device} (h : Runs env nanoS key td d)
    (hd : ∀ o ∈ td, ∀ cla ins p1 p2 data rnd, o.event = .apdu cla ins p1 p2 data rnd → data.length ≤ 255) :
    ∃ tr l, LoopRuns env nanoS key tr l ∧ l.dev = d ∧ LoopOk env nanoS key tr td l := by
  induction h with
  | boot => exact ⟨[], ⟨.boot key, ⟨.waiting, [], 0⟩⟩, .boot rfl, rfl, .boot, .nil, fun _ => rfl⟩
  | @step td d e h hh hu ih =>
    obtain ⟨tr, l, hr, rfl, hok⟩ := ih fun o ho => hd o (List.mem_cons_of_mem _ ho)
    have press : ∀ {i : Input}, (i = .left ∧ e = .left ∨ i = .right ∧ e = .right ∨ i = .both ∧ e = .both) →
        ∃ tr l', LoopRuns env nanoS key tr l' ∧ l'.dev = (l.dev.step env nanoS e).1 ∧
          LoopOk env nanoS key tr (l.dev.observe env nanoS e :: td) l' := by
      intro i he
      obtain ⟨l', sent, h1, h2, h3⟩ := hok.button hwf hn hv he hh hu
      exact ⟨_, l', .step i hr h1, h2, h3⟩
    cases he : e with
    | left => subst he; exact press (.inl ⟨rfl, rfl⟩)
    | right => subst he; exact press (.inr (.inl ⟨rfl, rfl⟩))
    | both => subst he; exact press (.inr (.inr ⟨rfl, rfl⟩))
    | apdu cla ins p1 p2 data rnd =>
      subst he
      have hl := hd _ List.mem_cons_self cla ins p1 p2 data rnd rfl
      have hc : IsCommand (cla :: ins :: p1 :: p2 :: UInt8.ofNat data.length :: data) cla ins p1 p2 data :=
        ⟨_, rfl, by rw [UInt8.toNat_ofNat']; omega⟩
      obtain ⟨l', sent, h1, h2, h3⟩ := hok.command hwf hn hv hc rnd hh hu
      exact ⟨_, l', .step _ hr h1, h2, h3⟩

end
end Ergo
