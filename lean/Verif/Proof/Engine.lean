import Verif.Model.Engine
import Verif.Proof.Flow
import Verif.Props.Refuse
/-!
# The flow engine against the flows of Model/Ui
-/
namespace Ergo

theorem ofFlow_here {f : Flow} (h : f.idx < f.steps.length) :
    (Engine.ofFlow f).here = .screen f.here := by
  unfold Engine.here Engine.ofFlow Flow.here
  simp [List.getD_eq_getElem?_getD, List.getElem?_append_left, h]

theorem FlowOk.idx {f0 f : Flow} (h : FlowOk f0 f) : f.idx < f.steps.length := by
  obtain ⟨hs, hc, hk⟩ := h
  rw [hs]
  rcases hk with ⟨_, h2, _⟩ | ⟨⟨p, n, hn, rfl⟩, h⟩
  · exact h2
  · simp only [Flow.dynamic, List.length_cons, List.length_nil]
    omega

/-- What a move of the engine has to be, given the move in the flow. -/
def EngAgrees (ok : Nat → Bool) (r : Engine × Effect) (m : Move) : Prop :=
  match m.draw with
  | none => r = (Engine.ofFlow m.flow, .rest)
  | some k => if ok k then r = (Engine.ofFlow m.flow, .rest) else r.2 = .failed k

theorem enter_static (ok : Nat → Bool) {f0 f : Flow} (h : IsStatic f0) (hs : f.steps = f0.steps)
    (hi : f.idx < f0.steps.length) (n : Nat) :
    (Engine.ofFlow f).enter ok (n + 1) = (Engine.ofFlow f, .rest) := by
  obtain ⟨h1, h2, h3⟩ := static_here h hs hi
  have := ofFlow_here (f := f) (by rw [hs]; exact hi)
  unfold Engine.enter
  rw [this]
  split <;> first | rfl | (rename_i e; simp_all; done) | skip

theorem next_agrees (ok : Nat → Bool) {f0 f : Flow} (h : FlowOk f0 f) :
    EngAgrees ok ((Engine.ofFlow f).next ok) f.right := by
  obtain ⟨hs, hc, hk⟩ := h
  obtain ⟨steps, idx, count, cur⟩ := f
  simp only at hs hc hk
  subst hs hc
  rcases hk with ⟨h1, h2, h3⟩ | ⟨h1, h2⟩
  · have hlen := static_len h1
    have hi : (if idx + 1 < f0.steps.length then idx + 1 else 0) < f0.steps.length := by
      split <;> omega
    have e : Flow.right ⟨f0.steps, idx, f0.count, cur⟩ = ⟨⟨f0.steps, if idx + 1 < f0.steps.length then idx + 1 else 0, f0.count, cur⟩, none⟩ :=
      arrive_static (f := ⟨f0.steps, if idx + 1 < f0.steps.length then idx + 1 else 0, f0.count, cur⟩) h1 rfl hi
    rw [e]
    have e2 : (Engine.ofFlow ⟨f0.steps, idx, f0.count, cur⟩).after =
        some (Engine.ofFlow ⟨f0.steps, if idx + 1 < f0.steps.length then idx + 1 else 0, f0.count, cur⟩) := by
      unfold Engine.after Engine.ofFlow
      simp only [List.length_append, List.length_map, List.length_cons, List.length_nil]
      rw [if_neg (by omega)]
      by_cases hl : idx + 1 < f0.steps.length
      · rw [List.getElem?_append_left (by simpa using hl)]
        simp [hl]
      · have : idx + 1 = f0.steps.length := by omega
        rw [List.getElem?_append_right (by simp; omega)]
        simp [this]
    simp only [EngAgrees, Engine.next, e2]
    exact enter_static ok (f := ⟨f0.steps, if idx + 1 < f0.steps.length then idx + 1 else 0, f0.count, cur⟩) h1 rfl hi 2
  · obtain ⟨p, n, hn, rfl⟩ := h1
    rcases h2 with ⟨rfl, rfl⟩ | ⟨rfl | rfl, rfl⟩ | ⟨rfl, k, hk, rfl⟩
    · show if ok 0 then (if ok 0 then _ else _) = _ else (if ok 0 then _ else _ : Engine × Effect).2 = _
      by_cases h : ok 0 <;> simp [h] <;> rfl
    · rfl
    · rfl
    · have e : Flow.right ⟨(Flow.dynamic p n).steps, 2, n, some k⟩ =
          if k < n - 1 then ⟨⟨(Flow.dynamic p n).steps, 2, n, some (k + 1)⟩, some (k + 1)⟩
          else ⟨⟨(Flow.dynamic p n).steps, 4, n, none⟩, none⟩ := rfl
      show EngAgrees _ _ (Flow.right ⟨_, 2, n, some k⟩)
      rw [e]
      have e2 : (Engine.ofFlow ⟨(Flow.dynamic p n).steps, 2, n, some k⟩).next ok =
          if k < n - 1 then
            if ok (k + 1) then (Engine.ofFlow ⟨(Flow.dynamic p n).steps, 2, n, some (k + 1)⟩, .rest)
            else (Engine.ofFlow ⟨(Flow.dynamic p n).steps, 3, n, some k⟩, .failed (k + 1))
          else (Engine.ofFlow ⟨(Flow.dynamic p n).steps, 4, n, none⟩, .rest) := rfl
      show EngAgrees _ ((Engine.ofFlow ⟨(Flow.dynamic p n).steps, 2, n, some k⟩).next ok) _
      rw [e2]
      split
      · by_cases h : ok (k + 1) <;> simp [EngAgrees, h]
      · rfl

theorem prev_agrees (ok : Nat → Bool) {f0 f : Flow} (h : FlowOk f0 f) :
    EngAgrees ok ((Engine.ofFlow f).prev ok) f.left := by
  obtain ⟨hs, hc, hk⟩ := h
  obtain ⟨steps, idx, count, cur⟩ := f
  simp only at hs hc hk
  subst hs hc
  rcases hk with ⟨h1, h2, h3⟩ | ⟨h1, h2⟩
  · have hlen := static_len h1
    have hi : (if idx = 0 then f0.steps.length - 1 else idx - 1) < f0.steps.length := by
      split <;> omega
    have e : Flow.left ⟨f0.steps, idx, f0.count, cur⟩ = ⟨⟨f0.steps, if idx = 0 then f0.steps.length - 1 else idx - 1, f0.count, cur⟩, none⟩ :=
      arrive_static (f := ⟨f0.steps, if idx = 0 then f0.steps.length - 1 else idx - 1, f0.count, cur⟩) h1 rfl hi
    rw [e]
    have e2 : (Engine.ofFlow ⟨f0.steps, idx, f0.count, cur⟩).before =
        some (Engine.ofFlow ⟨f0.steps, if idx = 0 then f0.steps.length - 1 else idx - 1, f0.count, cur⟩) := by
      unfold Engine.before Engine.ofFlow
      by_cases hl : idx = 0 <;> simp [hl]
    simp only [EngAgrees, Engine.prev, e2]
    exact enter_static ok (f := ⟨f0.steps, if idx = 0 then f0.steps.length - 1 else idx - 1, f0.count, cur⟩) h1 rfl hi 2
  · obtain ⟨p, n, hn, rfl⟩ := h1
    rcases h2 with ⟨rfl, rfl⟩ | ⟨rfl | rfl, rfl⟩ | ⟨rfl, k, hk, rfl⟩
    · rfl
    · show if ok (n - 1) then (if ok (n - 1) then _ else _) = _ else (if ok (n - 1) then _ else _ : Engine × Effect).2 = _
      by_cases h : ok (n - 1) <;> simp [h] <;> rfl
    · rfl
    · cases k with
      | zero => rfl
      | succ k =>
        show if ok k then (if ok k then _ else _) = _ else (if ok k then _ else _ : Engine × Effect).2 = _
        by_cases h : ok k <;> simp [h] <;> rfl

/-- Both buttons. -/
theorem validate_here (ok : Nat → Bool) {f0 f : Flow} (h : FlowOk f0 f) :
    (Engine.ofFlow f).validate ok =
      match f.here.validation with
      | some .approve => (⟨[.check .approve], 0, f.count, f.cur⟩, .answer true)
      | some .reject => (⟨[.check .reject], 0, f.count, f.cur⟩, .answer false)
      | some .path => (⟨[.check .path], 0, f.count, f.cur⟩, .answer true)
      | some .pathNoCallback => (⟨[.check .pathNoCallback], 0, f.count, f.cur⟩, .rest)
      | none => (Engine.ofFlow f, .rest) := by
  unfold Engine.validate
  rw [ofFlow_here h.idx]
  simp only
  cases f.here.validation with
  | none => rfl
  | some v => cases v <;> rfl

end Ergo
