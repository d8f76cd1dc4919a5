import Verif.Proof.Refuse
import Verif.Spec.Reference
/-!
# The ring of pages of a flow (C80)
-/
namespace Ergo
open Spec

/-- Number of pages before Approve. -/
def Flow.ringPages (f : Flow) : Nat := if f.count = 0 then f.steps.length - 2 else f.count + 1

/-- Position in the ring of pages, Approve and Reject. -/
def Flow.ringPos (f : Flow) : Nat :=
  if f.count = 0 then f.idx
  else match f.cur with
    | some k => k + 1
    | none => if f.idx = 0 then 0 else f.count + f.idx - 3

theorem isStatic_count {f : Flow} (h : IsStatic f) : f.count = 0 := by
  obtain ⟨l, rfl, _⟩ := h; rfl

theorem FlowOk.pages {f0 f : Flow} (h : FlowOk f0 f) : f.ringPages = f0.ringPages := by
  unfold Flow.ringPages; rw [h.steps, h.count]

theorem FlowOk.pos_le {f0 f : Flow} (h : FlowOk f0 f) : f.ringPos ≤ f0.ringPages + 1 := by
  obtain ⟨hs, hc, hk⟩ := h
  obtain ⟨steps, idx, count, cur⟩ := f
  simp only at hs hc hk
  subst hs hc
  rcases hk with ⟨h1, h2, h3⟩ | ⟨⟨p, n, hn, rfl⟩, h2⟩
  · have hlen := static_len h1
    have h0 := isStatic_count h1
    simp only [Flow.ringPos, Flow.ringPages, h0, if_true]
    omega
  · have h0 : (Flow.dynamic p n).count = n := rfl
    have hn0 : n ≠ 0 := by omega
    simp only [Flow.ringPos, Flow.ringPages, h0, if_neg hn0] at h2 ⊢
    rcases h2 with ⟨rfl, rfl⟩ | ⟨rfl | rfl, rfl⟩ | ⟨rfl, k, hk, rfl⟩
    · simp
    · simp
    · simp
    · show k + 1 ≤ n + 1 + 1; omega

theorem FlowOk.pos_right {f0 f : Flow} (h : FlowOk f0 f) :
    f.right.flow.ringPos = rightOf f0.ringPages f.ringPos := by
  obtain ⟨hs, hc, hk⟩ := h
  obtain ⟨steps, idx, count, cur⟩ := f
  simp only at hs hc hk
  subst hs hc
  rcases hk with ⟨h1, h2, h3⟩ | ⟨⟨p, n, hn, rfl⟩, h2⟩
  · have hlen := static_len h1
    have h0 := isStatic_count h1
    have hi : (if idx + 1 < f0.steps.length then idx + 1 else 0) < f0.steps.length := by
      split <;> omega
    have e : Flow.right ⟨f0.steps, idx, f0.count, cur⟩ = ⟨⟨f0.steps, if idx + 1 < f0.steps.length then idx + 1 else 0, f0.count, cur⟩, none⟩ :=
      arrive_static (f := ⟨f0.steps, if idx + 1 < f0.steps.length then idx + 1 else 0, f0.count, cur⟩) h1 rfl hi
    rw [e]
    simp only [Flow.ringPos, Flow.ringPages, h0, if_true, rightOf]
    split <;> split <;> omega
  · have h0 : (Flow.dynamic p n).count = n := rfl
    have hn0 : n ≠ 0 := by omega
    rcases h2 with ⟨rfl, rfl⟩ | ⟨rfl | rfl, rfl⟩ | ⟨rfl, k, hk, rfl⟩
    · rw [show Flow.right ⟨(Flow.dynamic p n).steps, 0, (Flow.dynamic p n).count, none⟩ =
        ⟨⟨(Flow.dynamic p n).steps, 2, n, some 0⟩, some 0⟩ from rfl]
      simp [Flow.ringPos, Flow.ringPages, h0, rightOf, hn0]
    · rw [show Flow.right ⟨(Flow.dynamic p n).steps, 4, (Flow.dynamic p n).count, none⟩ =
        ⟨⟨(Flow.dynamic p n).steps, 5, n, none⟩, none⟩ from rfl]
      simp [Flow.ringPos, Flow.ringPages, h0, rightOf, hn0]
    · rw [show Flow.right ⟨(Flow.dynamic p n).steps, 5, (Flow.dynamic p n).count, none⟩ =
        ⟨⟨(Flow.dynamic p n).steps, 0, n, none⟩, none⟩ from rfl]
      simp [Flow.ringPos, Flow.ringPages, h0, rightOf, hn0]
    · rw [show Flow.right ⟨(Flow.dynamic p n).steps, 2, (Flow.dynamic p n).count, some k⟩ =
          if k < n - 1 then ⟨⟨(Flow.dynamic p n).steps, 2, n, some (k + 1)⟩, some (k + 1)⟩
          else ⟨⟨(Flow.dynamic p n).steps, 4, n, none⟩, none⟩ from rfl]
      rw [h0] at hk
      split
      · simp [Flow.ringPos, Flow.ringPages, h0, rightOf, hn0]; omega
      · simp [Flow.ringPos, Flow.ringPages, h0, rightOf, hn0]
        rw [if_neg (by omega)]; omega

theorem FlowOk.pos_left {f0 f : Flow} (h : FlowOk f0 f) :
    f.left.flow.ringPos = leftOf f0.ringPages f.ringPos := by
  obtain ⟨hs, hc, hk⟩ := h
  obtain ⟨steps, idx, count, cur⟩ := f
  simp only at hs hc hk
  subst hs hc
  rcases hk with ⟨h1, h2, h3⟩ | ⟨⟨p, n, hn, rfl⟩, h2⟩
  · have hlen := static_len h1
    have h0 := isStatic_count h1
    have hi : (if idx = 0 then f0.steps.length - 1 else idx - 1) < f0.steps.length := by
      split <;> omega
    have e : Flow.left ⟨f0.steps, idx, f0.count, cur⟩ = ⟨⟨f0.steps, if idx = 0 then f0.steps.length - 1 else idx - 1, f0.count, cur⟩, none⟩ :=
      arrive_static (f := ⟨f0.steps, if idx = 0 then f0.steps.length - 1 else idx - 1, f0.count, cur⟩) h1 rfl hi
    rw [e]
    simp only [Flow.ringPos, Flow.ringPages, h0, if_true, leftOf]
    split <;> omega
  · have h0 : (Flow.dynamic p n).count = n := rfl
    have hn0 : n ≠ 0 := by omega
    rcases h2 with ⟨rfl, rfl⟩ | ⟨rfl | rfl, rfl⟩ | ⟨rfl, k, hk, rfl⟩
    · rw [show Flow.left ⟨(Flow.dynamic p n).steps, 0, (Flow.dynamic p n).count, none⟩ =
        ⟨⟨(Flow.dynamic p n).steps, 5, n, none⟩, none⟩ from rfl]
      simp [Flow.ringPos, Flow.ringPages, h0, leftOf, hn0]
    · rw [show Flow.left ⟨(Flow.dynamic p n).steps, 4, (Flow.dynamic p n).count, none⟩ =
        ⟨⟨(Flow.dynamic p n).steps, 2, n, some (n - 1)⟩, some (n - 1)⟩ from rfl]
      simp [Flow.ringPos, Flow.ringPages, h0, leftOf, hn0]; omega
    · rw [show Flow.left ⟨(Flow.dynamic p n).steps, 5, (Flow.dynamic p n).count, none⟩ =
        ⟨⟨(Flow.dynamic p n).steps, 4, n, none⟩, none⟩ from rfl]
      simp [Flow.ringPos, Flow.ringPages, h0, leftOf, hn0]
    · cases k with
      | zero =>
        rw [show Flow.left ⟨(Flow.dynamic p n).steps, 2, (Flow.dynamic p n).count, some 0⟩ =
          ⟨⟨(Flow.dynamic p n).steps, 0, n, none⟩, none⟩ from rfl]
        simp [Flow.ringPos, Flow.ringPages, h0, leftOf, hn0]
      | succ k =>
        rw [show Flow.left ⟨(Flow.dynamic p n).steps, 2, (Flow.dynamic p n).count, some (k + 1)⟩ =
          ⟨⟨(Flow.dynamic p n).steps, 2, n, some k⟩, some k⟩ from rfl]
        simp [Flow.ringPos, Flow.ringPages, h0, leftOf, hn0]

/-- What is on display at a position of the ring. -/
theorem FlowOk.here_pos {f0 f : Flow} (h : FlowOk f0 f) :
    (f.ringPos = f0.ringPages → f.here = .approve) ∧
    (f.ringPos = f0.ringPages + 1 → f.here = .reject) ∧
    (f.ringPos < f0.ringPages → f.here ≠ .approve ∧ f.here ≠ .reject ∧
      (f0.count = 0 → f.here = f0.steps.getD f.ringPos .reject) ∧
      (f0.count ≠ 0 → ∀ p, f.here ≠ .pathApprove p)) := by
  obtain ⟨hs, hc, hk⟩ := h
  obtain ⟨steps, idx, count, cur⟩ := f
  simp only at hs hc hk
  subst hs hc
  rcases hk with ⟨h1, h2, h3⟩ | ⟨⟨p, n, hn, rfl⟩, h2⟩
  · obtain ⟨l, rfl, hl⟩ := h1
    have h0 : (Flow.static l).count = 0 := rfl
    have hst : (Flow.static l).steps = l ++ [.approve, .reject] := rfl
    have e1 : (Flow.mk (Flow.static l).steps idx (Flow.static l).count cur).ringPos = idx := rfl
    have e2 : (Flow.static l).ringPages = l.length := by simp [Flow.ringPages, hst, h0]
    rw [e1, e2]
    simp only [Flow.here, hst]
    refine ⟨?_, ?_, fun hlt => ?_⟩
    · rintro rfl; simp
    · rintro rfl; simp [List.getD_eq_getElem?_getD]
    · have hm : (l ++ [FlowStep.approve, FlowStep.reject]).getD idx .reject = l[idx] := by
        rw [List.getD_eq_getElem?_getD, List.getElem?_append_left hlt,
          List.getElem?_eq_getElem hlt]; rfl
      have hp := hl _ (List.getElem_mem hlt)
      rw [hm]
      refine ⟨?_, ?_, fun _ => trivial, fun h => absurd h0 h⟩
      · intro e; rw [e] at hp; simp [FlowStep.page?] at hp
      · intro e; rw [e] at hp; simp [FlowStep.page?] at hp
  · have h0 : (Flow.dynamic p n).count = n := rfl
    have hn0 : n ≠ 0 := by omega
    rcases h2 with ⟨rfl, rfl⟩ | ⟨rfl | rfl, rfl⟩ | ⟨rfl, k, hk, rfl⟩
    · simp [Flow.ringPos, Flow.ringPages, h0, hn0, Flow.here, Flow.dynamic]
    · simp [Flow.ringPos, Flow.ringPages, h0, hn0, Flow.here, Flow.dynamic]
    · simp [Flow.ringPos, Flow.ringPages, h0, hn0, Flow.here, Flow.dynamic]
    · rw [h0] at hk
      refine ⟨?_, ?_, fun _ => ?_⟩
      · simp [Flow.ringPos, Flow.ringPages, h0, hn0]; omega
      · simp [Flow.ringPos, Flow.ringPages, h0, hn0]; omega
      · simp [Flow.here, Flow.dynamic, hn0]

/-- The dynamic page on display. -/
theorem FlowOk.cur_pos {f0 f : Flow} (h : FlowOk f0 f) {k : Nat} (hk : f.cur = some k) :
    f.ringPos = k + 1 ∧ f0.count ≠ 0 ∧ k < f0.count := by
  obtain ⟨hs, hc, hkd⟩ := h
  rcases hkd with ⟨h1, h2, h3⟩ | ⟨⟨p, n, hn, rfl⟩, h2⟩
  · rw [h3] at hk; simp at hk
  · have h0 : (Flow.dynamic p n).count = n := rfl
    rcases h2 with ⟨_, e⟩ | ⟨_, e⟩ | ⟨_, j, hj, e⟩
    · rw [e] at hk; simp at hk
    · rw [e] at hk; simp at hk
    · rw [e] at hk
      cases hk
      refine ⟨?_, by omega, hj⟩
      unfold Flow.ringPos
      rw [if_neg (by omega), e]

/-- At a position of a dynamic page, that page is on display. -/
theorem FlowOk.cur_of {f0 f : Flow} (h : FlowOk f0 f) {k : Nat} (hp : f.ringPos = k + 1)
    (hk : k < f0.count) : f.cur = some k := by
  obtain ⟨hs, hc, hkd⟩ := h
  rcases hkd with ⟨h1, h2, h3⟩ | ⟨⟨p, n, hn, rfl⟩, h2⟩
  · have := isStatic_count h1; omega
  · have h0 : (Flow.dynamic p n).count = n := rfl
    unfold Flow.ringPos at hp
    rw [hc, if_neg (by omega)] at hp
    rcases h2 with ⟨e1, e⟩ | ⟨e1, e⟩ | ⟨_, j, hj, e⟩
    · simp [e, e1] at hp
    · rw [h0] at hk hp
      rw [e] at hp
      simp only at hp
      split at hp <;> rcases e1 with e1 | e1 <;> omega
    · rw [e] at hp ⊢
      simp only at hp
      congr 1; omega

end Ergo
