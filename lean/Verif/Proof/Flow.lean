import Verif.Model.Run
/-!
# Positions in a flow
-/
namespace Ergo

/-- A fixed flow of pages followed by Approve and Reject. -/
def IsStatic (f : Flow) : Prop := ∃ l, f = Flow.static l ∧ ∀ s ∈ l, (FlowStep.page? s).isSome

/-- A flow with at least one dynamic page. -/
def IsDyn (f : Flow) : Prop := ∃ p n, 0 < n ∧ f = Flow.dynamic p n

/-- `f` is a position in the flow `f0`. -/
structure FlowOk (f0 f : Flow) : Prop where
  steps : f.steps = f0.steps
  count : f.count = f0.count
  kind : IsStatic f0 ∧ f.idx < f0.steps.length ∧ f.cur = none ∨
    IsDyn f0 ∧ (f.idx = 0 ∧ f.cur = none ∨ (f.idx = 4 ∨ f.idx = 5) ∧ f.cur = none ∨
      f.idx = 2 ∧ ∃ k, k < f0.count ∧ f.cur = some k)

theorem static_here {f0 f : Flow} (h : IsStatic f0) (hs : f.steps = f0.steps)
    (hi : f.idx < f0.steps.length) : f.here ≠ .upper ∧ f.here ≠ .lower ∧ f.here ≠ .dyn := by
  obtain ⟨l, rfl, hl⟩ := h
  unfold Flow.here
  rw [hs]
  have hm : (Flow.static l).steps.getD f.idx .reject ∈ (Flow.static l).steps := by
    rw [List.getD_eq_getElem?_getD, List.getElem?_eq_getElem hi]
    exact List.getElem_mem _
  generalize (Flow.static l).steps.getD f.idx .reject = s at hm
  simp only [Flow.static, List.mem_append, List.mem_cons, List.not_mem_nil, or_false] at hm
  rcases hm with hm | rfl | rfl
  · have := hl s hm
    refine ⟨?_, ?_, ?_⟩ <;> rintro rfl <;> simp [FlowStep.page?] at this
  · simp
  · simp

theorem static_len {f0 : Flow} (h : IsStatic f0) : 2 ≤ f0.steps.length := by
  obtain ⟨l, rfl, _⟩ := h
  simp [Flow.static]

theorem FlowOk.start_static {l : List FlowStep} (hl : ∀ s ∈ l, (FlowStep.page? s).isSome) :
    FlowOk (.static l) (.static l) :=
  ⟨rfl, rfl, .inl ⟨⟨l, rfl, hl⟩, by simp [Flow.static], rfl⟩⟩

theorem FlowOk.start_dyn {p : Page} {n : Nat} (hn : 0 < n) : FlowOk (.dynamic p n) (.dynamic p n) :=
  ⟨rfl, rfl, .inr ⟨⟨p, n, hn, rfl⟩, .inl ⟨rfl, rfl⟩⟩⟩

theorem arrive_static {f0 f : Flow} (h : IsStatic f0) (hs : f.steps = f0.steps)
    (hi : f.idx < f0.steps.length) : f.arrive = ⟨f, none⟩ := by
  obtain ⟨h1, h2, _⟩ := static_here h hs hi
  unfold Flow.arrive
  split
  · rename_i h; exact absurd h h1
  · rename_i h; exact absurd h h2
  · rfl

/-- A move of either button stays in the flow, and draws exactly when it arrives at a dynamic
page, which is then the page drawn. -/
theorem FlowOk.right {f0 f : Flow} (h : FlowOk f0 f) : FlowOk f0 f.right.flow ∧
    ∀ k, f.right.draw = some k ↔ f.right.flow.cur = some k := by
  obtain ⟨hs, hc, hk⟩ := h
  obtain ⟨steps, idx, count, cur⟩ := f
  simp only at hs hc hk
  subst hs hc
  rcases hk with ⟨h1, h2, h3⟩ | ⟨h1, h2⟩
  · have hlen := static_len h1
    have hi : (if idx + 1 < f0.steps.length then idx + 1 else 0) < f0.steps.length := by
      split <;> omega
    have e : Flow.right ⟨f0.steps, idx, f0.count, cur⟩ = ⟨⟨f0.steps, if idx + 1 < f0.steps.length then idx + 1 else 0, f0.count, cur⟩, none⟩ :=
      arrive_static (f := ⟨f0.steps, if idx + 1 < f0.steps.length then idx + 1 else 0, f0.count, cur⟩) h1 rfl hi
    rw [e]
    subst h3
    exact ⟨⟨rfl, rfl, .inl ⟨h1, hi, rfl⟩⟩, by simp⟩
  · obtain ⟨p, n, hn, rfl⟩ := h1
    have hd : IsDyn (.dynamic p n) := ⟨p, n, hn, rfl⟩
    rcases h2 with ⟨rfl, rfl⟩ | ⟨rfl | rfl, rfl⟩ | ⟨rfl, k, hk, rfl⟩
    · exact ⟨⟨rfl, rfl, .inr ⟨hd, .inr (.inr ⟨rfl, 0, hn, rfl⟩)⟩⟩, fun k => Iff.rfl⟩
    · exact ⟨⟨rfl, rfl, .inr ⟨hd, .inr (.inl ⟨.inr rfl, rfl⟩)⟩⟩, fun k => Iff.rfl⟩
    · exact ⟨⟨rfl, rfl, .inr ⟨hd, .inl ⟨rfl, rfl⟩⟩⟩, fun k => Iff.rfl⟩
    · have e : Flow.right ⟨(Flow.dynamic p n).steps, 2, n, some k⟩ =
          if k < n - 1 then ⟨⟨(Flow.dynamic p n).steps, 2, n, some (k + 1)⟩, some (k + 1)⟩
          else ⟨⟨(Flow.dynamic p n).steps, 4, n, none⟩, none⟩ := rfl
      show FlowOk _ (Flow.right ⟨_, 2, n, some k⟩).flow ∧ ∀ j,
        (Flow.right ⟨_, 2, n, some k⟩).draw = some j ↔ (Flow.right ⟨_, 2, n, some k⟩).flow.cur = some j
      rw [e]
      split
      · rename_i hlt
        exact ⟨⟨rfl, rfl, .inr ⟨hd, .inr (.inr ⟨rfl, k + 1, by simp [Flow.dynamic]; omega, rfl⟩)⟩⟩,
          fun _ => Iff.rfl⟩
      · exact ⟨⟨rfl, rfl, .inr ⟨hd, .inr (.inl ⟨.inl rfl, rfl⟩)⟩⟩, fun _ => Iff.rfl⟩

theorem FlowOk.left {f0 f : Flow} (h : FlowOk f0 f) : FlowOk f0 f.left.flow ∧
    ∀ k, f.left.draw = some k ↔ f.left.flow.cur = some k := by
  obtain ⟨hs, hc, hk⟩ := h
  obtain ⟨steps, idx, count, cur⟩ := f
  simp only at hs hc hk
  subst hs hc
  rcases hk with ⟨h1, h2, h3⟩ | ⟨h1, h2⟩
  · have hlen := static_len h1
    have hi : (if idx = 0 then f0.steps.length - 1 else idx - 1) < f0.steps.length := by
      split <;> omega
    have e : Flow.left ⟨f0.steps, idx, f0.count, cur⟩ = ⟨⟨f0.steps, if idx = 0 then f0.steps.length - 1 else idx - 1, f0.count, cur⟩, none⟩ :=
      arrive_static (f := ⟨f0.steps, if idx = 0 then f0.steps.length - 1 else idx - 1, f0.count, cur⟩) h1 rfl hi
    rw [e]
    subst h3
    exact ⟨⟨rfl, rfl, .inl ⟨h1, hi, rfl⟩⟩, by simp⟩
  · obtain ⟨p, n, hn, rfl⟩ := h1
    have hd : IsDyn (.dynamic p n) := ⟨p, n, hn, rfl⟩
    rcases h2 with ⟨rfl, rfl⟩ | ⟨rfl | rfl, rfl⟩ | ⟨rfl, k, hk, rfl⟩
    · exact ⟨⟨rfl, rfl, .inr ⟨hd, .inr (.inl ⟨.inr rfl, rfl⟩)⟩⟩, fun k => Iff.rfl⟩
    · exact ⟨⟨rfl, rfl, .inr ⟨hd, .inr (.inr ⟨rfl, n - 1, by simp [Flow.dynamic]; omega, rfl⟩)⟩⟩,
        fun k => Iff.rfl⟩
    · exact ⟨⟨rfl, rfl, .inr ⟨hd, .inr (.inl ⟨.inl rfl, rfl⟩)⟩⟩, fun k => Iff.rfl⟩
    · cases k with
      | zero => exact ⟨⟨rfl, rfl, .inr ⟨hd, .inl ⟨rfl, rfl⟩⟩⟩, fun _ => Iff.rfl⟩
      | succ k =>
        refine ⟨⟨rfl, rfl, .inr ⟨hd, .inr (.inr ⟨rfl, k, ?_, rfl⟩)⟩⟩, fun _ => Iff.rfl⟩
        simp only [Flow.dynamic] at hk ⊢; omega

/-- The title of a flow. -/
def Flow.title (f : Flow) : Option Title := (f.steps.head?.bind FlowStep.page?).map (·.title)

theorem FlowOk.title {f0 f : Flow} (h : FlowOk f0 f) : f.title = f0.title := by
  unfold Flow.title; rw [h.steps]

end Ergo
