import Verif.Proof.Flow
import Mathlib.Data.List.Basic
/-!
# The same flow with the two answers exchanged
-/
namespace Ergo

/-- Approve and Reject exchanged. -/
def FlowStep.other : FlowStep → FlowStep
  | .approve => .reject
  | .reject => .approve
  | s => s

/-- The position of the same step when the last two steps are exchanged. -/
def turnIdx (n i : Nat) : Nat := if i + 2 = n then i + 1 else if i + 1 = n then i - 1 else i

/-- The flow with its answers exchanged if `order` is false. -/
def Flow.turn (order : Bool) (f : Flow) : Flow :=
  if order then f
  else { f with steps := f.steps.map FlowStep.other, idx := turnIdx f.steps.length f.idx }

/-- A press of a button (`true`: right). -/
def Flow.go (f : Flow) (b : Bool) : Move := if b then f.right else f.left

/-- A step that is an answer. -/
def FlowStep.isAnswer (s : FlowStep) : Prop := s = .approve ∨ s = .reject

/-- A move made by one press, or by two presses the first of which leads to an answer. -/
def Near (f : Flow) (m : Move) : Prop :=
  (∃ b, m = f.go b) ∨
  ∃ b b', (f.go b).draw = none ∧ (f.go b).flow.here.isAnswer ∧ m = (f.go b).flow.go b'

theorem FlowOk.go {f0 f : Flow} (h : FlowOk f0 f) (b : Bool) : FlowOk f0 (f.go b).flow := by
  cases b
  · exact h.left.1
  · exact h.right.1

theorem other_page {s : FlowStep} (h : (FlowStep.page? s).isSome) : s.other = s := by
  cases s <;> first | rfl | simp [FlowStep.page?] at h

theorem other_map {l : List FlowStep} (h : ∀ s ∈ l, (FlowStep.page? s).isSome) :
    l.map FlowStep.other = l := by
  conv_rhs => rw [← List.map_id l]
  exact List.map_congr_left fun s hs => other_page (h s hs)

theorem static_turn {l : List FlowStep} (h : ∀ s ∈ l, (FlowStep.page? s).isSome) :
    (Flow.static l).steps.map FlowStep.other = l ++ [.reject, .approve] := by
  simp [Flow.static, other_map h, FlowStep.other]

/-- In a static flow in either order no step has a callback on arrival. -/
theorem arrive_pages {l : List FlowStep} (h : ∀ s ∈ l, (FlowStep.page? s).isSome) {x y : FlowStep}
    (hx : x.isAnswer) (hy : y.isAnswer) {i n : Nat} {c : Option Nat} (hi : i < l.length + 2) :
    Flow.arrive ⟨l ++ [x, y], i, n, c⟩ = ⟨⟨l ++ [x, y], i, n, c⟩, none⟩ := by
  have hm : Flow.here ⟨l ++ [x, y], i, n, c⟩ ∈ l ++ [x, y] := by
    unfold Flow.here
    rw [List.getD_eq_getElem?_getD, List.getElem?_eq_getElem (by simp; omega)]
    exact List.getElem_mem _
  have hne : Flow.here ⟨l ++ [x, y], i, n, c⟩ ≠ .upper ∧ Flow.here ⟨l ++ [x, y], i, n, c⟩ ≠ .lower := by
    generalize Flow.here ⟨l ++ [x, y], i, n, c⟩ = s at hm
    simp only [List.mem_append, List.mem_cons, List.not_mem_nil, or_false] at hm
    rcases hm with hm | rfl | rfl
    · have := h s hm
      constructor <;> rintro rfl <;> simp [FlowStep.page?] at this
    · rcases hx with rfl | rfl <;> simp
    · rcases hy with rfl | rfl <;> simp
  unfold Flow.arrive
  split
  · rename_i h; exact absurd h hne.1
  · rename_i h; exact absurd h hne.2
  · rfl

/-- The neighbouring position in a loop of `n` steps. -/
def nextIdx (n i : Nat) (b : Bool) : Nat :=
  if b then (if i + 1 < n then i + 1 else 0) else (if i = 0 then n - 1 else i - 1)

theorem nextIdx_lt {n i : Nat} (hi : i < n) (b : Bool) : nextIdx n i b < n := by
  cases b <;> simp only [nextIdx, Bool.false_eq_true, if_false, if_true] <;> split <;> omega

theorem turnIdx_lt {n i : Nat} (hi : i < n + 2) : turnIdx (n + 2) i < n + 2 := by
  unfold turnIdx; split_ifs <;> omega

theorem turnIdx_turnIdx {n i : Nat} (hi : i < n + 2) : turnIdx (n + 2) (turnIdx (n + 2) i) = i := by
  unfold turnIdx; split_ifs <;> omega

theorem near_idx (n i : Nat) (hi : i < n + 2) (b : Bool) :
    (∃ b1, turnIdx (n + 2) (nextIdx (n + 2) i b) = nextIdx (n + 2) (turnIdx (n + 2) i) b1) ∨
    ∃ b1 b2, (nextIdx (n + 2) (turnIdx (n + 2) i) b1 = n ∨ nextIdx (n + 2) (turnIdx (n + 2) i) b1 = n + 1) ∧
      turnIdx (n + 2) (nextIdx (n + 2) i b) = nextIdx (n + 2) (nextIdx (n + 2) (turnIdx (n + 2) i) b1) b2 := by
  by_cases hn : n = 0
  · subst hn
    left
    refine ⟨b, ?_⟩
    have : i = 0 ∨ i = 1 := by omega
    rcases this with rfl | rfl <;> cases b <;> rfl
  by_cases h1 : i = n
  · subst h1
    have e : turnIdx (i + 2) i = i + 1 := by simp [turnIdx]
    have e2 : nextIdx (i + 2) (i + 1) false = i := by simp [nextIdx]
    cases b
    · refine .inr ⟨false, false, ?_⟩
      rw [e, e2]
      refine ⟨.inl rfl, ?_⟩
      simp only [nextIdx, Bool.false_eq_true, if_false, if_neg hn]
      unfold turnIdx
      rw [if_neg (by omega), if_neg (by omega)]
    · refine .inl ⟨false, ?_⟩
      rw [e, e2]
      simp [nextIdx, turnIdx]
  by_cases h2 : i = n + 1
  · cases b
    · refine .inl ⟨true, ?_⟩
      simp only [nextIdx, turnIdx, Bool.false_eq_true, if_false, if_true]
      split_ifs <;> omega
    · refine .inr ⟨true, true, ?_⟩
      simp only [nextIdx, turnIdx, if_true]
      split_ifs <;> omega
  cases b
  · by_cases h0 : i = 0
    · have e : turnIdx (n + 2) i = 0 := by unfold turnIdx; split_ifs <;> omega
      have e2 : nextIdx (n + 2) 0 false = n + 1 := by simp [nextIdx]
      refine .inr ⟨false, false, ?_⟩
      rw [e, h0, e2]
      refine ⟨.inr rfl, ?_⟩
      simp [nextIdx, turnIdx]
    · refine .inl ⟨false, ?_⟩
      simp only [nextIdx, turnIdx, Bool.false_eq_true, if_false]
      split_ifs <;> omega
  · by_cases h3 : i + 1 = n
    · refine .inr ⟨true, true, ?_⟩
      simp only [nextIdx, turnIdx, if_true]
      split_ifs <;> omega
    · refine .inl ⟨true, ?_⟩
      simp only [nextIdx, turnIdx, if_true]
      split_ifs <;> omega

theorem go_pages {l : List FlowStep} (h : ∀ s ∈ l, (FlowStep.page? s).isSome) {x y : FlowStep}
    (hx : x.isAnswer) (hy : y.isAnswer) {i n : Nat} {c : Option Nat} (hi : i < l.length + 2) (b : Bool) :
    Flow.go ⟨l ++ [x, y], i, n, c⟩ b = ⟨⟨l ++ [x, y], nextIdx (l.length + 2) i b, n, c⟩, none⟩ := by
  have := arrive_pages h hx hy (i := nextIdx (l.length + 2) i b) (n := n) (c := c) (nextIdx_lt hi b)
  rw [← this]
  cases b <;> simp [Flow.go, Flow.left, Flow.right, nextIdx]

theorem here_answer {l : List FlowStep} {x y : FlowStep} (hx : x.isAnswer) (hy : y.isAnswer) {i n : Nat}
    {c : Option Nat} (hi : i = l.length ∨ i = l.length + 1) :
    (Flow.here ⟨l ++ [x, y], i, n, c⟩).isAnswer := by
  rcases hi with rfl | rfl <;> simp [Flow.here] <;> assumption

/-- Static flows: a press in one order is a move of one or two presses in the other. -/
theorem near_static {l : List FlowStep} (h : ∀ s ∈ l, (FlowStep.page? s).isSome) {x y x' y' : FlowStep}
    (hx : x.isAnswer) (hy : y.isAnswer) (hx' : x'.isAnswer) (hy' : y'.isAnswer)
    {i n : Nat} {c : Option Nat} (hi : i < l.length + 2) (b : Bool) :
    ∃ j, j < l.length + 2 ∧
      Near ⟨l ++ [x', y'], turnIdx (l.length + 2) i, n, c⟩
        ⟨⟨l ++ [x', y'], turnIdx (l.length + 2) j, n, c⟩, none⟩ ∧
      Flow.go ⟨l ++ [x, y], i, n, c⟩ b = ⟨⟨l ++ [x, y], j, n, c⟩, none⟩ := by
  refine ⟨_, nextIdx_lt hi b, ?_, go_pages h hx hy hi b⟩
  rcases near_idx l.length i hi b with ⟨b1, e⟩ | ⟨b1, b2, hm, e⟩
  · exact .inl ⟨b1, by rw [go_pages h hx' hy' (turnIdx_lt hi), ← e]⟩
  · refine .inr ⟨b1, b2, ?_, ?_, ?_⟩ <;> rw [go_pages h hx' hy' (turnIdx_lt hi)]
    · exact here_answer hx' hy' hm
    · rw [go_pages h hx' hy' (nextIdx_lt (turnIdx_lt hi) _), ← e]

theorem dynamic_count_eq (p : Page) (n : Nat) : (Flow.dynamic p n).count = n := rfl

/-- A press in the device's order is a move of one or two presses in the other order. -/
theorem near_turn {f0 f : Flow} (h : FlowOk f0 f) (order b : Bool) :
    Near (f.turn order) ⟨(f.go b).flow.turn order, (f.go b).draw⟩ := by
  cases order with
  | true => exact .inl ⟨b, by simp [Flow.turn]⟩
  | false =>
    obtain ⟨steps, idx, count, cur⟩ := f
    obtain ⟨hs, hc, hk⟩ := h
    simp only at hs hc hk
    subst hs hc
    rcases hk with ⟨⟨l, rfl, hl⟩, h2, rfl⟩ | ⟨⟨p, n, hn, rfl⟩, h2⟩
    · have hlen : (Flow.static l).steps.length = l.length + 2 := by simp [Flow.static]
      rw [hlen] at h2
      obtain ⟨j, hj, hN, hg⟩ := near_static hl (x := .approve) (y := .reject) (x' := .reject)
        (y' := .approve) (.inl rfl) (.inr rfl) (.inr rfl) (.inl rfl) (n := (Flow.static l).count) (c := none) h2 b
      have e1 : Flow.go ⟨(Flow.static l).steps, idx, (Flow.static l).count, none⟩ b = _ := hg
      have e2 : ∀ i, Flow.turn false ⟨(Flow.static l).steps, i, (Flow.static l).count, none⟩ =
          ⟨l ++ [.reject, .approve], turnIdx (l.length + 2) i, (Flow.static l).count, none⟩ := by
        intro i
        simp only [Flow.turn, Bool.false_eq_true, if_false, static_turn hl, hlen]
      rw [e1]
      have e3 : (⟨l ++ [.approve, .reject], j, (Flow.static l).count, none⟩ : Flow) =
        ⟨(Flow.static l).steps, j, (Flow.static l).count, none⟩ := rfl
      simp only [e3, e2]
      exact hN
    · rcases h2 with ⟨rfl, rfl⟩ | ⟨rfl | rfl, rfl⟩ | ⟨rfl, k, hk, rfl⟩
      · cases b
        · exact .inr ⟨false, false, rfl, .inl rfl, rfl⟩
        · exact .inl ⟨true, rfl⟩
      · cases b
        · exact .inr ⟨false, false, rfl, .inr rfl, rfl⟩
        · exact .inl ⟨false, rfl⟩
      · cases b
        · exact .inl ⟨true, rfl⟩
        · exact .inr ⟨true, true, rfl, .inl rfl, rfl⟩
      · cases b
        · cases k with
          | zero => exact .inl ⟨false, rfl⟩
          | succ k => exact .inl ⟨false, rfl⟩
        · have e : Flow.go ⟨(Flow.dynamic p n).steps, 2, n, some k⟩ true =
              if k < n - 1 then ⟨⟨(Flow.dynamic p n).steps, 2, n, some (k + 1)⟩, some (k + 1)⟩
              else ⟨⟨(Flow.dynamic p n).steps, 4, n, none⟩, none⟩ := rfl
          have e' : (Flow.turn false ⟨(Flow.dynamic p n).steps, 2, n, some k⟩).go true =
              if k < n - 1 then ⟨Flow.turn false ⟨(Flow.dynamic p n).steps, 2, n, some (k + 1)⟩, some (k + 1)⟩
              else ⟨Flow.turn false ⟨(Flow.dynamic p n).steps, 5, n, none⟩, none⟩ := rfl
          by_cases hkn : k < n - 1
          · rw [if_pos hkn] at e e'
            refine .inl ⟨true, ?_⟩
            rw [dynamic_count_eq, e, e']
          · rw [if_neg hkn] at e e'
            refine .inr ⟨true, true, ?_⟩
            rw [dynamic_count_eq, e, e']
            exact ⟨rfl, .inr rfl, rfl⟩

/-- A press in the other order is a move of one or two presses in the device's order. -/
theorem near_unturn {f0 f : Flow} (h : FlowOk f0 f) (order b : Bool) :
    ∃ m, Near f m ∧ (f.turn order).go b = ⟨m.flow.turn order, m.draw⟩ := by
  cases order with
  | true => exact ⟨f.go b, .inl ⟨b, rfl⟩, by simp [Flow.turn]⟩
  | false =>
    obtain ⟨steps, idx, count, cur⟩ := f
    obtain ⟨hs, hc, hk⟩ := h
    simp only at hs hc hk
    subst hs hc
    rcases hk with ⟨⟨l, rfl, hl⟩, h2, rfl⟩ | ⟨⟨p, n, hn, rfl⟩, h2⟩
    · have hlen : (Flow.static l).steps.length = l.length + 2 := by simp [Flow.static]
      rw [hlen] at h2
      obtain ⟨j, hj, hN, hg⟩ := near_static hl (x := .reject) (y := .approve) (x' := .approve)
        (y' := .reject) (.inr rfl) (.inl rfl) (.inl rfl) (.inr rfl) (n := (Flow.static l).count) (c := none)
        (turnIdx_lt h2) b
      have e2 : ∀ i, Flow.turn false ⟨(Flow.static l).steps, i, (Flow.static l).count, none⟩ =
          ⟨l ++ [.reject, .approve], turnIdx (l.length + 2) i, (Flow.static l).count, none⟩ := by
        intro i
        simp only [Flow.turn, Bool.false_eq_true, if_false, static_turn hl, hlen]
      rw [turnIdx_turnIdx h2] at hN
      refine ⟨_, hN, ?_⟩
      have e3 : ∀ i, (⟨l ++ [.approve, .reject], i, (Flow.static l).count, none⟩ : Flow) =
        ⟨(Flow.static l).steps, i, (Flow.static l).count, none⟩ := fun _ => rfl
      simp only [e3, e2, hg, turnIdx_turnIdx hj]
    · rcases h2 with ⟨rfl, rfl⟩ | ⟨rfl | rfl, rfl⟩ | ⟨rfl, k, hk, rfl⟩
      · cases b
        · exact ⟨_, .inr ⟨false, false, rfl, .inr rfl, rfl⟩, rfl⟩
        · exact ⟨_, .inl ⟨true, rfl⟩, rfl⟩
      · cases b
        · exact ⟨_, .inl ⟨true, rfl⟩, rfl⟩
        · exact ⟨_, .inr ⟨true, true, rfl, .inr rfl, rfl⟩, rfl⟩
      · cases b
        · exact ⟨_, .inr ⟨false, false, rfl, .inl rfl, rfl⟩, rfl⟩
        · exact ⟨_, .inl ⟨false, rfl⟩, rfl⟩
      · cases b
        · cases k with
          | zero => exact ⟨_, .inl ⟨false, rfl⟩, rfl⟩
          | succ k => exact ⟨_, .inl ⟨false, rfl⟩, rfl⟩
        · have e : Flow.go ⟨(Flow.dynamic p n).steps, 2, n, some k⟩ true =
              if k < n - 1 then ⟨⟨(Flow.dynamic p n).steps, 2, n, some (k + 1)⟩, some (k + 1)⟩
              else ⟨⟨(Flow.dynamic p n).steps, 4, n, none⟩, none⟩ := rfl
          have e' : (Flow.turn false ⟨(Flow.dynamic p n).steps, 2, n, some k⟩).go true =
              if k < n - 1 then ⟨Flow.turn false ⟨(Flow.dynamic p n).steps, 2, n, some (k + 1)⟩, some (k + 1)⟩
              else ⟨Flow.turn false ⟨(Flow.dynamic p n).steps, 5, n, none⟩, none⟩ := rfl
          by_cases hkn : k < n - 1
          · rw [if_pos hkn] at e e'
            refine ⟨_, .inl ⟨true, rfl⟩, ?_⟩
            rw [dynamic_count_eq, e, e']
          · rw [if_neg hkn] at e e'
            refine ⟨⟨⟨(Flow.dynamic p n).steps, 5, n, none⟩, none⟩, .inr ⟨true, true, ?_⟩, ?_⟩
            · rw [dynamic_count_eq, e]
              exact ⟨rfl, .inl rfl, rfl⟩
            · rw [dynamic_count_eq, e']

/-- The step on display does not depend on the order. -/
theorem turn_here {f0 f : Flow} (h : FlowOk f0 f) (order : Bool) : (f.turn order).here = f.here := by
  cases order with
  | true => rfl
  | false =>
    obtain ⟨steps, idx, count, cur⟩ := f
    obtain ⟨hs, hc, hk⟩ := h
    simp only at hs hc hk
    subst hs hc
    rcases hk with ⟨⟨l, rfl, hl⟩, h2, rfl⟩ | ⟨⟨p, n, hn, rfl⟩, h2⟩
    · have hlen : (Flow.static l).steps.length = l.length + 2 := by simp [Flow.static]
      rw [hlen] at h2
      simp only [Flow.turn, Bool.false_eq_true, if_false, Flow.here, static_turn hl, hlen]
      by_cases h1 : idx < l.length
      · have : turnIdx (l.length + 2) idx = idx := by unfold turnIdx; split_ifs <;> omega
        rw [this]
        simp [Flow.static, List.getElem?_append, h1]
      · have : idx = l.length ∨ idx = l.length + 1 := by omega
        rcases this with rfl | rfl <;> simp [turnIdx, Flow.static]
    · rcases h2 with ⟨rfl, rfl⟩ | ⟨rfl | rfl, rfl⟩ | ⟨rfl, k, hk, rfl⟩ <;> rfl

/-- The title of the question does not depend on the order. -/
theorem turn_title {f0 f : Flow} (h : FlowOk f0 f) (order : Bool) (hne : f0.title.isSome) :
    (f.turn order).title = f.title := by
  cases order with
  | true => rfl
  | false =>
    have hk := h.kind
    simp only [Flow.title, Flow.turn, Bool.false_eq_true, if_false, h.steps] at hne ⊢
    rcases hk with ⟨⟨l, rfl, hl⟩, _⟩ | ⟨⟨p, n, hn, rfl⟩, _⟩
    · rw [static_turn hl]
      cases l with
      | nil => simp [Flow.static, FlowStep.page?] at hne
      | cons x l => simp [Flow.static]
    · rfl

end Ergo
