import Verif.Proof.Path
import Verif.Proof.Inv
/-!
# Dynamic screens: which pages a flow has, and how the buttons walk through them
-/
namespace Ergo
open Spec

/-- If a path was accepted for display in a buffer, its text is at most 9 characters longer than the
buffer. -/
theorem pathFormatLoop_len {n : Nat} : ∀ (p : List UInt32) (acc r : List Char),
    acc.length < n → pathFormatLoop n acc p = some r → acc.length + (pathText p).length ≤ n + 9
  | [], acc, r, hl, h => by simp [pathText]; omega
  | c :: cs, acc, r, hl, h => by
    simp only [pathFormatLoop] at h
    cases h1 : pathFormatOne n acc c cs.isEmpty with
    | none => rw [h1] at h; simp at h
    | some a1 =>
      rw [h1] at h
      simp only at h
      rw [pathText_cons]
      rcases pathFormatOne_some h1 with ⟨e1, l1⟩ | ⟨e1, l1, hlast⟩
      · have := pathFormatLoop_len cs a1 r l1 h
        subst e1
        cases cs <;> simp at this ⊢ <;> omega
      · have hcs := pathFormatLoop_full l1 cs h
        subst hcs
        have hh := hlast rfl
        have := compText_length_le c
        unfold Hardened at hh
        rw [if_pos (by omega)] at this
        simp [pathText]
        omega

theorem pathFormat_full {p : List UInt32} {t : List Char} (h : pathFormat p 60 = some t) :
    pathFormat p 70 = some (pathText p) := by
  unfold pathFormat at h ⊢
  split at h
  · simp at h
  rename_i hl
  rw [if_neg hl]
  have := pathFormatLoop_len p [] t (by simp) h
  rw [pathFormatLoop_fits p [] (by simp at this ⊢; omega)]
  rfl

/-- The dynamic pages of the flow on display, in order (with the error or `ub` of a page that cannot be
drawn). -/
def Device.dynPages (env : Env) (nanoS : Bool) (d : Device) : List ShowRes :=
  match d.screen with
  | none => []
  | some s => (List.range s.flow.count).map (d.show env nanoS s.cb)

/-- Pressing the right button `n` times. -/
def Device.rights (env : Env) (nanoS : Bool) : Nat → Device → Device
  | 0, d => d
  | n + 1, d => ((Device.rights env nanoS n d).step env nanoS .right).1

theorem show_screen (env : Env) (nanoS : Bool) (d : Device) (sc : Option Screen) (cb : Callback)
    (k : Nat) : Device.show env nanoS { d with screen := sc } cb k = d.show env nanoS cb k := rfl

/-- From the first page, `k + 1` presses of the right button lead to dynamic page `k`, if the pages
up to it can be drawn. -/
theorem walk {env : Env} {nanoS : Bool} {d : Device} {s : Screen} {q : Page} {n : Nat}
    (hs : d.screen = some s) (hf : s.flow = Flow.dynamic q n) :
    ∀ k, k < n → (∀ j ≤ k, ∃ p, d.show env nanoS s.cb j = .page p) →
    d.rights env nanoS (k + 1) =
      { d with screen := some { s with flow := { Flow.dynamic q n with idx := 2, cur := some k } } }
  | 0, hk, hp => by
    obtain ⟨p, hp⟩ := hp 0 (by omega)
    simp only [Device.rights, Device.step, hs, Device.move, hf]
    have e : (Flow.dynamic q n).right = ⟨{ Flow.dynamic q n with idx := 2, cur := some 0 }, some 0⟩ := by
      simp [Flow.right, Flow.dynamic, Flow.arrive, Flow.here, Flow.stepLeft]
    rw [e]
    simp only [hp]
  | k + 1, hk, hp => by
    have ih := walk hs hf k (by omega) (fun j hj => hp j (by omega))
    obtain ⟨p, hp⟩ := hp (k + 1) (by omega)
    rw [Device.rights, ih]
    simp only [Device.step, Device.move]
    have e : Flow.right { Flow.dynamic q n with idx := 2, cur := some k } =
        ⟨{ Flow.dynamic q n with idx := 2, cur := some (k + 1) }, some (k + 1)⟩ := by
      simp [Flow.right, Flow.dynamic, Flow.arrive, Flow.here, Flow.stepRight]
      omega
    rw [e]
    simp only [show_screen, hp]

/-- From the first page, with all pages drawn, one press more leads to Approve. -/
theorem walk_approve {env : Env} {nanoS : Bool} {d : Device} {s : Screen} {q : Page} {n : Nat}
    (hs : d.screen = some s) (hf : s.flow = Flow.dynamic q (n + 1))
    (hp : ∀ j ≤ n, ∃ p, d.show env nanoS s.cb j = .page p) :
    d.rights env nanoS (n + 2) =
      { d with screen := some { s with flow := { Flow.dynamic q (n + 1) with idx := 4 } } } := by
  rw [Device.rights, walk hs hf n (by omega) hp]
  simp only [Device.step, Device.move]
  have e : Flow.right { Flow.dynamic q (n + 1) with idx := 2, cur := some n } =
      ⟨{ Flow.dynamic q (n + 1) with idx := 4 }, none⟩ := by
    simp [Flow.right, Flow.dynamic, Flow.arrive, Flow.here, Flow.stepRight]
  rw [e]

/-- The pages of a position in a flow. -/
theorem dynPages_eq {env : Env} {nanoS : Bool} {d : Device} {s : Screen} {f0 : Flow}
    (hs : d.screen = some s) (hf : FlowOk f0 s.flow) :
    d.dynPages env nanoS = (List.range f0.count).map (d.show env nanoS s.cb) := by
  simp only [Device.dynPages, hs, hf.count]

/-- In a flow with dynamic pages, every page on display is the first page or one of the dynamic
pages. -/
theorem page_mem {env : Env} {nanoS : Bool} {d : Device} {s : Screen} {q : Page} {n : Nat} {p : Page}
    (hs : d.screen = some s) (hf : FlowOk (.dynamic q n) s.flow) (hn : 0 < n)
    (hp : d.page env nanoS = some p) :
    p = q ∨ ∃ k, k < n ∧ s.flow.cur = some k ∧ d.show env nanoS s.cb k = .page p := by
  unfold Device.page at hp
  rw [hs] at hp
  simp only [Flow.here, hf.steps] at hp
  rcases hf.kind with ⟨⟨l, h1, h2⟩, _, _⟩ | ⟨_, h⟩
  · have : FlowStep.dyn ∈ (Flow.static l).steps := by rw [← h1]; simp [Flow.dynamic]
    simp only [Flow.static, List.mem_append, List.mem_cons, List.not_mem_nil, or_false,
      reduceCtorEq] at this
    have := h2 _ this
    simp [FlowStep.page?] at this
  · rcases h with ⟨h1, _⟩ | ⟨h1 | h1, _⟩ | ⟨h1, k, hk, h2⟩
    · rw [h1] at hp
      simp [Flow.dynamic] at hp
      exact .inl hp.symm
    · rw [h1] at hp; simp [Flow.dynamic] at hp
    · rw [h1] at hp; simp [Flow.dynamic] at hp
    · rw [h1, h2] at hp
      simp only [Flow.dynamic, List.getD_cons_succ, List.getD_cons_zero] at hp
      right
      refine ⟨k, hk, h2, ?_⟩
      split at hp
      · rename_i p' h3
        simp only [Option.some.injEq] at hp
        rw [h3, hp]
      · simp at hp

end Ergo
