import Verif.Proof.Screens
/-!
# Pages already drawn, and the way from any screen to Reject
-/
namespace Ergo
open Spec

/-- The dynamic page on display was reached from one of the two ends, over pages that can be drawn. -/
def Walked (env : Env) (nanoS : Bool) (d : Device) : Prop :=
  ∀ s k, d.screen = some s → s.flow.cur = some k →
    (∀ j, j ≤ k → ∃ p, d.show env nanoS s.cb j = .page p) ∨
    (∀ j, k ≤ j → j < s.flow.count → ∃ p, d.show env nanoS s.cb j = .page p)

theorem walked_none {env : Env} {nanoS : Bool} {d : Device} (h : d.screen = none) :
    Walked env nanoS d := by
  intro s k hs; rw [h] at hs; simp at hs

theorem walked_start {env : Env} {nanoS : Bool} {d : Device} {s : Screen} (h : d.screen = some s)
    (hc : s.flow.cur = none) : Walked env nanoS d := by
  intro s' k hs hk; rw [h] at hs; cases hs; rw [hc] at hk; simp at hk

/-- One step to the right: a new dynamic page is the first one, or the one after the page left. -/
theorem right_cur {f0 f : Flow} (hf : FlowOk f0 f) {k : Nat} (hk : f.right.flow.cur = some k) :
    f.right.flow.count = f.count ∧ f.right.draw = some k ∧
    (k = 0 ∨ ∃ k', k = k' + 1 ∧ f.cur = some k') := by
  have h1 := hf.right.1.count
  have h2 := (hf.right.2 k).2 hk
  refine ⟨by rw [h1, hf.count], h2, ?_⟩
  obtain ⟨hs, hc, hkind⟩ := hf
  obtain ⟨steps, idx, count, cur⟩ := f
  simp only at hs hc hkind
  subst hs hc
  rcases hkind with ⟨a1, a2, a3⟩ | ⟨⟨p, n, hn, rfl⟩, a⟩
  · have hlen := static_len a1
    have hi : (if idx + 1 < f0.steps.length then idx + 1 else 0) < f0.steps.length := by
      split <;> omega
    have e : Flow.right ⟨f0.steps, idx, f0.count, cur⟩ = ⟨⟨f0.steps, if idx + 1 < f0.steps.length then idx + 1 else 0, f0.count, cur⟩, none⟩ :=
      arrive_static (f := ⟨f0.steps, if idx + 1 < f0.steps.length then idx + 1 else 0, f0.count, cur⟩) a1 rfl hi
    rw [e] at h2; simp at h2
  · rcases a with ⟨rfl, rfl⟩ | ⟨rfl | rfl, rfl⟩ | ⟨rfl, j, hj, rfl⟩
    · left
      have e : Flow.right ⟨(Flow.dynamic p n).steps, 0, (Flow.dynamic p n).count, none⟩ =
        ⟨⟨(Flow.dynamic p n).steps, 2, n, some 0⟩, some 0⟩ := rfl
      rw [e] at h2; simp at h2; omega
    · have e : Flow.right ⟨(Flow.dynamic p n).steps, 4, (Flow.dynamic p n).count, none⟩ =
        ⟨⟨(Flow.dynamic p n).steps, 5, n, none⟩, none⟩ := rfl
      rw [e] at h2; simp at h2
    · have e : Flow.right ⟨(Flow.dynamic p n).steps, 5, (Flow.dynamic p n).count, none⟩ =
        ⟨⟨(Flow.dynamic p n).steps, 0, n, none⟩, none⟩ := rfl
      rw [e] at h2; simp at h2
    · right
      have e : Flow.right ⟨(Flow.dynamic p n).steps, 2, (Flow.dynamic p n).count, some j⟩ =
          if j < n - 1 then ⟨⟨(Flow.dynamic p n).steps, 2, n, some (j + 1)⟩, some (j + 1)⟩
          else ⟨⟨(Flow.dynamic p n).steps, 4, n, none⟩, none⟩ := rfl
      rw [e] at h2
      split at h2 <;> simp at h2
      exact ⟨j, by omega, rfl⟩

/-- One step to the left: a new dynamic page is the last one, or the one before the page left. -/
theorem left_cur {f0 f : Flow} (hf : FlowOk f0 f) {k : Nat} (hk : f.left.flow.cur = some k) :
    f.left.flow.count = f.count ∧ f.left.draw = some k ∧
    (k + 1 = f.count ∨ f.cur = some (k + 1)) := by
  have h1 := hf.left.1.count
  have h2 := (hf.left.2 k).2 hk
  refine ⟨by rw [h1, hf.count], h2, ?_⟩
  obtain ⟨hs, hc, hkind⟩ := hf
  obtain ⟨steps, idx, count, cur⟩ := f
  simp only at hs hc hkind
  subst hs hc
  rcases hkind with ⟨a1, a2, a3⟩ | ⟨⟨p, n, hn, rfl⟩, a⟩
  · have hlen := static_len a1
    have hi : (if idx = 0 then f0.steps.length - 1 else idx - 1) < f0.steps.length := by
      split <;> omega
    have e : Flow.left ⟨f0.steps, idx, f0.count, cur⟩ = ⟨⟨f0.steps, if idx = 0 then f0.steps.length - 1 else idx - 1, f0.count, cur⟩, none⟩ :=
      arrive_static (f := ⟨f0.steps, if idx = 0 then f0.steps.length - 1 else idx - 1, f0.count, cur⟩) a1 rfl hi
    rw [e] at h2; simp at h2
  · rcases a with ⟨rfl, rfl⟩ | ⟨rfl | rfl, rfl⟩ | ⟨rfl, j, hj, rfl⟩
    · have e : Flow.left ⟨(Flow.dynamic p n).steps, 0, (Flow.dynamic p n).count, none⟩ =
        ⟨⟨(Flow.dynamic p n).steps, 5, n, none⟩, none⟩ := rfl
      rw [e] at h2; simp at h2
    · left
      have e : Flow.left ⟨(Flow.dynamic p n).steps, 4, (Flow.dynamic p n).count, none⟩ =
        ⟨⟨(Flow.dynamic p n).steps, 2, n, some (n - 1)⟩, some (n - 1)⟩ := rfl
      rw [e] at h2; simp at h2
      show k + 1 = n
      omega
    · have e : Flow.left ⟨(Flow.dynamic p n).steps, 5, (Flow.dynamic p n).count, none⟩ =
        ⟨⟨(Flow.dynamic p n).steps, 4, n, none⟩, none⟩ := rfl
      rw [e] at h2; simp at h2
    · right
      cases j with
      | zero =>
        have e : Flow.left ⟨(Flow.dynamic p n).steps, 2, (Flow.dynamic p n).count, some 0⟩ =
          ⟨⟨(Flow.dynamic p n).steps, 0, n, none⟩, none⟩ := rfl
        rw [e] at h2; simp at h2
      | succ j =>
        have e : Flow.left ⟨(Flow.dynamic p n).steps, 2, (Flow.dynamic p n).count, some (j + 1)⟩ =
          ⟨⟨(Flow.dynamic p n).steps, 2, n, some j⟩, some j⟩ := rfl
        rw [e] at h2; simp at h2
        subst h2; rfl

theorem busy_screen {env : Env} {nanoS : Bool} {key : Bytes} {tr : List Obs} {d : Device}
    (h : Runs env nanoS key tr d) (hb : d.busy = false) : d.screen = none := by
  have := h.inv.busy
  rw [hb] at this
  cases hs : d.screen with
  | none => rfl
  | some s => rw [hs] at this; simp at this

/-- In every execution the page on display was reached over pages that can be drawn. -/
theorem Runs.walked {env : Env} {nanoS : Bool} {key : Bytes} {tr : List Obs} {d : Device}
    (h : Runs env nanoS key tr d) : Walked env nanoS d := by
  induction h with
  | boot => exact walked_none rfl
  | @step tr d e h hh hu ih =>
    have hb := busy_screen h
    obtain ⟨d', r, hst, hT⟩ := step_cases env nanoS d e
    rw [hst] at hh hu ⊢
    simp only at hh hu ⊢
    cases hT with
    | neutral h => exact ih
    | version hl => exact ih
    | name hl => exact ih
    | abort hb' => exact walked_none (hb hb')
    | deriveFail hb' => exact walked_none (hb hb')
    | epkSend hb' => exact walked_none (hb hb')
    | epkAsk hb' => exact walked_start rfl rfl
    | daSend hb' => exact walked_none (hb hb')
    | daAskSend hb' => exact walked_start rfl rfl
    | daAskShow hb' => exact walked_start rfl rfl
    | attestHang hb => exact absurd rfl hh
    | attestKnown hb' => exact walked_none (hb hb')
    | attestAsk hb' => exact walked_start rfl rfl
    | attestOk hb' => exact walked_none (hb hb')
    | attestUb hb => exact absurd rfl hu
    | signHang hb => exact absurd rfl hh
    | signInitUb hb => exact absurd rfl hu
    | signAsk hb' => exact walked_start rfl rfl
    | signOk hb' => exact walked_none (hb hb')
    | signShow hb' => exact walked_start rfl rfl
    | signUb hb => exact absurd rfl hu
    | signConfirm hb' => exact walked_start rfl rfl
    | idle he hs => exact ih
    | @move _ s m he hs hm =>
      obtain ⟨a, f0, p1, hf, p3⟩ := h.inv.asking _ hs
      intro s' k hs' hk
      simp only [Option.some.injEq] at hs'
      subst hs'
      simp only at hk
      simp only [show_screen]
      have hw := fun k => ih s k hs
      rcases he with ⟨_, rfl⟩ | ⟨_, rfl⟩
      · obtain ⟨hc, hd, hor⟩ := left_cur hf hk
        have hp := hm k hd
        rw [hc]
        rcases hor with hl | hl
        · right
          intro j h1 h2
          obtain rfl : j = k := by omega
          exact hp
        · rcases hw _ hl with hw | hw
          · left; exact fun j hj => hw j (by omega)
          · right
            intro j h1 h2
            rcases Nat.lt_or_ge k j with h3 | h3
            · exact hw j h3 h2
            · obtain rfl : j = k := by omega
              exact hp
      · obtain ⟨hc, hd, hor⟩ := right_cur hf hk
        have hp := hm k hd
        rw [hc]
        rcases hor with rfl | ⟨k', rfl, hl⟩
        · left
          intro j hj
          obtain rfl : j = 0 := by omega
          exact hp
        · rcases hw _ hl with hw | hw
          · left
            intro j hj
            rcases Nat.lt_or_ge k' j with h3 | h3
            · obtain rfl : j = k' + 1 := by omega
              exact hp
            · exact hw j h3
          · right; exact fun j h1 h2 => hw j (by omega) h2
    | moveErr he hs hm hk => exact walked_none rfl
    | moveUb he hs hm hk => exact absurd rfl hu
    | click hs h1 h2 h3 => exact ih
    | reject hs h1 => exact walked_none rfl
    | okEpk hs => exact walked_none rfl
    | okDa hs => exact walked_none rfl
    | okAttest hs => exact walked_none rfl
    | okSignInit hs => exact walked_none rfl
    | okSignOutput hs => exact walked_none rfl
    | okSignTx hs => exact walked_none rfl
    | failSignTx hs => exact walked_none rfl
    | actUb hs h1 h => exact absurd rfl hu

end Ergo
