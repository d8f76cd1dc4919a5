import Verif.Model.Failing
import Mathlib.Tactic.SplitIfs
/-!
# Computations with calls: the result without failures, and what failures can do to it
-/
namespace Ergo

/-- Started after `n` calls: if all calls made work, the result is `a`; if one fails, it is `bad`. -/
structure Yields {α : Type} (ok : Nat → Bool) (m : Calls α) (a : α) (bad : α → Prop) : Prop where
  le : ∀ n, n ≤ (m n).2
  works : ∀ n, (∀ j, n ≤ j → j < (m n).2 → ok j = true) → (m n).1 = a
  fails : ∀ n j, n ≤ j → j < (m n).2 → ok j = false → bad (m n).1

/-- Whatever the calls do, the result has the property. -/
structure CallEnds {α : Type} (m : Calls α) (P : α → Prop) : Prop where
  le : ∀ n, n ≤ (m n).2
  res : ∀ n, P (m n).1

open Calls

variable {α β : Type} {ok : Nat → Bool}

theorem CallEnds.ret {P : α → Prop} {a : α} (h : P a) : CallEnds (ret a) P := ⟨fun _ => Nat.le_refl _, fun _ => h⟩

theorem Yields.ret (a : α) (bad : α → Prop) : Yields ok (ret a) a bad :=
  ⟨fun _ => Nat.le_refl _, fun _ _ => rfl, fun n j h1 h2 => absurd h2 (Nat.not_lt.mpr h1)⟩

theorem Yields.need {m : Calls α} {a b : α} {bad : α → Prop} (h : Yields ok m a bad) (hb : bad b) :
    Yields ok (need ok b m) a bad := by
  refine ⟨fun n => ?_, fun n hn => ?_, fun n j h1 h2 h3 => ?_⟩
  · have := h.le (n + 1)
    unfold Calls.need
    split
    · omega
    · exact Nat.le_succ n
  · unfold Calls.need at hn ⊢
    by_cases hk : ok n = true
    · simp only [hk, if_true] at hn ⊢
      exact h.works _ (fun j j1 j2 => hn j (by omega) j2)
    · simp only [hk, if_false] at hn
      exact absurd (hn n (Nat.le_refl _) (Nat.lt_succ_self n)) hk
  · unfold Calls.need at h2 ⊢
    by_cases hk : ok n = true
    · simp only [hk, if_true] at h2 ⊢
      have : n ≠ j := by rintro rfl; rw [hk] at h3; cases h3
      exact h.fails _ j (by omega) h2 h3
    · simp only [hk]
      exact hb

theorem Yields.needs {m : Calls α} {a b : α} {bad : α → Prop} (h : Yields ok m a bad) (hb : bad b) :
    ∀ k, Yields ok (needs ok k b m) a bad
  | 0 => h
  | k + 1 => (Yields.needs h hb k).need hb

theorem Yields.map {m : Calls α} {a : α} {bad : α → Prop} (h : Yields ok m a bad) {f : α → β}
    {bad' : β → Prop} (hb : ∀ r, bad r → bad' (f r)) : Yields ok (map f m) (f a) bad' :=
  ⟨h.le, fun n hn => congrArg f (h.works n hn), fun n j h1 h2 h3 => hb _ (h.fails n j h1 h2 h3)⟩

/-- As `map`, the result given up to an equation. -/
theorem Yields.map' {m : Calls α} {a : α} {bad : α → Prop} (h : Yields ok m a bad) {f : α → β} {b : β}
    {bad' : β → Prop} (he : f a = b) (hb : ∀ r, bad r → bad' (f r)) : Yields ok (Calls.map f m) b bad' :=
  he ▸ h.map hb

theorem Yields.andThen {m : Calls α} {a : α} {bad : α → Prop} (h : Yields ok m a bad)
    {f : α → Calls β} {b : β} {bad' : β → Prop} (hf : Yields ok (f a) b bad')
    (hb : ∀ r, bad r → CallEnds (f r) bad') : Yields ok (andThen m f) b bad' := by
  -- no failure in the first part, or a failure
  have key : ∀ n, ((∀ j, n ≤ j → j < (m n).2 → ok j = true) ∧ (m n).1 = a) ∨ bad (m n).1 := by
    intro n
    by_cases hn : ∀ j, n ≤ j → j < (m n).2 → ok j = true
    · exact .inl ⟨hn, h.works n hn⟩
    · simp only [Classical.not_forall, not_imp, Bool.not_eq_true] at hn
      obtain ⟨j, h1, h2, h3⟩ := hn
      exact .inr (h.fails n j h1 h2 h3)
  refine ⟨fun n => ?_, fun n hn => ?_, fun n j h1 h2 h3 => ?_⟩
  · show n ≤ (f (m n).1 (m n).2).2
    have h0 := h.le n
    rcases key n with ⟨_, he⟩ | hk
    · rw [he]
      have := hf.le (m n).2
      omega
    · have := (hb _ hk).le (m n).2
      omega
  · change ∀ j, n ≤ j → j < (f (m n).1 (m n).2).2 → ok j = true at hn
    show (f (m n).1 (m n).2).1 = b
    rcases key n with ⟨_, he⟩ | hk
    · rw [he] at hn ⊢
      exact hf.works _ (fun j j1 j2 => hn j (by have := h.le n; omega) j2)
    · have hle := (hb _ hk).le (m n).2
      have he := h.works n (fun j j1 j2 => hn j j1 (by omega))
      rw [he] at hn ⊢
      exact hf.works _ (fun j j1 j2 => hn j (by have := h.le n; omega) j2)
  · change j < (f (m n).1 (m n).2).2 at h2
    show bad' (f (m n).1 (m n).2).1
    rcases key n with ⟨hw, he⟩ | hk
    · rw [he] at h2 ⊢
      refine hf.fails _ j ?_ h2 h3
      refine Nat.le_of_not_lt fun hc => ?_
      rw [hw j h1 hc] at h3
      cases h3
    · exact (hb _ hk).res _

theorem Yields.mono {m : Calls α} {a : α} {bad bad' : α → Prop} (h : Yields ok m a bad)
    (hb : ∀ r, bad r → bad' r) : Yields ok m a bad' :=
  ⟨h.le, h.works, fun n j h1 h2 h3 => hb _ (h.fails n j h1 h2 h3)⟩

theorem Yields.ends {m : Calls α} {a : α} {bad P : α → Prop} (h : Yields ok m a bad) (ha : P a)
    (hb : ∀ r, bad r → P r) : CallEnds m P := by
  refine ⟨h.le, fun n => ?_⟩
  by_cases hn : ∀ j, n ≤ j → j < (m n).2 → ok j = true
  · rw [h.works n hn]
    exact ha
  · simp only [Classical.not_forall, not_imp, Bool.not_eq_true] at hn
    obtain ⟨j, h1, h2, h3⟩ := hn
    exact hb _ (h.fails n j h1 h2 h3)

end Ergo
