import Verif.Proof.Entries
import Verif.Spec.Limits
/-!
# Limits hold in every session
-/
namespace Ergo
open Spec

variable {env : Env} {h0 : Bytes} {p p' : P2pk} {D : TxDesc} {data : Bytes}

theorem BoxRel.limits {α : Type} {enc : α → Bytes} {keyOf : List UInt32 → Bytes} {base h : Bytes}
    {b : BoxCtx} {o : BoxDesc α} (hB : BoxRel enc keyOf base b h o) : BoxLimits o := by
  have hph := hB.phase
  have fin : o.complete → (∀ bs, o.script = some (.raw bs) → bs.length ≤ o.treeSize) ∧
      o.tokens.length ≤ o.nTokens ∧ o.regs.length ≤ o.regsSize ∧ o.scriptDone = true ∧
      o.tokens.length = o.nTokens := by
    intro hc
    simp only [BoxDesc.complete, Bool.and_eq_true, decide_eq_true_eq] at hc
    obtain ⟨⟨h1, h2⟩, h3⟩ := hc
    refine ⟨?_, by omega, by omega, h1, h2⟩
    intro bs hbs
    simp [BoxDesc.scriptDone, hbs] at h1
    omega
  have raw : o.scriptDone = true → ∀ bs, o.script = some (.raw bs) → bs.length ≤ o.treeSize := by
    intro h1 bs hbs
    simp [BoxDesc.scriptDone, hbs] at h1
    omega
  unfold BoxPhase at hph
  split at hph
  · obtain ⟨h1, h2, h3, h4, h5⟩ := hph
    refine ⟨hB.tree_le, hB.regs_le, hB.tok_le, ?_, by simp [h2], by simp [h3], by simp [h2], by simp [h3]⟩
    intro bs hbs
    rcases h1 with ⟨h1, _⟩ | ⟨bs', h1, h6, _⟩
    · rw [h1] at hbs; simp at hbs
    · rw [h1] at hbs
      simp only [Option.some.injEq, Script.raw.injEq] at hbs
      subst hbs
      omega
  · obtain ⟨h1, h2, h3, h4, h5, h6⟩ := hph
    exact ⟨hB.tree_le, hB.regs_le, hB.tok_le, raw h1, by omega, by simp [h5], fun _ => h1,
      by simp [h5]⟩
  · obtain ⟨h1, h2, h3, h4, h5⟩ := hph
    exact ⟨hB.tree_le, hB.regs_le, hB.tok_le, raw h1, by omega, by omega, fun _ => h1,
      fun _ => ⟨h1, h3⟩⟩
  · obtain ⟨h1, h2, h3, h4, h5⟩ := fin hph.1
    exact ⟨hB.tree_le, hB.regs_le, hB.tok_le, h1, h2, h3, fun _ => h4, fun _ => ⟨h4, h5⟩⟩
  · obtain ⟨h1, h2, h3, h4, h5⟩ := fin hph.1
    exact ⟨hB.tree_le, hB.regs_le, hB.tok_le, h1, h2, h3, fun _ => h4, fun _ => ⟨h4, h5⟩⟩
  · exact hph.elim

/-- The limits of the newest output and everything about numbers and order, given the rest. -/
theorem FullRel.limits {keyOf : List UInt32 → Bytes} {x : FullSt} (hR : FullRel keyOf h0 x D)
    (hext : ∀ i ∈ D.inputs, i.extSize ≠ 1 ∧ i.extSize ≤ 32768) (hgot : ∀ i ∈ D.inputs, 0 < i.got ∧ i.got ≤ i.frames)
    (hold : ∀ o ∈ D.outputs.tail, BoxLimits o.box)
    (hrefs : ∀ o ∈ D.outputs, ∀ t ∈ o.box.tokens, t.1 < D.table.length) : Limits D := by
  have hph := hR.phase
  have comp : ∀ i ∈ D.inputs, i.complete → InLimits i := by
    intro i hi hc
    simp only [InDesc.complete, Bool.and_eq_true, decide_eq_true_eq] at hc
    exact ⟨hext i hi, hgot i hi, by omega, fun _ => hc.1⟩
  unfold FullPhase at hph
  have out : OutPhase keyOf h0 x.c x.h D → Limits D := by
    rintro ⟨h1, h2, h3, h4, h5, h6⟩
    refine ⟨hR.nIn, hR.nOut, hR.nTok, by omega, by omega, by omega, by omega,
      fun i hi => comp i hi (h2 i hi), ?_, fun _ => h1, fun i hi => h2 i (List.mem_of_mem_tail hi),
      fun _ => ⟨h3, h2⟩, fun _ => ⟨h1, h3, h2, h4⟩, hrefs⟩
    intro o ho
    split at h6
    · rename_i hD
      rw [hD] at ho; simp at ho
    · rename_i o1 os hD
      obtain ⟨b, _, hB⟩ := h6
      rw [hD] at ho
      rcases List.mem_cons.1 ho with rfl | ho
      · exact hB.limits
      · exact hold o (by rw [hD]; exact ho)
  split at hph
  · obtain ⟨h1, h2, h3, h4, h5, h6⟩ := hph
    exact ⟨hR.nIn, hR.nOut, hR.nTok, by omega, by simp [h3], by simp [h4], by simp [h5], by simp [h3],
      by simp [h5], by simp [h3], by simp [h3], by simp [h4], by simp [h5], hrefs⟩
  · obtain ⟨h1, h2, h3, h4, h5, ic, h6, h7⟩ := hph
    unfold InPhase at h7
    have base : D.inputs.length ≤ D.nIn → (∀ i ∈ D.inputs, InLimits i) →
        (∀ i ∈ D.inputs.tail, i.complete) → Limits D := by
      intro g1 g2 g3
      exact ⟨hR.nIn, hR.nOut, hR.nTok, by omega, g1, by simp [h2], by simp [h3], g2, by simp [h3],
        fun _ => h1, g3, by simp [h2], by simp [h3], hrefs⟩
    split at h7
    · obtain ⟨g1, g2, g3, g4⟩ := h7
      exact base (by omega) (fun i hi => comp i hi (g1 i hi))
        (fun i hi => g1 i (List.mem_of_mem_tail hi))
    · obtain ⟨i, is, g1, g2, g3, g4, g5, g6, g7, g8, g9, g10⟩ := h7
      refine base (by rw [g1]; simp; omega) ?_ (by rw [g1]; exact g2)
      intro j hj
      have hj' := hj
      rw [g1] at hj'
      rcases List.mem_cons.1 hj' with rfl | hj'
      · exact ⟨hext _ hj, hgot _ hj, by rw [g9]; simp, by rw [g9]; simp⟩
      · exact comp _ hj (g2 j hj')
    · obtain ⟨i, is, g1, g2, g3, g4, g5, g6, g7⟩ := h7
      refine base (by rw [g1]; simp; omega) ?_ (by rw [g1]; exact g2)
      intro j hj
      have hj' := hj
      rw [g1] at hj'
      rcases List.mem_cons.1 hj' with rfl | hj'
      · exact ⟨hext _ hj, hgot _ hj, by omega, fun _ => g5⟩
      · exact comp _ hj (g2 j hj')
    · exact h7.elim
  · obtain ⟨h1, h2, h3, h4, h5, h6, h7, h8⟩ := hph
    exact ⟨hR.nIn, hR.nOut, hR.nTok, by omega, by omega, by omega, by simp [h2],
      fun i hi => comp i hi (h3 i hi), by simp [h2], fun _ => h1,
      fun i hi => h3 i (List.mem_of_mem_tail hi), fun _ => ⟨h4, h3⟩, by simp [h2], hrefs⟩
  · exact out hph.2
  · exact out hph.2.1
  · exact hph.elim

end Ergo
