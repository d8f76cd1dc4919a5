import Verif.Proof.DrawPage
import Verif.Model.DrawDevice
import Verif.Props.Pages
/-!
# The arrays behind the dynamic screens of a device
-/
namespace Ergo
open Spec

theorem tableEntry_len {table : List Bytes} (h : ∀ id ∈ table, id.length = 32) (i : Nat) :
    (tableEntry table i).length = 32 := by
  unfold tableEntry
  rw [List.getD_eq_getElem?_getD]
  cases e : table[i]? with
  | none => simp [zeroId]
  | some x => simpa using h x (List.mem_of_getElem? e)

theorem txScreenCount_lt {a : Amounts} (h : a.tokens.length = 20) : txScreenCount a < 256 := by
  have := List.countP_le_length (p := fun x : Int64 => x != 0) (l := a.tokens)
  unfold txScreenCount Amounts.nonZeroCount
  omega

theorem outputScreenCount_lt {o : OutInfo} (h : o.tokens.length = 20) : outputScreenCount o < 256 := by
  have := List.countP_le_length (p := fun x : UInt64 => x != 0) (l := o.tokens)
  unfold outputScreenCount OutInfo.usedCount
  split <;> omega

theorem forall2_map {α β γ : Type} {R : β → γ → Prop} {f : α → β} {g : α → γ} :
    ∀ (l : List α), (∀ x ∈ l, R (f x) (g x)) → List.Forall₂ R (l.map f) (l.map g)
  | [], _ => .nil
  | x :: l, h => .cons (h x (by simp)) (forall2_map l (fun y hy => h y (by simp [hy])))

theorem static_count {l : List FlowStep} : (Flow.static l).count = 0 := rfl
theorem dynamic_count {p : Page} {n : Nat} : (Flow.dynamic p n).count = n := rfl

theorem dynDrawn_none {env : Env} {nanoS : Bool} {d : Device} {s : Screen} (hs : d.screen = some s)
    (h : s.flow.count = 0) : List.Forall₂ Renders (d.dynPages env nanoS) (d.dynDrawn env nanoS) := by
  simp only [Device.dynPages, Device.dynDrawn, hs, h]
  exact .nil

theorem dynDrawn_renders {env : Env} {nanoS : Bool} {key : Bytes} {tr : List Obs} {d : Device}
    (h : Runs env nanoS key tr d) :
    List.Forall₂ Renders (d.dynPages env nanoS) (d.dynDrawn env nanoS) := by
  have hI := h.inv
  cases hs : d.screen with
  | none => simp only [Device.dynPages, Device.dynDrawn, hs]; exact .nil
  | some s =>
    obtain ⟨a, f0, p1, p2, p3⟩ := hI.asking _ hs
    have hc := p2.count
    cases hcb : s.cb <;> rw [hcb] at p3
    · obtain ⟨_, _, _, path, token, pub, chain, t, _, _, _, _, rfl, _⟩ := p3
      exact dynDrawn_none hs hc
    · obtain ⟨_, _, _, network, rest, path, token, pub, chain, raw, t, _, _, _, _, _, _, hf⟩ := p3
      rcases hf with ⟨_, rfl, _⟩ | ⟨_, w, _, _, rfl, _⟩
      · exact dynDrawn_none hs hc
      · exact dynDrawn_none hs hc
    · obtain ⟨_, _, _, _, x, s0, _, _, _, rfl, _⟩ := p3
      exact dynDrawn_none hs hc
    · obtain ⟨_, _, _, _, network, path, token, p, s0, t, _, _, _, _, _, rfl, _⟩ := p3
      exact dynDrawn_none hs hc
    · obtain ⟨_, _, _, _, x, S, t, oi, hx, hS, hB, hu, hoi, rfl⟩ := p3
      obtain ⟨_, _, _, _, _, _, _, _, _, hR, _, hw⟩ := sign_rel h hx hB.approved hS
      obtain ⟨hst, o, os, hD, hcp, hna, _⟩ := hw ⟨s, hs, hcb⟩
      obtain ⟨t', oi', o', os', hu', hoi', hD', hO, hT⟩ := hR.newest hst
      rw [hu] at hu'
      cases hu'
      rw [hoi] at hoi'
      cases hoi'
      simp only [Device.dynPages, Device.dynDrawn, hs]
      apply forall2_map
      intro k hk
      rw [List.mem_range, hc, dynamic_count] at hk
      have hlt := outputScreenCount_lt hO.toks.len
      simp only [Device.show, Device.draw, hcb, hx, hu, hoi]
      exact drawOutput_renders _ _ _ _ _ (by omega) (fun i _ => tableEntry_len hT.full.amt.ids i)
    · obtain ⟨_, _, _, x, S, hx, hS, hB, hu, hst, rfl⟩ := p3
      obtain ⟨_, _, _, _, _, _, _, _, _, hR, _⟩ := sign_rel h hx hB.approved hS
      obtain ⟨_, _, _, _, _, _, _, t, hT⟩ := hR.final hst
      simp only [Device.dynPages, Device.dynDrawn, hs]
      apply forall2_map
      intro k hk
      rw [List.mem_range, hc, dynamic_count] at hk
      have hlt : txScreenCount x.p.amounts < 256 := txScreenCount_lt hT.full.amt.len
      simp only [Device.show, Device.draw, hcb, hx, hu]
      exact drawTx_renders _ _ _ (by omega) (fun i _ => tableEntry_len hT.full.amt.ids i)

end Ergo
