import Verif.Proof.RefFlow
import Verif.Props.Pages
import Verif.Props.Consent
import Verif.Props.Replies
/-!
# The number of pages of the question on the screen (C80)
-/
namespace Ergo
open Spec

theorem ids_count {γ : Type} {L : List (Bytes × γ)} {C : List Bytes} {P : Bytes → Prop}
    [DecidablePred P] (hn : (L.map (·.1)).Nodup)
    (h : ∀ id, id ∈ L.map (·.1) ↔ id ∈ C ∧ P id) :
    L.length = (C.dedup.filter (fun id => P id)).length := by
  have hp : (L.map (·.1)).Perm (C.dedup.filter (fun id => P id)) := by
    rw [List.perm_ext_iff_of_nodup hn (C.nodup_dedup.filter _)]
    intro id
    rw [h, List.mem_filter, List.mem_dedup]
    simp
  rw [← hp.length_eq, List.length_map]

theorem tokenListPages_length {γ : Type} {nanoS : Bool} {value : Nat → γ → ShowRes}
    {L : List (Bytes × γ)} : (tokenListPages nanoS value L).length = 2 * L.length := by
  unfold tokenListPages
  rw [List.length_flatMap]
  simp only [List.length_cons, List.length_nil]
  rw [List.map_const', List.sum_replicate]
  simp
  omega

theorem tokRefs_table {table : List Bytes} {l : List (Nat × Nat)} {id : Bytes}
    (h : tokRefs table l id ≠ 0) : id ∈ table := by
  by_contra hc
  apply h
  apply tokRefs_other
  intro t _ he
  exact hc (List.mem_of_getElem? he)

theorem tokOut_table {D : TxDesc} {id : Bytes} (h : D.tokOut id ≠ 0) : id ∈ D.table := by
  by_contra hc
  apply h
  unfold TxDesc.tokOut
  rw [List.sum_eq_zero]
  intro x hx
  obtain ⟨o, ho, rfl⟩ := List.mem_map.1 hx
  by_contra h2
  exact hc (tokRefs_table h2)

theorem tokIn_inputs {D : TxDesc} {id : Bytes} (h : D.tokIn id ≠ 0) :
    id ∈ D.inputs.flatMap (fun i => i.tokens.map (fun t => t.1)) := by
  by_contra hc
  apply h
  unfold TxDesc.tokIn
  rw [List.sum_eq_zero]
  intro x hx
  obtain ⟨i, hi, rfl⟩ := List.mem_map.1 hx
  rw [List.filter_eq_nil_iff.2]
  · rfl
  · intro t ht he
    apply hc
    rw [List.mem_flatMap]
    exact ⟨i, hi, List.mem_map.2 ⟨t, ht, by simpa using he⟩⟩

/-- The title of the request that is on the screen, and the number of its pages. -/
theorem asked_pages {env : Env} {nanoS : Bool} {key : Bytes} {tr : List Obs} {d : Device}
    (h : Runs env nanoS key tr d) {s : Screen} (hs : d.screen = some s) :
    ∃ a, (know tr).pending = some a ∧ d.asks = some a.title ∧
      s.flow.ringPages = (know tr).pages a := by
  have hI := h.inv
  have hA := hI.asks hs
  obtain ⟨a, f0, p1, hf, p3⟩ := hI.asking _ hs
  refine ⟨a, p1, ?_, ?_⟩
  · rw [asks_eq hs hf]
    cases hcb : s.cb <;> rw [hcb] at p3
    · obtain ⟨q1, _, _, path, token, pub, chain, t, _, _, _, _, rfl, _⟩ := p3
      unfold Request.title; rw [if_pos q1]; rfl
    · obtain ⟨q1, _, _, network, rest, path, token, pub, chain, raw, t, _, _, _, _, _, _, h⟩ := p3
      unfold Request.title; rw [if_neg (by rw [q1]; decide), if_pos q1]
      rcases h with ⟨e, rfl, _⟩ | ⟨e, s, _, _, rfl, _⟩
      · rw [if_pos e]; rfl
      · rw [if_neg (by rw [e]; decide)]; rfl
    · obtain ⟨q1, _, _, _, x, s, _, _, _, rfl, _⟩ := p3
      unfold Request.title; rw [if_neg (by rw [q1]; decide), if_neg (by rw [q1]; decide), if_pos q1]; rfl
    · obtain ⟨q1, q2, _, _, network, path, token, p, s, t, _, _, _, _, _, rfl, _⟩ := p3
      unfold Request.title
      rw [if_neg (by rw [q1]; decide), if_neg (by rw [q1]; decide), if_neg (by rw [q1]; decide),
        if_pos q2]; rfl
    · obtain ⟨q1, q2, q3, _, x, S, t, o, _, _, _, _, _, rfl⟩ := p3
      unfold Request.title
      rw [if_neg (by rw [q1]; decide), if_neg (by rw [q1]; decide), if_neg (by rw [q1]; decide),
        if_neg (by rintro e; rw [e] at q2; exact absurd q2 (by decide)),
        if_neg (by rintro e; rw [e] at q3; exact absurd q3 (by decide))]; rfl
    · obtain ⟨q1, q2, _, x, S, _, _, _, _, _, rfl⟩ := p3
      unfold Request.title
      rw [if_neg (by rw [q1]; decide), if_neg (by rw [q1]; decide), if_neg (by rw [q1]; decide),
        if_neg (by rw [q2]; decide), if_pos q2]; rfl
  · unfold Ghost.pages
    cases hcb : s.cb <;> rw [hcb] at p3 hA
    · obtain ⟨q1, _, _, path, token, pub, chain, t, q2, _, _, _, rfl, _⟩ := p3
      rw [hf.pages, if_neg (by simp [q1]), if_neg (by rw [q1]; decide),
        if_neg (by rw [q1]; decide), if_neg (by simp [q1]), token_of_epk q1 q2]
      unfold Flow.ringPages epkSteps Flow.static
      by_cases e : token = 0 <;> simp [e]
    · obtain ⟨q1, _, _, network, rest, path, token, pub, chain, raw, t, q0, q2, _, _, _, _, h⟩ := p3
      rw [hf.pages, if_neg (by simp [q1]), if_neg (by rw [q1]; decide),
        if_neg (by rw [q1]; decide), token_of_da q1 q0 q2]
      rcases h with ⟨e1, rfl, _⟩ | ⟨e1, s, _, _, rfl, _⟩
      · rw [if_neg (by simp [e1])]
        unfold Flow.ringPages daSendSteps Flow.static
        by_cases e : token = 0 <;> simp [e]
      · rw [if_pos ⟨q1, e1⟩]
        unfold Flow.ringPages daShowSteps Flow.static
        by_cases e : token = 0 <;> simp [e]
    · obtain ⟨q1, _, _, _, x, s, q2, _, _, rfl, _⟩ := p3
      rw [hf.pages, if_neg (by simp [q1]), if_neg (by rw [q1]; decide), if_pos q1,
        token_of_attest q1 q2]
      unfold Flow.ringPages attestSteps Flow.static
      by_cases e : x.token = 0 <;> simp [e]
    · obtain ⟨q1, q3, _, _, network, path, token, p, s, t, q2, _, _, _, _, rfl, _⟩ := p3
      rw [hf.pages, if_neg (by rintro ⟨_, e⟩; exact e q3), if_pos q1, token_of_sign q1 q2]
      have hk : isKnown d.connectedApp token = true ↔ token ≠ 0 ∧ token = (know tr).app := by
        rw [isKnown_iff, hI.app]
        constructor
        · rintro ⟨_, e2, e3⟩; exact ⟨e2, e3⟩
        · rintro ⟨e2, e3⟩; exact ⟨by rw [← e3]; exact e2, e2, e3⟩
      unfold Flow.ringPages signInitSteps Flow.static
      by_cases e : isKnown d.connectedApp token = true
      · rw [if_pos (hk.1 e)]; simp [e]
      · rw [if_neg (fun g => e (hk.2 g))]; simp [e]
    · obtain ⟨q1, q2, q3, _, x, S, t, o, _, hS, _, _, _, rfl⟩ := p3
      have hA' : d.asks = some .confirmOutput := hA
      obtain ⟨S1, D, o, os, b1, rfl, b3, b4, b5⟩ := C33_partial h hA'
      obtain ⟨S3, o3, os3, c1, c2, c3, c4⟩ := C33_change_partial h hA'
      rw [hS] at b1 c1
      cases b1; cases c1
      rw [b3] at c2
      cases c2
      have hlen := (C40_slots h hs).2.2.2.2.1
      have hpos : 0 < s.flow.count := by rw [hf.count]; exact outputScreenCount_pos _
      have ne1 : ¬ a.p1 = 0x01 := by rintro e; rw [e] at q2; exact absurd q2 (by decide)
      have ne2 : ¬ a.p1 = 0x20 := by rintro e; rw [e] at q3; exact absurd q3 (by decide)
      rw [if_pos ⟨q1, ne1⟩, hS]
      simp only
      rw [if_neg ne2]
      unfold Flow.ringPages
      rw [if_neg (by omega), ← hlen, Nat.add_comm 1]
      congr 1
      by_cases hch : ∃ p, o.box.script = some (.change p)
      · obtain ⟨p, hp⟩ := hch
        obtain ⟨_, _, _, e | e⟩ := c4 p hp
        · rw [e, outputPages, b3]; simp [hp]
        · rw [e, outputPages, b3]; simp [hp]
      · have hn : ∀ p, o.box.script ≠ some (.change p) := fun p hp => hch ⟨p, hp⟩
        obtain ⟨first, L, e1, _, e2, e3, _⟩ := b5 hn
        have hm : outputPages (describe S.log) = 2 + 2 * ((describe S.log).table.dedup.filter
            (fun id => tokRefs (describe S.log).table o.box.tokens id ≠ 0)).length := by
          unfold outputPages
          rw [b3]
          dsimp only
          split
          · rename_i p hp; exact absurd hp (hn p)
          · rfl
        rw [hm, e1, List.length_cons, List.length_cons, tokenListPages_length]
        obtain ⟨_, _, _, _, o', os', D', _, hS', rfl, hD', _, _, _, _, hO, _⟩ := confirmingOutput h hA'
        rw [hS] at hS'
        cases hS'
        rw [b3] at hD'
        cases hD'
        rw [ids_count (P := fun id => tokRefs (describe S.log).table o.box.tokens id ≠ 0)
          (C := (describe S.log).table) e2]
        · omega
        · intro id
          constructor
          · intro hi
            obtain ⟨⟨id', b⟩, hm, rfl⟩ := List.mem_map.1 hi
            have := (listed_iff hO.uniq id' b).2 ((e3 id' b).1 hm)
            have hne : tokRefs (describe S.log).table o.box.tokens id' ≠ 0 := by
              rw [← this.1]; exact this.2
            exact ⟨tokRefs_table hne, hne⟩
          · rintro ⟨_, hne⟩
            exact List.mem_map.2 ⟨(id, _), (e3 id _).2 ((listed_iff hO.uniq id _).1 ⟨rfl, hne⟩), rfl⟩
    · obtain ⟨q1, q2, _, x, S, _, hS, _, _, _, rfl⟩ := p3
      have hA' : d.asks = some .approveSigning := hA
      obtain ⟨S1, D, amount, fee, L, a1, rfl, a3, _, _, a6, a7⟩ := C04_screen h hA'
      rw [hS] at a1
      cases a1
      have hlen := (C40_slots h hs).2.2.2.2.1
      have hpos : 0 < s.flow.count := by rw [hf.count]; exact txScreenCount_pos _
      rw [if_pos ⟨q1, by rw [q2]; decide⟩, hS]
      simp only
      rw [if_pos q2]
      unfold Flow.ringPages
      rw [if_neg (by omega), ← hlen, Nat.add_comm 1]
      congr 1
      rw [a3]
      simp only [List.length_cons]
      rw [tokenListPages_length]
      unfold finalPages
      rw [ids_count (P := fun id => (describe S.log).tokIn id ≠ (describe S.log).tokOut id)
        (C := (describe S.log).table ++
          (describe S.log).inputs.flatMap (fun i => i.tokens.map (fun t => t.1))) a6]
      · omega
      · intro id
        constructor
        · intro hi
          obtain ⟨⟨id', b⟩, hm, rfl⟩ := List.mem_map.1 hi
          obtain ⟨e1, e2⟩ := (a7 id' b).1 hm
          refine ⟨?_, show (describe S.log).tokIn id' ≠ (describe S.log).tokOut id' by omega⟩
          rw [List.mem_append]
          by_cases h0 : (describe S.log).tokIn id' = 0
          · exact .inl (tokOut_table (show (describe S.log).tokOut id' ≠ 0 by omega))
          · exact .inr (tokIn_inputs h0)
        · rintro ⟨_, hne⟩
          have hne' : (describe S.log).tokIn id ≠ (describe S.log).tokOut id := hne
          exact List.mem_map.2 ⟨(id, _), (a7 id _).2 ⟨rfl, by omega⟩, rfl⟩

end Ergo
