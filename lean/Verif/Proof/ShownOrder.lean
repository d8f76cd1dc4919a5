import Verif.Spec.Display
import Verif.Proof.Pages
/-!
# The order of the tokens on the screens (C81)
-/
namespace Ergo
open Spec

theorem eraseDups_snoc (l : List Bytes) (x : Bytes) :
    (l ++ [x]).eraseDups = if x ∈ l then l.eraseDups else l.eraseDups ++ [x] := by
  rw [List.eraseDups_append]
  unfold List.removeAll
  by_cases h : x ∈ l
  · rw [if_pos h]; simp [h]
  · rw [if_neg h]; simp [h, List.eraseDups_cons]

theorem eraseDups_spec : ∀ l : List Bytes, l.eraseDups.Nodup ∧ ∀ x, x ∈ l.eraseDups ↔ x ∈ l := by
  intro l
  induction l using List.reverseRecOn with
  | nil => simp
  | append_singleton l x ih =>
    rw [eraseDups_snoc]
    obtain ⟨h1, h2⟩ := ih
    split
    · rename_i hx
      refine ⟨h1, fun y => ?_⟩
      rw [h2, List.mem_append, List.mem_singleton]
      constructor
      · exact .inl
      · rintro (h | rfl)
        · exact h
        · exact hx
    · rename_i hx
      refine ⟨?_, fun y => ?_⟩
      · rw [List.nodup_append]
        refine ⟨h1, by simp, ?_⟩
        rintro a ha b hb rfl
        simp only [List.mem_singleton] at hb
        subst hb
        exact hx ((h2 _).1 ha)
      · rw [List.mem_append, List.mem_append, h2]

theorem tableFind_left {t e : List Bytes} {id : Bytes} (h : id ∈ t) :
    tableFind (t ++ e) id = tableFind t id := by
  obtain ⟨i, hi⟩ := tableFind_mem h
  rw [tableFind_append, hi]; rfl

theorem tableFind_snoc {t : List Bytes} {id : Bytes} (h : id ∉ t) :
    tableFind (t ++ [id]) id = some t.length := by
  have hn := tableFind_none.2 h
  unfold tableFind at hn ⊢
  rw [List.findIdx?_append, hn]
  simp

theorem Before.append {t e : List Bytes} {a b : Bytes} (h : Before t a b) : Before (t ++ e) a b := by
  obtain ⟨i, j, h1, h2, h3⟩ := h
  refine ⟨i, j, ?_, ?_, h3⟩
  · rw [tableFind_left (List.mem_of_getElem? (tableFind_some h1).1)]; exact h1
  · rw [tableFind_left (List.mem_of_getElem? (tableFind_some h2).1)]; exact h2

/-- First occurrences come in the order of the list. -/
theorem eraseDups_before : ∀ l : List Bytes, l.eraseDups.Pairwise (Before l) := by
  intro l
  induction l using List.reverseRecOn with
  | nil => simp
  | append_singleton l x ih =>
    rw [eraseDups_snoc]
    have ih' := ih.imp (fun h => Before.append (e := [x]) h)
    split
    · exact ih'
    · rename_i hx
      rw [List.pairwise_append]
      refine ⟨ih', by simp, ?_⟩
      intro a ha b hb
      simp only [List.mem_singleton] at hb
      subst hb
      have ha := ((eraseDups_spec l).2 a).1 ha
      obtain ⟨i, hi⟩ := tableFind_mem ha
      refine ⟨i, l.length, by rw [tableFind_left ha]; exact hi, tableFind_snoc hx, ?_⟩
      have := (tableFind_some hi).1
      rw [List.getElem?_eq_some_iff] at this
      exact this.1

/-- A list of tokens is given by its contents and the order of the table. -/
theorem listed_eq {γ : Type} {table : List Bytes} {L : List (Bytes × γ)} {P : Bytes → Prop}
    [DecidablePred P] {amt : Bytes → γ} (hn : (L.map (·.1)).Nodup)
    (hm : ∀ id a, (id, a) ∈ L ↔ a = amt id ∧ P id) (hP : ∀ id, P id → id ∈ table)
    (ho : (L.map (·.1)).Pairwise (Before table)) :
    L = (table.eraseDups.filter (fun id => P id)).map (fun id => (id, amt id)) := by
  have hids : L.map (·.1) = table.eraseDups.filter (fun id => P id) := by
    apply List.Perm.eq_of_pairwise (le := Before table)
    · intro a b _ _ h1 h2
      obtain ⟨i, j, e1, e2, e3⟩ := h1
      obtain ⟨i', j', f1, f2, f3⟩ := h2
      rw [e1] at f2
      rw [e2] at f1
      cases f1; cases f2
      omega
    · exact ho
    · exact (eraseDups_before table).filter _
    · rw [List.perm_ext_iff_of_nodup hn ((eraseDups_spec table).1.filter _)]
      intro id
      rw [List.mem_filter, (eraseDups_spec table).2]
      simp only [decide_eq_true_eq]
      constructor
      · intro hi
        obtain ⟨⟨id', b⟩, h1, rfl⟩ := List.mem_map.1 hi
        have := ((hm _ _).1 h1).2
        exact ⟨hP _ this, this⟩
      · rintro ⟨_, h1⟩
        exact List.mem_map.2 ⟨(id, amt id), (hm _ _).2 ⟨rfl, h1⟩, rfl⟩
  rw [← hids, List.map_map]
  conv_lhs => rw [← List.map_id L]
  apply List.map_congr_left
  rintro ⟨id, a⟩ h
  rw [((hm _ _).1 h).1]; rfl

theorem mem_grow (t ids : List Bytes) (x : Bytes) : x ∈ grow t ids ↔ x ∈ t ∨ x ∈ ids := by
  obtain ⟨e, h1, _, h3⟩ := grow_set ids t
  rw [h1, List.mem_append, h3]
  tauto

/-- Entering ids that are there already does not matter for first occurrences. -/
theorem eraseDups_grow (t ids : List Bytes) : (grow t ids).eraseDups = (t ++ ids).eraseDups := by
  induction ids using List.reverseRecOn with
  | nil => simp [grow]
  | append_singleton ids x ih =>
    have e : grow t (ids ++ [x]) = if x ∈ grow t ids then grow t ids else grow t ids ++ [x] := by
      unfold grow; rw [List.foldl_append]; rfl
    rw [e, ← List.append_assoc, eraseDups_snoc]
    have hm := mem_grow t ids x
    rw [← List.mem_append] at hm
    by_cases h : x ∈ grow t ids
    · rw [if_pos h, if_pos (hm.1 h), ih]
    · rw [if_neg h, if_neg (fun g => h (hm.2 g)), eraseDups_snoc, if_neg h, ih]

end Ergo
