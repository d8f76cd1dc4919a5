import Verif.Spec.Forge
import Verif.Props.SessionKey
import Verif.Props.Authentic
import Verif.Props.Device
/-!
# Guessing the tag of a frame: two values of the unknown tag
-/
namespace Ergo
open Spec

theorem withTag_body {env : Env} {key body tag : Bytes} (h : tag.length = 16) :
    ((withTag env key body tag).hmac key body).take 16 = tag := by
  simp only [withTag, and_self, if_true]
  rw [← h, List.take_left]

theorem withTag_other {env : Env} {key body tag b : Bytes} (h : b ≠ body) (k : Bytes) :
    (withTag env key body tag).hmac k b = env.hmac k b := by
  simp only [withTag]
  rw [if_neg (fun hc => h hc.2)]

theorem presents_some {body tag : Bytes} {o : Obs} (h : presents body o = some tag) :
    ∃ cla p2 data rnd, o.event = .apdu cla 0x21 0x12 p2 data rnd ∧ data.take (tagAt data) = body ∧
      (data.drop (tagAt data)).take 16 = tag := by
  unfold presents at h
  split at h
  · rename_i cla ins p1 p2 data rnd he
    split at h
    · rename_i hc
      obtain ⟨rfl, rfl, hb⟩ := hc
      exact ⟨cla, p2, data, rnd, he, hb, by simpa using h⟩
    · cases h
  · cases h

theorem presents_eq {body : Bytes} {o : Obs} {cla p2 data rnd} (he : o.event = .apdu cla 0x21 0x12 p2 data rnd)
    (hb : data.take (tagAt data) = body) : presents body o = some ((data.drop (tagAt data)).take 16) := by
  unfold presents
  rw [he]
  simp [hb]

/-- As long as neither value is presented and the body is not sent, the two worlds cannot be told apart. -/
theorem couple {env : Env} {nanoS : Bool} {key body τ τ' : Bytes} (hτ : τ.length = 16) (hτ' : τ'.length = 16)
    {tr : List Obs} {d : Device} (h : Runs (withTag env key body τ) nanoS key tr d)
    (h1 : ∀ o ∈ tr, presents body o ≠ some τ) (h2 : ∀ o ∈ tr, presents body o ≠ some τ')
    (h3 : ¬ FrameSent body tr) : ∃ d', Runs (withTag env key body τ') nanoS key tr d' := by
  obtain ⟨tr', d', g1, g2, g3, _⟩ := C64_key (env := withTag env key body τ) (env' := withTag env key body τ') ⟨rfl, rfl, rfl, rfl, rfl, rfl⟩ key h
    (tr.map (·.event)) (by
      refine List.forall₂_same.2 fun e he => ?_
      obtain ⟨o, ho, rfl⟩ := List.mem_map.1 he
      cases hev : o.event with
      | left => exact .left
      | right => exact .right
      | both => exact .both
      | apdu cla ins p1 p2 data rnd =>
        by_cases hc : ins = 0x21 ∧ p1 = 0x12
        · obtain ⟨rfl, rfl⟩ := hc
          refine .frame (.same ?_)
          unfold TagOk
          by_cases hb : data.take (tagAt data) = body
          · have e := presents_eq hev hb
            rw [hb, withTag_body hτ, withTag_body hτ']
            refine iff_of_false (fun hh => h1 o ho (by rw [e, hh])) (fun hh => h2 o ho (by rw [e, hh]))
          · rw [withTag_other hb, withTag_other hb]
        · exact .other hc)
  refine ⟨d', ?_⟩
  have : tr' = tr := by
    clear h g1 h1 h2
    induction g3 with
    | nil => rfl
    | @cons o o' l l' h1 h2 ih =>
      simp only [List.map_cons, List.cons.injEq] at g2
      have hl := ih (fun ⟨x, hx, hy⟩ => h3 ⟨x, by simp [hx], hy⟩) g2.2
      subst hl
      congr 1
      obtain ⟨asked, here, e, r⟩ := o
      obtain ⟨asked', here', e', r'⟩ := o'
      obtain ⟨q1, q2, q3⟩ := h1
      simp only at q1 q2 q3 g2
      obtain ⟨rfl, _⟩ := g2
      subst q1 q2
      congr 1
      rcases q3 with q3 | ⟨q3, b, q4, q5⟩
      · exact q3
      · by_cases hb : b = body
        · subst hb
          exfalso
          refine h3 ⟨⟨asked', here', e', r⟩, List.mem_cons_self, q3, _, ?_, q4⟩
          rw [withTag_body hτ, hτ]
        · rw [withTag_other hb] at q4 q5
          rw [q4, q5]
  rw [← this]
  exact g1

theorem Runs.tail {env : Env} {nanoS : Bool} {key : Bytes} {tr1 : List Obs} : ∀ {tr2 : List Obs} {d : Device},
    Runs env nanoS key (tr2 ++ tr1) d → ∃ d1, Runs env nanoS key tr1 d1
  | [], d, h => ⟨d, h⟩
  | _ :: _, _, h => by
    cases h with
    | step e h _ _ => exact h.tail

theorem follows_tail {σ : Strategy} {tr1 : List Obs} : ∀ {tr2 : List Obs}, Follows σ (tr2 ++ tr1) → Follows σ tr1
  | [], h => h
  | _ :: tr2, h => follows_tail (tr2 := tr2) h.2

/-- In one world the strategy determines what is seen. -/
theorem follows_det {env : Env} {nanoS : Bool} {key : Bytes} {σ : Strategy} {tr : List Obs} {d : Device}
    (h : Runs env nanoS key tr d) : ∀ {tr' : List Obs} {d' : Device}, Runs env nanoS key tr' d' →
    Follows σ tr → Follows σ tr' → tr.length = tr'.length → tr = tr' ∧ d = d' := by
  induction h with
  | boot =>
    intro tr' d' h' _ _ hl
    cases h' with
    | boot => exact ⟨rfl, rfl⟩
    | step e _ _ _ => simp at hl
  | step e _ _ _ ih =>
    intro tr' d' h' f f' hl
    cases h' with
    | boot => simp at hl
    | step e' r' _ _ =>
      obtain ⟨rfl, rfl⟩ := ih r' f.2 f'.2 (by simpa using hl)
      have : e = e' := f.1.trans f'.1.symm
      subst this
      exact ⟨rfl, rfl⟩

theorem first_such {α : Type} {p : α → Prop} : ∀ {l : List α}, (∃ x ∈ l, p x) →
    ∃ l2 x l1, l = l2 ++ x :: l1 ∧ p x ∧ ∀ y ∈ l1, ¬ p y
  | [], h => by simp at h
  | a :: l, h => by
    by_cases hl : ∃ x ∈ l, p x
    · obtain ⟨l2, x, l1, rfl, h1, h2⟩ := first_such hl
      exact ⟨a :: l2, x, l1, rfl, h1, h2⟩
    · obtain ⟨x, hx, hp⟩ := h
      rcases List.mem_cons.1 hx with rfl | hx
      · exact ⟨[], x, l, rfl, hp, fun y hy hy' => hl ⟨y, hy, hy'⟩⟩
      · exact absurd ⟨x, hx, hp⟩ hl

/-- Where the tag is presented for the first time. -/
theorem first_guess {env : Env} {nanoS : Bool} {key body τ : Bytes} {σ : Strategy} {q : Nat} {tr : List Obs}
    {d : Device} (h : Runs env nanoS key tr d) (hf : Follows σ tr)
    (hb : BeforeSent body tr fun o => presents body o = some τ) (hq : attempts body tr ≤ q) :
    ∃ o tr1 d1, Runs env nanoS key (o :: tr1) d1 ∧ Follows σ (o :: tr1) ∧ presents body o = some τ ∧
      (∀ x ∈ tr1, presents body x ≠ some τ) ∧ ¬ FrameSent body tr1 ∧ attempts body (o :: tr1) ≤ q := by
  obtain ⟨tr2, o, tr1, rfl, h1, h2⟩ := hb
  obtain ⟨l2, o', l1, e, g1, g2⟩ := first_such (p := fun o => presents body o = some τ) (l := o :: tr1) ⟨o, by simp, h1⟩
  rw [e] at h hf hq
  rw [← List.append_assoc] at h hf hq
  obtain ⟨d1, hd⟩ := h.tail
  refine ⟨o', l1, d1, hd, follows_tail hf, g1, g2, ?_, ?_⟩
  · rintro ⟨x, hx, hy⟩
    refine h2 ⟨x, ?_, hy⟩
    cases l2 with
    | nil => simp only [List.nil_append, List.cons.injEq] at e; rw [e.2]; exact hx
    | cons a l2 => simp only [List.cons_append, List.cons.injEq] at e; rw [e.2]; simp [hx]
  · unfold attempts at hq ⊢
    rw [List.filterMap_append, List.length_append] at hq
    omega

end Ergo
