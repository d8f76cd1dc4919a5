import Verif.Proof.RefReply
import Verif.Props.Pages
/-!
# The reply to paging (C80)
-/
namespace Ergo
open Spec

/-- The pages about change. -/
theorem changePages {env : Env} {nanoS : Bool} {key : Bytes} {tr : List Obs} {d : Device}
    (h : Runs env nanoS key tr d) (hq : d.asks = some .confirmOutput) {S : SignSess} {o : OutDesc}
    {os : List OutDesc} {p : List UInt32} (hS : (know tr).sign = some S)
    (hD : (describe S.log).outputs = o :: os) (hsc : o.box.script = some (.change p)) :
    if 70 ≤ pathNeed p then d.dynPages env nanoS = [.err 0xE101]
    else ∃ q, d.dynPages env nanoS = [.page q] := by
  obtain ⟨s, x, S', oi, o', os', D, hs, hS', rfl, hD', hc, hna, hnet, hf, hO, hids, hrefs, hpaths, _, hp⟩ :=
    confirmingOutput h hq
  rw [hS] at hS'
  cases hS'
  rw [hD] at hD'
  cases hD'
  obtain ⟨g1, g2⟩ := hpaths p hsc
  have hfin : oi.finished = true := by rw [hO.finished]; exact hc
  have hs' := hO.script
  rw [hsc] at hs'
  have hcount : outputScreenCount oi = 1 := by
    unfold outputScreenCount; rw [if_neg (by simp [hs'.1])]
  have hpages : d.dynPages env nanoS = [match pathFormat p 70 with
      | none => .err Sw.bip32FormattingFailed
      | some t => .page ⟨.change, .text t⟩] := by
    rw [hp, hcount]
    simp only [List.range_one, List.map_cons, List.map_nil, showOutput, printAddress, hfin, hs'.1,
      hs'.2.2, textLen]
    rfl
  have hne : p ≠ [] := by rintro rfl; obtain ⟨_, _, _, _, e, _⟩ := g1; simp at e
  have hiff := pathFormat_iff p 70
  rw [hpages]
  split
  · have : pathFormat p 70 = none := by
      rw [← Option.not_isSome_iff_eq_none, hiff]
      rintro ⟨_, _, e⟩; omega
    rw [this]; rfl
  · obtain ⟨t, ht⟩ := Option.isSome_iff_exists.1 (hiff.2 ⟨hne, g2, by omega⟩)
    rw [ht]; exact ⟨_, rfl⟩

/-- The newest output of a session is described by one path at most. -/
theorem unshowable_iff {g : Ghost} {a : Request} {S : SignSess} {o : OutDesc} {os : List OutDesc}
    (ha : g.pending = some a) (ht : a.title = .confirmOutput) (hS : g.sign = some S)
    (hD : (describe S.log).outputs = o :: os) :
    Unshowable g ↔ ∃ p, o.box.script = some (.change p) ∧ 70 ≤ pathNeed p := by
  constructor
  · rintro ⟨a', S', o', os', p, h1, _, h3, h4, h5, h6⟩
    rw [hS] at h3
    cases h3
    rw [hD] at h4
    cases h4
    exact ⟨p, h5, h6⟩
  · rintro ⟨p, h5, h6⟩
    exact ⟨a, S, o, os, p, ha, ht, hS, hD, h5, h6⟩

/-- What drawing a page gives. -/
theorem drawn {env : Env} (hwf : env.WF) {nanoS : Bool} {key : Bytes} {tr : List Obs} {d : Device}
    (h : Runs env nanoS key tr d) {s : Screen} (hs : d.screen = some s) {f0 : Flow}
    (hf : FlowOk f0 s.flow) {k : Nat} (hk : k < f0.count) :
    (Unshowable (know tr) ∧ k = 0 ∧ d.show env nanoS s.cb k = .err 0xE101) ∨
    (¬ (Unshowable (know tr) ∧ k = 0) ∧ ∃ p, d.show env nanoS s.cb k = .page p) ∨
    (d.asks = some .approveSigning ∧ MintsHalf (know tr) ∧ d.show env nanoS s.cb k = .ub) := by
  have hI := h.inv
  have hdyn := dynPages_eq (env := env) (nanoS := nanoS) hs hf
  have hmem : d.show env nanoS s.cb k ∈ d.dynPages env nanoS := by
    rw [hdyn]; exact List.mem_map.2 ⟨k, List.mem_range.2 hk, rfl⟩
  have hlen : (d.dynPages env nanoS).length = f0.count := by rw [hdyn]; simp
  obtain ⟨a, ha, hat, _⟩ := asked_pages h hs
  have hcases : d.asks = some .confirmOutput ∨ d.asks = some .approveSigning := by
    have hA := hI.asks hs
    obtain ⟨a, f1, p1, hf1, p3⟩ := hI.asking _ hs
    have hc : f1.count = f0.count := by rw [← hf1.count, hf.count]
    cases hcb : s.cb <;> rw [hcb] at p3 hA
    · obtain ⟨q1, _, _, path, token, pub, chain, t, q2, _, _, _, rfl, _⟩ := p3
      have : (Flow.static (epkSteps t token)).count = 0 := rfl
      omega
    · obtain ⟨q1, _, _, network, rest, path, token, pub, chain, raw, t, q0, q2, _, _, _, _, h⟩ := p3
      rcases h with ⟨e1, rfl, _⟩ | ⟨e1, s, _, _, rfl, _⟩
      · have : (Flow.static (daSendSteps t token)).count = 0 := rfl
        omega
      · have : (Flow.static (daShowSteps t s token)).count = 0 := rfl
        omega
    · obtain ⟨q1, _, _, _, x, s, q2, _, _, rfl, _⟩ := p3
      have : (Flow.static (attestSteps x.token)).count = 0 := rfl
      omega
    · obtain ⟨q1, q3, _, _, network, path, token, p, s, t, q2, _, _, _, _, rfl, _⟩ := p3
      have : (Flow.static (signInitSteps d t token)).count = 0 := rfl
      omega
    · exact .inl hA
    · exact .inr hA
  have page : ∀ {ps : List Page}, d.dynPages env nanoS = ps.map .page →
      ∃ p, d.show env nanoS s.cb k = .page p := by
    intro ps e
    rw [e] at hmem
    obtain ⟨p, _, e⟩ := List.mem_map.1 hmem
    exact ⟨p, e.symm⟩
  rcases hcases with hq | hq
  · have ht : a.title = .confirmOutput := by rw [hq] at hat; exact (Option.some.inj hat).symm
    obtain ⟨S, o, os, hS, hD, hc, _⟩ := C33_change_partial h hq
    have hun := unshowable_iff ha ht hS hD
    by_cases hch : ∃ p, o.box.script = some (.change p)
    · obtain ⟨p, hp⟩ := hch
      have hch := changePages h hq hS hD hp
      by_cases hn : 70 ≤ pathNeed p
      · rw [if_pos hn] at hch
        rw [hch] at hmem hlen
        simp only [List.mem_singleton, List.length_singleton] at hmem hlen
        exact .inl ⟨hun.2 ⟨p, hp, hn⟩, by omega, hmem⟩
      · rw [if_neg hn] at hch
        obtain ⟨q, hch⟩ := hch
        refine .inr (.inl ⟨?_, page (ps := [q]) hch⟩)
        rintro ⟨hu, _⟩
        obtain ⟨p', hp', hn'⟩ := hun.1 hu
        rw [hp] at hp'
        cases hp'
        exact hn hn'
    · refine .inr (.inl ⟨?_, ?_⟩)
      · rintro ⟨hu, _⟩
        obtain ⟨p', hp', _⟩ := hun.1 hu
        exact hch ⟨p', hp'⟩
      · obtain ⟨ps, e⟩ := (C40_draws_partial hwf h hS rfl).1 hq (by
          intro p hp
          rw [hD] at hp
          exact absurd ⟨p, hp⟩ hch)
        exact page e
  · have hnu : ¬ Unshowable (know tr) := by
      rintro ⟨a', S', o', os', p, h1, h2, _⟩
      rw [ha] at h1
      cases h1
      rw [hq, h2] at hat
      simp at hat
    obtain ⟨S, D, amount, fee, L, hS, rfl, a3, _, _, _, a7⟩ := C04_screen h hq
    by_cases hm : MintsHalf (know tr)
    · cases hr : d.show env nanoS s.cb k with
      | page p => exact .inr (.inl ⟨fun e => hnu e.1, p, rfl⟩)
      | ub => exact .inr (.inr ⟨hq, hm, rfl⟩)
      | err sw =>
        exfalso
        rw [hr, a3] at hmem
        simp only [List.mem_cons, reduceCtorEq, false_or, tokenListPages, List.mem_flatMap] at hmem
        obtain ⟨⟨t, i⟩, _, h2⟩ := hmem
        simp only [List.not_mem_nil, or_false] at h2
        unfold balancePage at h2
        split at h2
        · simp at h2
        · split at h2 <;> simp at h2
    · obtain ⟨ps, e⟩ := (C40_draws_partial hwf h hS rfl).2 hq (by
        intro id e
        exact hm ⟨S, id, hS, e⟩)
      exact .inr (.inl ⟨fun e => hnu e.1, page e⟩)

/-- The reply to paging. -/
theorem reply_paged {env : Env} (hwf : env.WF) {nanoS : Bool} {key : Bytes} {tr : List Obs} {d : Device}
    (h : Runs env nanoS key tr d) {e : Event} (he : e = .left ∨ e = .right) :
    (d.step env nanoS e).2 = expected env key tr e ∨
      (d.step env nanoS e).2 = .ub ∧ d.asks = some .approveSigning ∧ MintsHalf (know tr) := by
  have hexp : ∀ r, (∀ s, d.screen = some s → ∀ f0, FlowOk f0 s.flow →
        (e = .left → r = paged (know tr) (some s.flow.left.flow.ringPos)) ∧
        (e = .right → r = paged (know tr) (some s.flow.right.flow.ringPos))) →
      (d.screen = none → r = .wait) → r = expected env key tr e := by
    intro r hr hn
    cases hs : d.screen with
    | none =>
      rw [hn hs]
      have hp := position_eq h
      rw [hs] at hp
      rcases he with rfl | rfl <;> unfold expected <;> dsimp only <;> rw [hp] <;> unfold paged <;>
        rw [if_neg (by simp)]
    | some s =>
      have hp := position_eq h
      rw [hs] at hp
      obtain ⟨a, f0, _, hf, _⟩ := h.inv.asking _ hs
      obtain ⟨r1, r2⟩ := hr s hs f0 hf
      have hpg := pagesNow_eq h hs
      rw [hf.pages] at hpg
      rcases he with rfl | rfl
      · rw [r1 rfl]; unfold expected; dsimp only
        rw [hp, hpg, hf.pos_left]; rfl
      · rw [r2 rfl]; unfold expected; dsimp only
        rw [hp, hpg, hf.pos_right]; rfl
  have wait : ∀ {s : Screen} {f0 f : Flow}, d.screen = some s → FlowOk f0 s.flow → FlowOk f0 f →
      (∀ k, f.cur = some k → ∃ p, d.show env nanoS s.cb k = .page p) →
      Reply.wait = paged (know tr) (some f.ringPos) := by
    intro s f0 f hs hf hf' hc
    unfold paged
    rw [if_neg]
    rintro ⟨hu, hp⟩
    have hp : f.ringPos = 0 + 1 := by simpa using hp
    have hcount : 0 < f0.count := by
      obtain ⟨a, S, o, os, p, u1, u2, _⟩ := hu
      obtain ⟨a', f1, p1, hf1, p3⟩ := h.inv.asking _ hs
      obtain ⟨a2, ha2, hat, _⟩ := asked_pages h hs
      rw [u1] at ha2
      cases ha2
      rw [u2] at hat
      have hA := h.inv.asks hs
      rw [hat] at hA
      cases hcb : s.cb <;> rw [hcb] at hA p3 <;> simp [AsksFor] at hA
      obtain ⟨_, _, _, _, x, S, t, oi, hx, hS, hB, hu, hoi, rfl⟩ := p3
      have := outputScreenCount_pos oi
      have e : f0.count = outputScreenCount oi := by rw [← hf.count, hf1.count]; rfl
      omega
    have := hf'.cur_of hp hcount
    obtain ⟨p, hpg⟩ := hc _ this
    rcases drawn hwf h hs hf hcount with ⟨_, _, e⟩ | ⟨e, _⟩ | ⟨_, _, e⟩
    · rw [hpg] at e; cases e
    · exact e ⟨hu, rfl⟩
    · rw [hpg] at e; cases e
  obtain ⟨d', r, hst, hT⟩ := step_cases env nanoS d e
  have hr2 : (d.step env nanoS e).2 = r := by rw [hst]
  rw [hr2]
  cases hT with
  | idle he' hs => exact .inl (hexp _ (fun s hs' => by rw [hs] at hs'; cases hs') (fun _ => rfl))
  | @move _ s m hm hs hd =>
    refine .inl (hexp _ ?_ (fun hn => rfl))
    intro s' hs' f0 hf
    rw [hs] at hs'
    cases hs'
    rcases hm with ⟨rfl, rfl⟩ | ⟨rfl, rfl⟩
    · refine ⟨fun _ => ?_, fun e => by cases e⟩
      exact wait hs hf hf.left.1 (fun k hk => hd k ((hf.left.2 k).2 hk))
    · refine ⟨(fun e => by cases e), fun _ => ?_⟩
      exact wait hs hf hf.right.1 (fun k hk => hd k ((hf.right.2 k).2 hk))
  | @moveErr _ s m k sw hm hs hd hk =>
    refine .inl (hexp _ ?_ (fun hn => by rw [hs] at hn; cases hn))
    intro s' hs' f0 hf
    rw [hs] at hs'
    cases hs'
    have go : ∀ {f : Flow}, FlowOk f0 f → f.cur = some k →
        status sw = paged (know tr) (some f.ringPos) := by
      intro f hf' hc
      obtain ⟨c1, _, c3⟩ := hf'.cur_pos hc
      rcases drawn hwf h hs hf c3 with ⟨u, k0, e⟩ | ⟨_, p, e⟩ | ⟨_, _, e⟩
      · rw [hk] at e
        cases e
        unfold paged
        rw [if_pos ⟨u, by rw [c1, k0]⟩]; rfl
      · rw [hk] at e; cases e
      · rw [hk] at e; cases e
    rcases hm with ⟨rfl, rfl⟩ | ⟨rfl, rfl⟩
    · exact ⟨fun _ => go hf.left.1 ((hf.left.2 k).1 hd), fun e => by cases e⟩
    · exact ⟨(fun e => by cases e), fun _ => go hf.right.1 ((hf.right.2 k).1 hd)⟩
  | @moveUb _ s m k hm hs hd hk =>
    right
    obtain ⟨a, f0, _, hf, _⟩ := h.inv.asking _ hs
    have hc : k < f0.count := by
      rcases hm with ⟨rfl, rfl⟩ | ⟨rfl, rfl⟩
      · exact (hf.left.1.cur_pos ((hf.left.2 k).1 hd)).2.2
      · exact (hf.right.1.cur_pos ((hf.right.2 k).1 hd)).2.2
    rcases drawn hwf h hs hf hc with ⟨_, _, e⟩ | ⟨_, p, e⟩ | ⟨e1, e2, _⟩
    · rw [hk] at e; cases e
    · rw [hk] at e; cases e
    · exact ⟨rfl, e1, e2⟩
  | _ => rcases he with he | he <;> cases he

end Ergo
